/-
Generated by tools/gen_tables.py from spherical_functions/Wigner_coefficients.npy: bytes 323400 to 431640 after the header.
-/
set_option autoImplicit false
namespace SF

/-- The coefficients for `2 ell = 49`: one number for each of the 50 values of `mp`, consisting of the doubles for the 50 values of `m`. -/
def wigner49 : List Nat := [
  0x3ff0000000000000401bffffffffffff4041257c5187fd084060f7856a3bc8a4407cc4cc6649ebff409593994cb770ff40ad36fcf880d18740c21a20dea06aaf40d4bd0fa04efae540e621c34da89dd640f621c34da89dd64104d623b042311041128a15d7b0adab411f46e7ec6aba4f412913ce9006c71741332735603cc001413beb97dd7762a34143733b55425c6b4149eef9c70325e4415090172d03adee41544907752b415e4157d6885aa3f49f415ae495d6c24aed415d2342948d8a6e415e53d81345891a415e53d81345891a415d2342948d8a6e415ae495d6c24aed4157d6885aa3f49f41544907752b415e415090172d03adee4149eef9c70325e44143733b55425c6b413beb97dd7762a341332735603cc001412913ce9006c717411f46e7ec6aba4f41128a15d7b0adab4104d623b042311040f621c34da89dd640e621c34da89dd640d4bd0fa04efae540c21a20dea06aaf40ad36fcf880d187409593994cb770ff407cc4cc6649ebff4060f7856a3bc8a44041257c5187fd08401bffffffffffff3ff0000000000000,
  0x401c0000000000004048000000000000406cc810ad6d68bc408bdfc8e562375840a71e243fe91da440c0f3f873226b1240d66ecb6362ea0840eb27314df0a00640fe5dfb73e15d19410f9df26ef0e17b411ed3992c2adbd8412c47306f35429541387f9cdd04e57d41441b4bf3692ea0414f58c2340878dc415741e56292e925416073f97def7eb241663a8cf3b98e31416cb64b657a57ab4171bef44283f1354175027e94c83a8f4177d6885aa3f49f4179eeb50f16c840417b0e74ae836e41417b1400eca2a8214179feb9351707cd4177ef3fd57443ff4175215128bd3adf4171e0e643faf777416cfa9cf086efab41667a689884fe554160abe9b6cb2aa541579e35c2f52715414fe8ad8f63de71414485700baecdb8413913ce9006c717412d0afbedd0d192411fc82571c129b741105f1c0a7d268c40ff9df26ef0e17b40ec748d63d8caef40d7b37f92a367e140c21a20dea06aaf40a90a8fb06e6a74408ed2daffe17cdb40707074ccbc86db404d160948667c884023988e1409212e3ff0000000000000401c000000000000,
  0x4041257c5187fd08406cc810ad6d68bc4090e4000000000040b000a5e4a3fbc340c9f4321e53d89d40e299ac7399f4d740f80a469ce6bee3410c67e4fef5b2f8411efe4992c5c66c412f76542d6ffb86413de39cc4c3fbbf414ab254e01f2a2a415680d81aed5d6f4161f4c20a38f401416b31b320600a7941739540a3bd1c14417ade202ccc83674181951e254b5ba74185fa65ae9e3291418a431e39fa4933418e052a0196ab3f41906c268ef713984191342435dd025d4191424d7e663bed419094f7ca9ceccc418e82bdb23f7644418adef51b70b25f4186a4e774d8820441823f4749844ea9417c1902bea63dea4174a5c304f9bdf6416ced108fef96c8416348b5b54a648541586cd76e8b602f414d52796da40eaa4140a2ec13ce54b64131c8fab4cab24a4121d727ddff106a4110b5888389209540fd0ac3db2c4aa340e73bcfe289d54f40d0eed487225feb40b62b9fff3027c840998ec0705f9f9040792adb4432466a40542249035b6b884027bfa9c41ab0403ff00000000000004023988e1409212e4041257c5187fd08,
  0x4060f7856a3bc8a4408bdfc8e562375840b000a5e4a3fbc340cda6000000000040e77f143309d4c34100728e23ba14ef4114c067f5d3173b4127ec0a393d85d1413972d417d04cf641492bd1efa43189415748889744add241643bfdab57689b4170951156bf6ee04179b4fc8dfc2d754182e4d1373f6956418a631285e89d734191892177ff54bd419635effc9f49a7419ad681fbeb23aa419ef6a43aa86a0441a110a6ae4c229841a1fab18e37390741a21c31fa470f8541a1710efc5972f041a00f24e2e0e834419c439d146d1dcd4197c2c8998cc2fc419311dfbaf57e2f418d3275abdf25e941854bd8d626af2a417d8f679189534e41737cf399f082b041685c30806ca35c415ccc2df45bfe0741500d08df251cb24140cffdcbdb55cb413079baf59a04c0411e0c7a5aa45e2c41095432fa2b23e740f390f61aab299d40db648bbeefa0a940c11cb3e30e83dd40a2abbd0d74b35e408137fe243d3a6b40596f096aa9c320402b211b1c70d0233ff00000000000004027bfa9c41ab040404d160948667c884060f7856a3bc8a4,
  0x407cc4cc6649ebff40a71e243fe91da440c9f4321e53d89d40e77f143309d4c341023018000000004118db5400000000412e98b728b6565f414131d5a75f48214151d2a7d00081ea41612a29e4295742416ee57e9ab0d043417a1acb7fb04af34184c828c5a6d4d9418f45162c6950d641964932c8a97f95419e26da7786789641a36425898bb19941a7be01b182446441abb301f9c2a52041aed0db59b0c28541b05acbc77eeb2d41b091703b2cbf6141b0056b0c72dc4441ad92e0068988d041aa0bb4d5dc835841a5e0df94ec6e5441a184499d78d8ea419ab608af158fe941935f3864b259dc418ab0903b60b26541816f03009b269d41758cdb182681da41692454f1824229415b994bb27f4055414c662119182818413b447a5eed80ff41284ab43e3a639b4113efdf7bbdc27c40fde058125f1e7b40e431b7a8584d5640c83ba93069f66740a93afe65116d84408605df37641a6c405e7713ada69916402e0000000000003ff0000000000000402b211b1c70d02340542249035b6b8840707074ccbc86db407cc4cc6649ebff,
  0x409593994cb770ff40c0f3f873226b1240e299ac7399f4d74100728e23ba14ef4118db540000000041309238000000004143e343da7684f04155c7a83a679fa14165fb466f7817b2417498ff11cb3582418205df2f91ced2418d95d590b6bb584196dc2cd96ab6ee41a0ad6128c0b3a541a7075f24af25f841ae26da7786789641b2beacd1c2c54741b628ce6168841941b8ede82d95949d41bab5025ecc645141bb41fe4c7e32a041ba824d2b7acbcf41b890d7575ac93641b5aff99e64dbcc41b23b64fc1a5bf041ad2bd4c690931a41a63018faaa23d341a006d202a6898c4195f4731cca2193418c7811506724b041816f03009b269d41741d10c13501ba4165ca277bf96c8a4156143c8ecc33774144d36d9aef94de41322da6e9f3ab55411d2671e446112141054421950ead5140ebe2745569d82e40d027c62046a44440b027c62046a444408ae997e345ca2640619e4c2c50152340303f81f636b80b3ff0000000000000402e00000000000040596f096aa9c32040792adb4432466a408ed2daffe17cdb409593994cb770ff,
  0x40ad36fcf880d18740d66ecb6362ea0840f80a469ce6bee34114c067f5d3173b412e98b728b6565f4143e343da7684f041574191800000004168cc6c2bd7413a41785a06f56d2f0d41862f489af7d6294192db641d52a93c419e0b43d8ef4b2d41a682d2e1e49eb141afd1a063abeff941b542869104b5ce41bae86851b5c4fa41c026bb845e9d4241c26959c405e06541c3f2213f065dc241c48bdc42fb755141c42196f269d8ff41c2c32e89a208bd41c0a190cb6140d741bc07b59761d65241b6712a5a9dfef141b10e536396cbff41a8948b8ca0a05f41a0c4b0781fbac941959ea2dfc6de0f418a483e4b31c056417e0b05d2f1bea3417017bd6c1638da416017bd6c1638da414de52a1ae1d0374139a288ce1661934124236cb79d1716410cb481fb66b7e040f252e23190fce640d4981916153c8d40b3e2c929cb05f1408fd141dc7809824063e04d47ddad7f4031596f1acc669b3ff000000000000040303f81f636b80b405e7713ada69916408137fe243d3a6b40998ec0705f9f9040a90a8fb06e6a7440ad36fcf880d187,
  0x40c21a20dea06aaf40eb27314df0a006410c67e4fef5b2f84127ec0a393d85d1414131d5a75f48214155c7a83a679fa14168cc6c2bd7413a4179ba8180000000418890289f471f574195bcec85955bbd41a1ef0fee34d21641abb51307f74a6741b41c8952313dcc41bb829773b3fda941c1c4adb010572441c5b693affd983341c922b1caed23ca41cb977f9636c1f241ccbdcf91ce5f5c41cc6c28d5fcea4a41cab01a6ffebe9c41c7cab7ae6a51ca41c42171292f0d7441c028029634f42241b893c552853ed141b1b213312cbc9641a815d62b8ace69419eeda5e2d804154192b12abbeef77b418535553e38e373417682f0fcf96fec416642fd1a8f775d41546812adae2d6b41413b35ee48a586412a98a5c225279341129275b646dcd240f729da6d03f9c140d95912a403166b40b7bd92d2cb5c6f409256d92647b823406601d16122dcf74032548eb9151e853ff00000000000004031596f1acc669b40619e4c2c501523408605df37641a6c40a2abbd0d74b35e40b62b9fff3027c840c21a20dea06aaf40c21a20dea06aaf,
  0x40d4bd0fa04efae540fe5dfb73e15d19411efe4992c5c66c413972d417d04cf64151d2a7d00081ea4165fb466f7817b241785a06f56d2f0d418890289f471f574196c7cd5400000041a3914272ff417041af4ed0b7fecf1a41b76ddd0836b84b41c07522a4a5855941c5c2f87ae179df41cb24389bfcfe3f41cffb9f09b7034141d1d389a9603d8d41d2d0d15f528bda41d2d0d15f528bda41d1d4e4196d2d1741d003f08fd75eb541cb41cb22e0c96441c5f6ddc1fd3c2d41c0bf1e804d0d8f41b82265719c10d041b0694f38c648df41a505fbc15ccaeb41994f258aff277c418c8d7695cfe445417e150de83b3fb6416d79762055f8f4415ab7eac5e45e35414643ee4f93a3d74130ebb90ee130754117371323d8940640fc5e8eacf46e7a40de540017bd86e340bba828ad71458d4094b8f0eb783884406802ffd005ff10403335997337ff403ff00000000000004032548eb9151e854063e04d47ddad7f408ae997e345ca2640a93afe65116d8440c11cb3e30e83dd40d0eed487225feb40d7b37f92a367e140d4bd0fa04efae5,
  0x40e621c34da89dd6410f9df26ef0e17b412f76542d6ffb8641492bd1efa4318941612a29e4295742417498ff11cb358241862f489af7d6294195bcec85955bbd41a3914272ff417041b04c58a000000041b94322f800000041c24b8b6191126f41c8d87c202b69c041cfb85e3c2a1c1441d31315911d263b41d5a4ff39f1421841d7333506f50fac41d78215a3710c5b41d68754bca1abd741d46c0d599f903541d1821efc73df3a41cc60fd08195c3441c5b9946b82e3d041bf626d21a9472541b55bc92e23fbf841ab56c41219947041a06a9f7bf225374192721297e6995b418352b3704ca1454172cacf7cc65c084160e0cfb4f80a29414bd16fed16d6864134dd13f1d120e4411c3003fb50e3b64100eb60aa8b21b140e1b8e2333fb3f540bf938de61d365440970940ebcdab584069e3f0dbfc30de40340000000000003ff0000000000000403335997337ff40406601d16122dcf7408fd141dc78098240b027c62046a44440c83ba93069f66740db648bbeefa0a940e73bcfe289d54f40ec748d63d8caef40e621c34da89dd6,
  0x40f621c34da89dd6411ed3992c2adbd8413de39cc4c3fbbf415748889744add2416ee57e9ab0d043418205df2f91ced24192db641d52a93c41a1ef0fee34d21641af4ed0b7fecf1a41b94322f800000041c2f25a3a00000041ca8723b3df278841d16456e35196d341d5693f9bcf9fc141d8cc026fd9181a41db0e3f086d929e41dbd70c6ebfac6841db08cc158ece3541d8c81069183d0641d571746ae78a9e41d1821efc73df3a41caf5bd2e18179841c38d6bfa5c336e41baad4329697c7941b1163a8b4ffcc641a481130d932f544196fbac13ec9a804187fab1c578942a4177300a86c25b1f4164abe43c73cba24150e0cfb4f80a294139094b222e27784120b0dcc1741a504103bb35fcb89f6640e44da7330d5ba140c1b8e2333fb3f5409942d7eb4a91dd406ba4b44e2a00d04034b65a49968d7e3ff00000000000004034000000000000406802ffd005ff10409256d92647b82340b3e2c929cb05f140d027c62046a44440e431b7a8584d5640f390f61aab299d40fd0ac3db2c4aa340ff9df26ef0e17b40f621c34da89dd6,
  0x4104d623b0423110412c47306f354295414ab254e01f2a2a41643bfdab57689b417a1acb7fb04af3418d95d590b6bb58419e0b43d8ef4b2d41abb51307f74a6741b76ddd0836b84b41c24b8b6191126f41ca8723b3df278841d1ee4f6c00000041d6abf23d52f36f41dae09100c90fa241ddee1ea41cd17d41df59a7d8b5aefa41deea3c00bb483941dcb7102fc6be7541d9202e29cde6a741d4b4aadecbe06341d00f93f8e32b1441c76df19abb25b641c00c49e84d612441b49b84aedbbca341a8bfb149f658b0419bb7f9c37a4eda418cd9b9c19a0817417bc91853a16e104168a115b8ab01cd4153f5e60c9df8f9413d55fc8fc17c604123571902437ddf41069047d7f9682f40e6dcfe8619eed040c39ae6b1be657b409b615ea691e6ce406d4554d8f273b340355aaa002a9d593ff00000000000004034b65a49968d7e4069e3f0dbfc30de4094b8f0eb78388440b7bd92d2cb5c6f40d4981916153c8d40ebe2745569d82e40fde058125f1e7b41095432fa2b23e74110b5888389209541105f1c0a7d268c4104d623b0423110,
  0x41128a15d7b0adab41387f9cdd04e57d415680d81aed5d6f4170951156bf6ee04184c828c5a6d4d94196dc2cd96ab6ee41a682d2e1e49eb141b41c8952313dcc41c07522a4a5855941c8d87c202b69c041d16456e35196d341d6abf23d52f36f41db9aa96d00000041df774d1521e38b41e0d1bd5367ad8a41e0e21c7aa271dc41dfd998792ffaf641dc3d258756916741d78849f0c823d641d26c4dae3fa44541cb1385aafab13941c2a6f35f8798e141b80c6c81870a2941acf3769f9ef9a841a039be6a9c8d094190dfe4c0cbc5e04180366b63a0b4c5416ca039ec8bf75241571140c54af1024140d345cfa9f2074125faff5ba6464c41095bfa9efe028b40e95bfa9efe028b40c569d4d3a74662409d6102b4bdcebc406ec5d9fad6c54e4035ee84b0d1f8753ff000000000000040355aaa002a9d59406ba4b44e2a00d040970940ebcdab5840bba828ad71458d40d95912a403166b40f252e23190fce641054421950ead514113efdf7bbdc27c411e0c7a5aa45e2c4121d727ddff106a411fc82571c129b741128a15d7b0adab,
  0x411f46e7ec6aba4f41441b4bf3692ea04161f4c20a38f4014179b4fc8dfc2d75418f45162c6950d641a0ad6128c0b3a541afd1a063abeff941bb829773b3fda941c5c2f87ae179df41cfb85e3c2a1c1441d5693f9bcf9fc141dae09100c90fa241df774d1521e38b41e1377b3c00000041e1a378916ec4ec41e0ef919db2dc1741de7f360c9ce2ea41d9c06a0bfa666941d462fe9ed0e66941ce3d9e0b23cc6141c4fcda7e2c4f4341bb37022218856741b072a1a89893cd41a27b122c07925a41933c413adf740a41827748dc5ba29941704357abddb3fd415a1ac46266297c4142ee9d4f5ef8a041288ca1a133689c410c0fee99a2cd3b40ebc035d648510e40c7202cdd3c438c409f3e665be98228407013248c6f7d384036732f8d0e2f763ff00000000000004035ee84b0d1f875406d4554d8f273b3409942d7eb4a91dd40bf938de61d365440de540017bd86e340f729da6d03f9c1410cb481fb66b7e0411d2671e446112141284ab43e3a639b413079baf59a04c04131c8fab4cab24a412d0afbedd0d192411f46e7ec6aba4f,
  0x412913ce9006c717414f58c2340878dc416b31b320600a794182e4d1373f695641964932c8a97f9541a7075f24af25f841b542869104b5ce41c1c4adb010572441cb24389bfcfe3f41d31315911d263b41d8cc026fd9181a41ddee1ea41cd17d41e0d1bd5367ad8a41e1a378916ec4ec41e148f8ad00000041dfaf1b45fc78b241db2b376ae5dc2b41d5cb570551a15441d0588143fd38ff41c6e64385fc7a7c41bdea6de74db5ea41b22f073b4c59aa41a4839483166b6941956734764590374184903ff416e7004172188a32f56f1f415cfa00221749274144ee2248e6a480412afc54ef603dd5410e9e4ffd3d7f3540edfff2466342a840c8b8eefdc0a18b40a07b49fe806bb24070b35315a615924036e9b2675a66263ff00000000000004036732f8d0e2f76406ec5d9fad6c54e409b615ea691e6ce40c1b8e2333fb3f540e1b8e2333fb3f540fc5e8eacf46e7a41129275b646dcd24124236cb79d171641322da6e9f3ab55413b447a5eed80ff4140cffdcbdb55cb4140a2ec13ce54b6413913ce9006c717412913ce9006c717,
  0x41332735603cc001415741e56292e92541739540a3bd1c14418a631285e89d73419e26da7786789641ae26da7786789641bae86851b5c4fa41c5b693affd983341cffb9f09b7034141d5a4ff39f1421841db0e3f086d929e41df59a7d8b5aefa41e0e21c7aa271dc41e0ef919db2dc1741dfaf1b45fc78b241dba7f44800000041d68775caf4231841d11f0adcfa7b5b41c8414f63b82ec041bffb348f8078c841b3959e6d9d476841a63889da058002419747243458a29c41866b2babe4e2bb4173be83ee1646e8415f97397cf071744146c3772c91c2c5412d3b23ee65d3e741107d0f78f7777940f0091aa0ef50b440ca2f9b569d3c6340a1437a159a238c4071437a159a238c403752e50db3a3a13ff00000000000004036e9b2675a6626407013248c6f7d38409d6102b4bdcebc40c39ae6b1be657b40e44da7330d5ba14100eb60aa8b21b14117371323d89406412a98a5c22527934139a288ce1661934144d36d9aef94de414c66211918281841500d08df251cb2414d52796da40eaa414485700baecdb841332735603cc001,
  0x413beb97dd7762a3416073f97def7eb2417ade202ccc83674191892177ff54bd41a36425898bb19941b2beacd1c2c54741c026bb845e9d4241c922b1caed23ca41d1d389a9603d8d41d7333506f50fac41dbd70c6ebfac6841deea3c00bb483941dfd998792ffaf641de7f360c9ce2ea41db2b376ae5dc2b41d68775caf4231841d163002980000041c8f553d049830241c0a38d3586575641b4915a5cd51ac941a782ccbed1241f4198c53ef728d2334187f3e7eb7cf42e4175256d9167fe5d4160ee360e61f6b84148614399d4bf70412f3b377c2b504a41118bb7cb12fba940f0f76f73b1cb0d40cb8031ffd28bf540a1f6a2e5d779d84071c39aad23f4644037af78e6da9b303ff0000000000000403752e50db3a3a14070b35315a61592409f3e665be9822840c569d4d3a7466240e6dcfe8619eed04103bb35fcb89f66411c3003fb50e3b64130ebb90ee1307541413b35ee48a586414de52a1ae1d0374156143c8ecc3377415b994bb27f4055415ccc2df45bfe0741586cd76e8b602f414fe8ad8f63de71413beb97dd7762a3,
  0x4143733b55425c6b41663a8cf3b98e314181951e254b5ba7419635effc9f49a741a7be01b182446441b628ce6168841941c26959c405e06541cb977f9636c1f241d2d0d15f528bda41d78215a3710c5b41db08cc158ece3541dcb7102fc6be7541dc3d258756916741d9c06a0bfa666941d5cb570551a15441d11f0adcfa7b5b41c8f553d049830241c0dc1f3000000041b51326fc00000041a8507e9b4004074199cef64ae56a814189197676398c7541763f9060a5b2fa4161db1a28dcbc4e4149bba8cd763d2b4130781a1d187911411275d1007f61cb40f1c75f1c335bef40cca7330ad0f71a40a293cbe50439e3407233b5b987ab2740380000000000003ff00000000000004037af78e6da9b304071437a159a238c40a07b49fe806bb240c7202cdd3c438c40e95bfa9efe028b41069047d7f9682f4120b0dcc1741a504134dd13f1d120e4414643ee4f93a3d741546812adae2d6b416017bd6c1638da4165ca277bf96c8a41692454f182422941685c30806ca35c416348b5b54a648541579e35c2f527154143733b55425c6b,
  0x4149eef9c70325e4416cb64b657a57ab4185fa65ae9e3291419ad681fbeb23aa41abb301f9c2a52041b8ede82d95949d41c3f2213f065dc241ccbdcf91ce5f5c41d2d0d15f528bda41d68754bca1abd741d8c81069183d0641d9202e29cde6a741d78849f0c823d641d462fe9ed0e66941d0588143fd38ff41c8414f63b82ec041c0a38d3586575641b51326fc00000041a8965826000000419a5733d2daaf074189cef64ae56a8141770201ec5f6b6b41628a4da5df6a7b414ac8a73d4b1a76413127c5de4ed372411336c921f1e29440f275d1007f61cb40cda19e8455993a40a31a220735fa11407293cbe50439e3403844f24cb4e4343ff000000000000040380000000000004071c39aad23f46440a1437a159a238c40c8b8eefdc0a18b40ebc035d648510e41095bfa9efe028b4123571902437ddf4139094b222e2778414bd16fed16d686415ab7eac5e45e35416642fd1a8f775d417017bd6c1638da41741d10c13501ba41758cdb182681da41737cf399f082b0416ced108fef96c84160abe9b6cb2aa54149eef9c70325e4,
  0x415090172d03adee4171bef44283f135418a431e39fa4933419ef6a43aa86a0441aed0db59b0c28541bab5025ecc645141c48bdc42fb755141cc6c28d5fcea4a41d1d4e4196d2d1741d46c0d599f903541d571746ae78a9e41d4b4aadecbe06341d26c4dae3fa44541ce3d9e0b23cc6141c6e64385fc7a7c41bffb348f8078c841b4915a5cd51ac941a8507e9b400407419a5733d2daaf07418a0c5f200000004177652c4057bed94162f5dee1af30b8414b8072e18e4ae14131a86028da6e434113cae035d702d740f3003366e2e40140ce6cf475a7a26c40a388f5bc8577f44072e3ddb2612c1a40387eb1990b697a3ff0000000000000403844f24cb4e434407233b5b987ab2740a1f6a2e5d779d840ca2f9b569d3c6340edfff2466342a8410c0fee99a2cd3b4125faff5ba6464c413d55fc8fc17c604150e0cfb4f80a294160e0cfb4f80a29416d79762055f8f4417682f0fcf96fec417e0b05d2f1bea341816f03009b269d41816f03009b269d417d8f679189534e4174a5c304f9bdf641667a689884fe55415090172d03adee,
  0x41544907752b415e4175027e94c83a8f418e052a0196ab3f41a110a6ae4c229841b05acbc77eeb2d41bb41fe4c7e32a041c42196f269d8ff41cab01a6ffebe9c41d003f08fd75eb541d1821efc73df3a41d1821efc73df3a41d00f93f8e32b1441cb1385aafab13941c4fcda7e2c4f4341bdea6de74db5ea41b3959e6d9d476841a782ccbed1241f4199cef64ae56a814189cef64ae56a814177652c4057bed941631a23a0000000414bddb42bdd20014131f6cd47462c7a41142f3840b59f9640f364810f64729640cf0734e56d842340a3dfb95b487da0407323eb8513c3654038ad8c842be9b43ff000000000000040387eb1990b697a407293cbe50439e340a293cbe50439e340cb8031ffd28bf540f0091aa0ef50b4410e9e4ffd3d7f3541288ca1a133689c4140d345cfa9f2074153f5e60c9df8f94164abe43c73cba24172cacf7cc65c08417e150de83b3fb6418535553e38e373418a483e4b31c056418c7811506724b0418ab0903b60b26541854bd8d626af2a417c1902bea63dea416cfa9cf086efab41544907752b415e,
  0x4157d6885aa3f49f4177d6885aa3f49f41906c268ef7139841a1fab18e37390741b091703b2cbf6141ba824d2b7acbcf41c2c32e89a208bd41c7cab7ae6a51ca41cb41cb22e0c96441cc60fd08195c3441caf5bd2e18179841c76df19abb25b641c2a6f35f8798e141bb37022218856741b22f073b4c59aa41a63889da0580024198c53ef728d2334189197676398c7541770201ec5f6b6b4162f5dee1af30b8414bddb42bdd20014132112800000000411461e14570ee9840f3a1457d9beb5340cf6edfd83ba66d40a41dffe68c9378407353f5a6ffeba44038d1c0be7f20ab3ff00000000000004038ad8c842be9b44072e3ddb2612c1a40a31a220735fa1140cca7330ad0f71a40f0f76f73b1cb0d41107d0f78f77779412afc54ef603dd54142ee9d4f5ef8a041571140c54af1024168a115b8ab01cd4177300a86c25b1f418352b3704ca145418c8d7695cfe4454192b12abbeef77b41959ea2dfc6de0f4195f4731cca219341935f3864b259dc418d3275abdf25e941823f4749844ea94171e0e643faf7774157d6885aa3f49f,
  0x415ae495d6c24aed4179eeb50f16c8404191342435dd025d41a21c31fa470f8541b0056b0c72dc4441b890d7575ac93641c0a190cb6140d741c42171292f0d7441c5f6ddc1fd3c2d41c5b9946b82e3d041c38d6bfa5c336e41c00c49e84d612441b80c6c81870a2941b072a1a89893cd41a4839483166b69419747243458a29c4187f3e7eb7cf42e41763f9060a5b2fa41628a4da5df6a7b414b8072e18e4ae14131f6cd47462c7a411461e14570ee9840f3b5a00000000040cfa2f550f1752940a4437c2502b7b2407373fc4c7d7d264038eb7cb456380d3ff00000000000004038d1c0be7f20ab407323eb8513c36540a388f5bc8577f440cda19e8455993a40f1c75f1c335bef41118bb7cb12fba9412d3b23ee65d3e74144ee2248e6a480415a1ac46266297c416ca039ec8bf752417bc91853a16e104187fab1c578942a4192721297e6995b41994f258aff277c419eeda5e2d8041541a0c4b0781fbac941a006d202a6898c419ab608af158fe9419311dfbaf57e2f4186a4e774d882044175215128bd3adf415ae495d6c24aed,
  0x415d2342948d8a6e417b0e74ae836e414191424d7e663bed41a1710efc5972f041ad92e0068988d041b5aff99e64dbcc41bc07b59761d65241c028029634f42241c0bf1e804d0d8f41bf626d21a9472541baad4329697c7941b49b84aedbbca341acf3769f9ef9a841a27b122c07925a419567347645903741866b2babe4e2bb4175256d9167fe5d4161db1a28dcbc4e414ac8a73d4b1a764131a86028da6e4341142f3840b59f9640f3a1457d9beb5340cfa2f550f1752940a4500000000000407383ff970ef5434038fae0c15ad3893ff00000000000004038eb7cb456380d407353f5a6ffeba440a3dfb95b487da040ce6cf475a7a26c40f275d1007f61cb411275d1007f61cb412f3b377c2b504a4146c3772c91c2c5415cfa002217492741704357abddb3fd4180366b63a0b4c5418cd9b9c19a08174196fbac13ec9a8041a06a9f7bf2253741a505fbc15ccaeb41a815d62b8ace6941a8948b8ca0a05f41a63018faaa23d341a184499d78d8ea4197c2c8998cc2fc418adef51b70b25f4177ef3fd57443ff415d2342948d8a6e,
  0x415e53d81345891a417b1400eca2a821419094f7ca9ceccc41a00f24e2e0e83441aa0bb4d5dc835841b23b64fc1a5bf041b6712a5a9dfef141b893c552853ed141b82265719c10d041b55bc92e23fbf841b1163a8b4ffcc641a8bfb149f658b041a039be6a9c8d0941933c413adf740a4184903ff416e7004173be83ee1646e84160ee360e61f6b84149bba8cd763d2b413127c5de4ed3724113cae035d702d740f364810f64729640cf6edfd83ba66d40a4437c2502b7b2407383ff970ef54340390000000000003ff00000000000004038fae0c15ad389407373fc4c7d7d2640a41dffe68c937840cf0734e56d842340f3003366e2e401411336c921f1e2944130781a1d1879114148614399d4bf70415f97397cf071744172188a32f56f1f41827748dc5ba2994190dfe4c0cbc5e0419bb7f9c37a4eda41a481130d932f5441ab56c41219947041b0694f38c648df41b1b213312cbc9641b10e536396cbff41ad2bd4c690931a41a5e0df94ec6e54419c439d146d1dcd418e82bdb23f76444179feb9351707cd415e53d81345891a,
  0x415e53d81345891a4179feb9351707cd418e82bdb23f7644419c439d146d1dcd41a5e0df94ec6e5441ad2bd4c690931a41b10e536396cbff41b1b213312cbc9641b0694f38c648df41ab56c41219947041a481130d932f54419bb7f9c37a4eda4190dfe4c0cbc5e041827748dc5ba2994172188a32f56f1f415f97397cf071744148614399d4bf704130781a1d187911411336c921f1e29440f3003366e2e40140cf0734e56d842340a41dffe68c9378407373fc4c7d7d264038fae0c15ad3893ff00000000000004039000000000000407383ff970ef54340a4437c2502b7b240cf6edfd83ba66d40f364810f6472964113cae035d702d7413127c5de4ed3724149bba8cd763d2b4160ee360e61f6b84173be83ee1646e84184903ff416e70041933c413adf740a41a039be6a9c8d0941a8bfb149f658b041b1163a8b4ffcc641b55bc92e23fbf841b82265719c10d041b893c552853ed141b6712a5a9dfef141b23b64fc1a5bf041aa0bb4d5dc835841a00f24e2e0e834419094f7ca9ceccc417b1400eca2a821415e53d81345891a,
  0x415d2342948d8a6e4177ef3fd57443ff418adef51b70b25f4197c2c8998cc2fc41a184499d78d8ea41a63018faaa23d341a8948b8ca0a05f41a815d62b8ace6941a505fbc15ccaeb41a06a9f7bf225374196fbac13ec9a80418cd9b9c19a08174180366b63a0b4c541704357abddb3fd415cfa00221749274146c3772c91c2c5412f3b377c2b504a411275d1007f61cb40f275d1007f61cb40ce6cf475a7a26c40a3dfb95b487da0407353f5a6ffeba44038eb7cb456380d3ff00000000000004038fae0c15ad389407383ff970ef54340a450000000000040cfa2f550f1752940f3a1457d9beb5341142f3840b59f964131a86028da6e43414ac8a73d4b1a764161db1a28dcbc4e4175256d9167fe5d41866b2babe4e2bb419567347645903741a27b122c07925a41acf3769f9ef9a841b49b84aedbbca341baad4329697c7941bf626d21a9472541c0bf1e804d0d8f41c028029634f42241bc07b59761d65241b5aff99e64dbcc41ad92e0068988d041a1710efc5972f04191424d7e663bed417b0e74ae836e41415d2342948d8a6e,
  0x415ae495d6c24aed4175215128bd3adf4186a4e774d88204419311dfbaf57e2f419ab608af158fe941a006d202a6898c41a0c4b0781fbac9419eeda5e2d8041541994f258aff277c4192721297e6995b4187fab1c578942a417bc91853a16e10416ca039ec8bf752415a1ac46266297c4144ee2248e6a480412d3b23ee65d3e741118bb7cb12fba940f1c75f1c335bef40cda19e8455993a40a388f5bc8577f4407323eb8513c3654038d1c0be7f20ab3ff00000000000004038eb7cb456380d407373fc4c7d7d2640a4437c2502b7b240cfa2f550f1752940f3b5a000000000411461e14570ee984131f6cd47462c7a414b8072e18e4ae141628a4da5df6a7b41763f9060a5b2fa4187f3e7eb7cf42e419747243458a29c41a4839483166b6941b072a1a89893cd41b80c6c81870a2941c00c49e84d612441c38d6bfa5c336e41c5b9946b82e3d041c5f6ddc1fd3c2d41c42171292f0d7441c0a190cb6140d741b890d7575ac93641b0056b0c72dc4441a21c31fa470f854191342435dd025d4179eeb50f16c840415ae495d6c24aed,
  0x4157d6885aa3f49f4171e0e643faf77741823f4749844ea9418d3275abdf25e941935f3864b259dc4195f4731cca219341959ea2dfc6de0f4192b12abbeef77b418c8d7695cfe445418352b3704ca1454177300a86c25b1f4168a115b8ab01cd41571140c54af1024142ee9d4f5ef8a0412afc54ef603dd541107d0f78f7777940f0f76f73b1cb0d40cca7330ad0f71a40a31a220735fa114072e3ddb2612c1a4038ad8c842be9b43ff00000000000004038d1c0be7f20ab407353f5a6ffeba440a41dffe68c937840cf6edfd83ba66d40f3a1457d9beb53411461e14570ee984132112800000000414bddb42bdd20014162f5dee1af30b841770201ec5f6b6b4189197676398c754198c53ef728d23341a63889da05800241b22f073b4c59aa41bb37022218856741c2a6f35f8798e141c76df19abb25b641caf5bd2e18179841cc60fd08195c3441cb41cb22e0c96441c7cab7ae6a51ca41c2c32e89a208bd41ba824d2b7acbcf41b091703b2cbf6141a1fab18e37390741906c268ef713984177d6885aa3f49f4157d6885aa3f49f,
  0x41544907752b415e416cfa9cf086efab417c1902bea63dea41854bd8d626af2a418ab0903b60b265418c7811506724b0418a483e4b31c056418535553e38e373417e150de83b3fb64172cacf7cc65c084164abe43c73cba24153f5e60c9df8f94140d345cfa9f20741288ca1a133689c410e9e4ffd3d7f3540f0091aa0ef50b440cb8031ffd28bf540a293cbe50439e3407293cbe50439e340387eb1990b697a3ff00000000000004038ad8c842be9b4407323eb8513c36540a3dfb95b487da040cf0734e56d842340f364810f64729641142f3840b59f964131f6cd47462c7a414bddb42bdd200141631a23a00000004177652c4057bed94189cef64ae56a814199cef64ae56a8141a782ccbed1241f41b3959e6d9d476841bdea6de74db5ea41c4fcda7e2c4f4341cb1385aafab13941d00f93f8e32b1441d1821efc73df3a41d1821efc73df3a41d003f08fd75eb541cab01a6ffebe9c41c42196f269d8ff41bb41fe4c7e32a041b05acbc77eeb2d41a110a6ae4c2298418e052a0196ab3f4175027e94c83a8f41544907752b415e,
  0x415090172d03adee41667a689884fe554174a5c304f9bdf6417d8f679189534e41816f03009b269d41816f03009b269d417e0b05d2f1bea3417682f0fcf96fec416d79762055f8f44160e0cfb4f80a294150e0cfb4f80a29413d55fc8fc17c604125faff5ba6464c410c0fee99a2cd3b40edfff2466342a840ca2f9b569d3c6340a1f6a2e5d779d8407233b5b987ab27403844f24cb4e4343ff000000000000040387eb1990b697a4072e3ddb2612c1a40a388f5bc8577f440ce6cf475a7a26c40f3003366e2e4014113cae035d702d74131a86028da6e43414b8072e18e4ae14162f5dee1af30b84177652c4057bed9418a0c5f20000000419a5733d2daaf0741a8507e9b40040741b4915a5cd51ac941bffb348f8078c841c6e64385fc7a7c41ce3d9e0b23cc6141d26c4dae3fa44541d4b4aadecbe06341d571746ae78a9e41d46c0d599f903541d1d4e4196d2d1741cc6c28d5fcea4a41c48bdc42fb755141bab5025ecc645141aed0db59b0c285419ef6a43aa86a04418a431e39fa49334171bef44283f135415090172d03adee,
  0x4149eef9c70325e44160abe9b6cb2aa5416ced108fef96c841737cf399f082b041758cdb182681da41741d10c13501ba417017bd6c1638da416642fd1a8f775d415ab7eac5e45e35414bd16fed16d6864139094b222e27784123571902437ddf41095bfa9efe028b40ebc035d648510e40c8b8eefdc0a18b40a1437a159a238c4071c39aad23f46440380000000000003ff0000000000000403844f24cb4e434407293cbe50439e340a31a220735fa1140cda19e8455993a40f275d1007f61cb411336c921f1e294413127c5de4ed372414ac8a73d4b1a7641628a4da5df6a7b41770201ec5f6b6b4189cef64ae56a81419a5733d2daaf0741a896582600000041b51326fc00000041c0a38d3586575641c8414f63b82ec041d0588143fd38ff41d462fe9ed0e66941d78849f0c823d641d9202e29cde6a741d8c81069183d0641d68754bca1abd741d2d0d15f528bda41ccbdcf91ce5f5c41c3f2213f065dc241b8ede82d95949d41abb301f9c2a520419ad681fbeb23aa4185fa65ae9e3291416cb64b657a57ab4149eef9c70325e4,
  0x4143733b55425c6b41579e35c2f52715416348b5b54a648541685c30806ca35c41692454f18242294165ca277bf96c8a416017bd6c1638da41546812adae2d6b414643ee4f93a3d74134dd13f1d120e44120b0dcc1741a5041069047d7f9682f40e95bfa9efe028b40c7202cdd3c438c40a07b49fe806bb24071437a159a238c4037af78e6da9b303ff00000000000004038000000000000407233b5b987ab2740a293cbe50439e340cca7330ad0f71a40f1c75f1c335bef411275d1007f61cb4130781a1d1879114149bba8cd763d2b4161db1a28dcbc4e41763f9060a5b2fa4189197676398c754199cef64ae56a8141a8507e9b40040741b51326fc00000041c0dc1f3000000041c8f553d049830241d11f0adcfa7b5b41d5cb570551a15441d9c06a0bfa666941dc3d258756916741dcb7102fc6be7541db08cc158ece3541d78215a3710c5b41d2d0d15f528bda41cb977f9636c1f241c26959c405e06541b628ce6168841941a7be01b1824464419635effc9f49a74181951e254b5ba741663a8cf3b98e314143733b55425c6b,
  0x413beb97dd7762a3414fe8ad8f63de7141586cd76e8b602f415ccc2df45bfe07415b994bb27f40554156143c8ecc3377414de52a1ae1d03741413b35ee48a5864130ebb90ee13075411c3003fb50e3b64103bb35fcb89f6640e6dcfe8619eed040c569d4d3a74662409f3e665be982284070b35315a61592403752e50db3a3a13ff00000000000004037af78e6da9b304071c39aad23f46440a1f6a2e5d779d840cb8031ffd28bf540f0f76f73b1cb0d41118bb7cb12fba9412f3b377c2b504a4148614399d4bf704160ee360e61f6b84175256d9167fe5d4187f3e7eb7cf42e4198c53ef728d23341a782ccbed1241f41b4915a5cd51ac941c0a38d3586575641c8f553d049830241d163002980000041d68775caf4231841db2b376ae5dc2b41de7f360c9ce2ea41dfd998792ffaf641deea3c00bb483941dbd70c6ebfac6841d7333506f50fac41d1d389a9603d8d41c922b1caed23ca41c026bb845e9d4241b2beacd1c2c54741a36425898bb1994191892177ff54bd417ade202ccc8367416073f97def7eb2413beb97dd7762a3,
  0x41332735603cc001414485700baecdb8414d52796da40eaa41500d08df251cb2414c6621191828184144d36d9aef94de4139a288ce166193412a98a5c22527934117371323d894064100eb60aa8b21b140e44da7330d5ba140c39ae6b1be657b409d6102b4bdcebc407013248c6f7d384036e9b2675a66263ff0000000000000403752e50db3a3a14071437a159a238c40a1437a159a238c40ca2f9b569d3c6340f0091aa0ef50b441107d0f78f77779412d3b23ee65d3e74146c3772c91c2c5415f97397cf071744173be83ee1646e841866b2babe4e2bb419747243458a29c41a63889da05800241b3959e6d9d476841bffb348f8078c841c8414f63b82ec041d11f0adcfa7b5b41d68775caf4231841dba7f44800000041dfaf1b45fc78b241e0ef919db2dc1741e0e21c7aa271dc41df59a7d8b5aefa41db0e3f086d929e41d5a4ff39f1421841cffb9f09b7034141c5b693affd983341bae86851b5c4fa41ae26da77867896419e26da77867896418a631285e89d7341739540a3bd1c14415741e56292e92541332735603cc001,
  0x412913ce9006c717413913ce9006c7174140a2ec13ce54b64140cffdcbdb55cb413b447a5eed80ff41322da6e9f3ab554124236cb79d171641129275b646dcd240fc5e8eacf46e7a40e1b8e2333fb3f540c1b8e2333fb3f5409b615ea691e6ce406ec5d9fad6c54e4036732f8d0e2f763ff00000000000004036e9b2675a66264070b35315a6159240a07b49fe806bb240c8b8eefdc0a18b40edfff2466342a8410e9e4ffd3d7f35412afc54ef603dd54144ee2248e6a480415cfa00221749274172188a32f56f1f4184903ff416e700419567347645903741a4839483166b6941b22f073b4c59aa41bdea6de74db5ea41c6e64385fc7a7c41d0588143fd38ff41d5cb570551a15441db2b376ae5dc2b41dfaf1b45fc78b241e148f8ad00000041e1a378916ec4ec41e0d1bd5367ad8a41ddee1ea41cd17d41d8cc026fd9181a41d31315911d263b41cb24389bfcfe3f41c1c4adb010572441b542869104b5ce41a7075f24af25f841964932c8a97f954182e4d1373f6956416b31b320600a79414f58c2340878dc412913ce9006c717,
  0x411f46e7ec6aba4f412d0afbedd0d1924131c8fab4cab24a413079baf59a04c041284ab43e3a639b411d2671e4461121410cb481fb66b7e040f729da6d03f9c140de540017bd86e340bf938de61d3654409942d7eb4a91dd406d4554d8f273b34035ee84b0d1f8753ff00000000000004036732f8d0e2f76407013248c6f7d38409f3e665be9822840c7202cdd3c438c40ebc035d648510e410c0fee99a2cd3b41288ca1a133689c4142ee9d4f5ef8a0415a1ac46266297c41704357abddb3fd41827748dc5ba29941933c413adf740a41a27b122c07925a41b072a1a89893cd41bb37022218856741c4fcda7e2c4f4341ce3d9e0b23cc6141d462fe9ed0e66941d9c06a0bfa666941de7f360c9ce2ea41e0ef919db2dc1741e1a378916ec4ec41e1377b3c00000041df774d1521e38b41dae09100c90fa241d5693f9bcf9fc141cfb85e3c2a1c1441c5c2f87ae179df41bb829773b3fda941afd1a063abeff941a0ad6128c0b3a5418f45162c6950d64179b4fc8dfc2d754161f4c20a38f40141441b4bf3692ea0411f46e7ec6aba4f,
  0x41128a15d7b0adab411fc82571c129b74121d727ddff106a411e0c7a5aa45e2c4113efdf7bbdc27c41054421950ead5140f252e23190fce640d95912a403166b40bba828ad71458d40970940ebcdab58406ba4b44e2a00d040355aaa002a9d593ff00000000000004035ee84b0d1f875406ec5d9fad6c54e409d6102b4bdcebc40c569d4d3a7466240e95bfa9efe028b41095bfa9efe028b4125faff5ba6464c4140d345cfa9f20741571140c54af102416ca039ec8bf7524180366b63a0b4c54190dfe4c0cbc5e041a039be6a9c8d0941acf3769f9ef9a841b80c6c81870a2941c2a6f35f8798e141cb1385aafab13941d26c4dae3fa44541d78849f0c823d641dc3d258756916741dfd998792ffaf641e0e21c7aa271dc41e0d1bd5367ad8a41df774d1521e38b41db9aa96d00000041d6abf23d52f36f41d16456e35196d341c8d87c202b69c041c07522a4a5855941b41c8952313dcc41a682d2e1e49eb14196dc2cd96ab6ee4184c828c5a6d4d94170951156bf6ee0415680d81aed5d6f41387f9cdd04e57d41128a15d7b0adab,
  0x4104d623b042311041105f1c0a7d268c4110b5888389209541095432fa2b23e740fde058125f1e7b40ebe2745569d82e40d4981916153c8d40b7bd92d2cb5c6f4094b8f0eb7838844069e3f0dbfc30de4034b65a49968d7e3ff000000000000040355aaa002a9d59406d4554d8f273b3409b615ea691e6ce40c39ae6b1be657b40e6dcfe8619eed041069047d7f9682f4123571902437ddf413d55fc8fc17c604153f5e60c9df8f94168a115b8ab01cd417bc91853a16e10418cd9b9c19a0817419bb7f9c37a4eda41a8bfb149f658b041b49b84aedbbca341c00c49e84d612441c76df19abb25b641d00f93f8e32b1441d4b4aadecbe06341d9202e29cde6a741dcb7102fc6be7541deea3c00bb483941df59a7d8b5aefa41ddee1ea41cd17d41dae09100c90fa241d6abf23d52f36f41d1ee4f6c00000041ca8723b3df278841c24b8b6191126f41b76ddd0836b84b41abb51307f74a67419e0b43d8ef4b2d418d95d590b6bb58417a1acb7fb04af341643bfdab57689b414ab254e01f2a2a412c47306f3542954104d623b0423110,
  0x40f621c34da89dd640ff9df26ef0e17b40fd0ac3db2c4aa340f390f61aab299d40e431b7a8584d5640d027c62046a44440b3e2c929cb05f1409256d92647b823406802ffd005ff1040340000000000003ff00000000000004034b65a49968d7e406ba4b44e2a00d0409942d7eb4a91dd40c1b8e2333fb3f540e44da7330d5ba14103bb35fcb89f664120b0dcc1741a504139094b222e27784150e0cfb4f80a294164abe43c73cba24177300a86c25b1f4187fab1c578942a4196fbac13ec9a8041a481130d932f5441b1163a8b4ffcc641baad4329697c7941c38d6bfa5c336e41caf5bd2e18179841d1821efc73df3a41d571746ae78a9e41d8c81069183d0641db08cc158ece3541dbd70c6ebfac6841db0e3f086d929e41d8cc026fd9181a41d5693f9bcf9fc141d16456e35196d341ca8723b3df278841c2f25a3a00000041b94322f800000041af4ed0b7fecf1a41a1ef0fee34d2164192db641d52a93c418205df2f91ced2416ee57e9ab0d043415748889744add2413de39cc4c3fbbf411ed3992c2adbd840f621c34da89dd6,
  0x40e621c34da89dd640ec748d63d8caef40e73bcfe289d54f40db648bbeefa0a940c83ba93069f66740b027c62046a444408fd141dc780982406601d16122dcf7403335997337ff403ff000000000000040340000000000004069e3f0dbfc30de40970940ebcdab5840bf938de61d365440e1b8e2333fb3f54100eb60aa8b21b1411c3003fb50e3b64134dd13f1d120e4414bd16fed16d6864160e0cfb4f80a294172cacf7cc65c08418352b3704ca1454192721297e6995b41a06a9f7bf2253741ab56c41219947041b55bc92e23fbf841bf626d21a9472541c5b9946b82e3d041cc60fd08195c3441d1821efc73df3a41d46c0d599f903541d68754bca1abd741d78215a3710c5b41d7333506f50fac41d5a4ff39f1421841d31315911d263b41cfb85e3c2a1c1441c8d87c202b69c041c24b8b6191126f41b94322f800000041b04c58a000000041a3914272ff41704195bcec85955bbd41862f489af7d629417498ff11cb358241612a29e429574241492bd1efa43189412f76542d6ffb86410f9df26ef0e17b40e621c34da89dd6,
  0x40d4bd0fa04efae540d7b37f92a367e140d0eed487225feb40c11cb3e30e83dd40a93afe65116d84408ae997e345ca264063e04d47ddad7f4032548eb9151e853ff0000000000000403335997337ff40406802ffd005ff104094b8f0eb78388440bba828ad71458d40de540017bd86e340fc5e8eacf46e7a4117371323d894064130ebb90ee13075414643ee4f93a3d7415ab7eac5e45e35416d79762055f8f4417e150de83b3fb6418c8d7695cfe44541994f258aff277c41a505fbc15ccaeb41b0694f38c648df41b82265719c10d041c0bf1e804d0d8f41c5f6ddc1fd3c2d41cb41cb22e0c96441d003f08fd75eb541d1d4e4196d2d1741d2d0d15f528bda41d2d0d15f528bda41d1d389a9603d8d41cffb9f09b7034141cb24389bfcfe3f41c5c2f87ae179df41c07522a4a5855941b76ddd0836b84b41af4ed0b7fecf1a41a3914272ff41704196c7cd54000000418890289f471f5741785a06f56d2f0d4165fb466f7817b24151d2a7d00081ea413972d417d04cf6411efe4992c5c66c40fe5dfb73e15d1940d4bd0fa04efae5,
  0x40c21a20dea06aaf40c21a20dea06aaf40b62b9fff3027c840a2abbd0d74b35e408605df37641a6c40619e4c2c5015234031596f1acc669b3ff00000000000004032548eb9151e85406601d16122dcf7409256d92647b82340b7bd92d2cb5c6f40d95912a403166b40f729da6d03f9c141129275b646dcd2412a98a5c225279341413b35ee48a58641546812adae2d6b416642fd1a8f775d417682f0fcf96fec418535553e38e3734192b12abbeef77b419eeda5e2d8041541a815d62b8ace6941b1b213312cbc9641b893c552853ed141c028029634f42241c42171292f0d7441c7cab7ae6a51ca41cab01a6ffebe9c41cc6c28d5fcea4a41ccbdcf91ce5f5c41cb977f9636c1f241c922b1caed23ca41c5b693affd983341c1c4adb010572441bb829773b3fda941b41c8952313dcc41abb51307f74a6741a1ef0fee34d2164195bcec85955bbd418890289f471f574179ba81800000004168cc6c2bd7413a4155c7a83a679fa1414131d5a75f48214127ec0a393d85d1410c67e4fef5b2f840eb27314df0a00640c21a20dea06aaf,
  0x40ad36fcf880d18740a90a8fb06e6a7440998ec0705f9f90408137fe243d3a6b405e7713ada6991640303f81f636b80b3ff00000000000004031596f1acc669b4063e04d47ddad7f408fd141dc78098240b3e2c929cb05f140d4981916153c8d40f252e23190fce6410cb481fb66b7e04124236cb79d17164139a288ce166193414de52a1ae1d037416017bd6c1638da417017bd6c1638da417e0b05d2f1bea3418a483e4b31c05641959ea2dfc6de0f41a0c4b0781fbac941a8948b8ca0a05f41b10e536396cbff41b6712a5a9dfef141bc07b59761d65241c0a190cb6140d741c2c32e89a208bd41c42196f269d8ff41c48bdc42fb755141c3f2213f065dc241c26959c405e06541c026bb845e9d4241bae86851b5c4fa41b542869104b5ce41afd1a063abeff941a682d2e1e49eb1419e0b43d8ef4b2d4192db641d52a93c41862f489af7d62941785a06f56d2f0d4168cc6c2bd7413a41574191800000004143e343da7684f0412e98b728b6565f4114c067f5d3173b40f80a469ce6bee340d66ecb6362ea0840ad36fcf880d187,
  0x409593994cb770ff408ed2daffe17cdb40792adb4432466a40596f096aa9c320402e0000000000003ff000000000000040303f81f636b80b40619e4c2c501523408ae997e345ca2640b027c62046a44440d027c62046a44440ebe2745569d82e41054421950ead51411d2671e446112141322da6e9f3ab554144d36d9aef94de4156143c8ecc33774165ca277bf96c8a41741d10c13501ba41816f03009b269d418c7811506724b04195f4731cca219341a006d202a6898c41a63018faaa23d341ad2bd4c690931a41b23b64fc1a5bf041b5aff99e64dbcc41b890d7575ac93641ba824d2b7acbcf41bb41fe4c7e32a041bab5025ecc645141b8ede82d95949d41b628ce6168841941b2beacd1c2c54741ae26da7786789641a7075f24af25f841a0ad6128c0b3a54196dc2cd96ab6ee418d95d590b6bb58418205df2f91ced2417498ff11cb35824165fb466f7817b24155c7a83a679fa14143e343da7684f041309238000000004118db54000000004100728e23ba14ef40e299ac7399f4d740c0f3f873226b12409593994cb770ff,
  0x407cc4cc6649ebff40707074ccbc86db40542249035b6b88402b211b1c70d0233ff0000000000000402e000000000000405e7713ada69916408605df37641a6c40a93afe65116d8440c83ba93069f66740e431b7a8584d5640fde058125f1e7b4113efdf7bbdc27c41284ab43e3a639b413b447a5eed80ff414c662119182818415b994bb27f405541692454f182422941758cdb182681da41816f03009b269d418ab0903b60b26541935f3864b259dc419ab608af158fe941a184499d78d8ea41a5e0df94ec6e5441aa0bb4d5dc835841ad92e0068988d041b0056b0c72dc4441b091703b2cbf6141b05acbc77eeb2d41aed0db59b0c28541abb301f9c2a52041a7be01b182446441a36425898bb199419e26da7786789641964932c8a97f95418f45162c6950d64184c828c5a6d4d9417a1acb7fb04af3416ee57e9ab0d04341612a29e42957424151d2a7d00081ea414131d5a75f4821412e98b728b6565f4118db5400000000410230180000000040e77f143309d4c340c9f4321e53d89d40a71e243fe91da4407cc4cc6649ebff,
  0x4060f7856a3bc8a4404d160948667c884027bfa9c41ab0403ff0000000000000402b211b1c70d02340596f096aa9c320408137fe243d3a6b40a2abbd0d74b35e40c11cb3e30e83dd40db648bbeefa0a940f390f61aab299d41095432fa2b23e7411e0c7a5aa45e2c413079baf59a04c04140cffdcbdb55cb41500d08df251cb2415ccc2df45bfe0741685c30806ca35c41737cf399f082b0417d8f679189534e41854bd8d626af2a418d3275abdf25e9419311dfbaf57e2f4197c2c8998cc2fc419c439d146d1dcd41a00f24e2e0e83441a1710efc5972f041a21c31fa470f8541a1fab18e37390741a110a6ae4c2298419ef6a43aa86a04419ad681fbeb23aa419635effc9f49a74191892177ff54bd418a631285e89d734182e4d1373f69564179b4fc8dfc2d754170951156bf6ee041643bfdab57689b415748889744add241492bd1efa43189413972d417d04cf64127ec0a393d85d14114c067f5d3173b4100728e23ba14ef40e77f143309d4c340cda6000000000040b000a5e4a3fbc3408bdfc8e56237584060f7856a3bc8a4,
  0x4041257c5187fd084023988e1409212e3ff00000000000004027bfa9c41ab04040542249035b6b8840792adb4432466a40998ec0705f9f9040b62b9fff3027c840d0eed487225feb40e73bcfe289d54f40fd0ac3db2c4aa34110b588838920954121d727ddff106a4131c8fab4cab24a4140a2ec13ce54b6414d52796da40eaa41586cd76e8b602f416348b5b54a6485416ced108fef96c84174a5c304f9bdf6417c1902bea63dea41823f4749844ea94186a4e774d88204418adef51b70b25f418e82bdb23f7644419094f7ca9ceccc4191424d7e663bed4191342435dd025d41906c268ef71398418e052a0196ab3f418a431e39fa49334185fa65ae9e32914181951e254b5ba7417ade202ccc836741739540a3bd1c14416b31b320600a794161f4c20a38f401415680d81aed5d6f414ab254e01f2a2a413de39cc4c3fbbf412f76542d6ffb86411efe4992c5c66c410c67e4fef5b2f840f80a469ce6bee340e299ac7399f4d740c9f4321e53d89d40b000a5e4a3fbc34090e40000000000406cc810ad6d68bc4041257c5187fd08,
  0x401c0000000000003ff00000000000004023988e1409212e404d160948667c8840707074ccbc86db408ed2daffe17cdb40a90a8fb06e6a7440c21a20dea06aaf40d7b37f92a367e140ec748d63d8caef40ff9df26ef0e17b41105f1c0a7d268c411fc82571c129b7412d0afbedd0d192413913ce9006c717414485700baecdb8414fe8ad8f63de7141579e35c2f527154160abe9b6cb2aa541667a689884fe55416cfa9cf086efab4171e0e643faf7774175215128bd3adf4177ef3fd57443ff4179feb9351707cd417b1400eca2a821417b0e74ae836e414179eeb50f16c8404177d6885aa3f49f4175027e94c83a8f4171bef44283f135416cb64b657a57ab41663a8cf3b98e31416073f97def7eb2415741e56292e925414f58c2340878dc41441b4bf3692ea041387f9cdd04e57d412c47306f354295411ed3992c2adbd8410f9df26ef0e17b40fe5dfb73e15d1940eb27314df0a00640d66ecb6362ea0840c0f3f873226b1240a71e243fe91da4408bdfc8e5623758406cc810ad6d68bc4048000000000000401c000000000000,
  0x3ff0000000000000401bffffffffffff4041257c5187fd084060f7856a3bc8a4407cc4cc6649ebff409593994cb770ff40ad36fcf880d18740c21a20dea06aaf40d4bd0fa04efae540e621c34da89dd640f621c34da89dd64104d623b042311041128a15d7b0adab411f46e7ec6aba4f412913ce9006c71741332735603cc001413beb97dd7762a34143733b55425c6b4149eef9c70325e4415090172d03adee41544907752b415e4157d6885aa3f49f415ae495d6c24aed415d2342948d8a6e415e53d81345891a415e53d81345891a415d2342948d8a6e415ae495d6c24aed4157d6885aa3f49f41544907752b415e415090172d03adee4149eef9c70325e44143733b55425c6b413beb97dd7762a341332735603cc001412913ce9006c717411f46e7ec6aba4f41128a15d7b0adab4104d623b042311040f621c34da89dd640e621c34da89dd640d4bd0fa04efae540c21a20dea06aaf40ad36fcf880d187409593994cb770ff407cc4cc6649ebff4060f7856a3bc8a44041257c5187fd08401bffffffffffff3ff0000000000000]

/-- The coefficients for `2 ell = 50`: one number for each of the 51 values of `mp`, consisting of the doubles for the 51 values of `m`. -/
def wigner50 : List Nat := [
  0x3ff0000000000000401c48c6001f0abf40418000000000004061800000000000407dfe55497a99c34096be626777ca7f40af24a0d001faef40c3851bf231280640d6a0a91648855a40e870c9d718cf0640f8be83f7b6c697410797b93a7fd153411544221bc5cc6041222deb67c85466412d8dd0a1eb3af84136e4747fe2e6e44140eddd6efa88934147f102b84bf0014150355c1c61f7af415508eb9ca27335415a302bf9d7669a415f4d04960cb6fe4161f7f50126a2c34163d362354cbd9e41650741dc572960416571dde4bedf4241650741dc5729604163d362354cbd9e4161f7f50126a2c3415f4d04960cb6fe415a302bf9d7669a415508eb9ca273354150355c1c61f7af4147f102b84bf0014140eddd6efa88934136e4747fe2e6e4412d8dd0a1eb3af841222deb67c85466411544221bc5cc60410797b93a7fd15340f8be83f7b6c69740e870c9d718cf0640d6a0a91648855a40c3851bf231280640af24a0d001faef4096be626777ca7f407dfe55497a99c340618000000000004041800000000000401c48c6001f0abf3ff0000000000000,
  0x401c48c6001f0abf4048800000000000406db2cfe686fe7c408d146b91b983d940a863cfc8b5f06d40c217adad07b3e540d8393fd809fd5f40edad00c5df2b264100ccd4bc0486bd4111b6d2ae43764e41217f2dca11787e413043f613e326fb413c92356db448094147c80370ab2af14152cedaec051551415c53f1738c439b416459a8b6408c01416beee090b6faf341725676f8b7597a41770df4cc0180c5417bc6d91610262441800be49b66e5a54181c9b9a384911e4182ecee7981a53d4183547fc0c46c144182f4670c0b75b04181d7d8632b777541801f29f5ba4a63417bf3da933e089d41773d5cbdc1294741728490b960196d416c42a7f1d04b444164a145d7ce44a9415cc7920976b4fa41532735603cc001414847f3879ccc3b413d41c652b292f04130b6104155af7841220b800f646364411259cd6bc5328b41017f2dca11787e40ef1b977076785840d999a5b0c9f1e340c352e2bc61b0ef40aa6cffd467fd224090150c2806d8cc4070f7856a3bc8a4404db2cfe686fe7c4023cc8a99af54523ff0000000000000401c48c6001f0abf,
  0x4041800000000000406db2cfe686fe7c4091a0000000000040b0e4000000000040cbb79a3e30273c40e41a92692c2c2240fa4e0600263e76410f79d6a9bc10894121651b95ee26844131e4dceb3229db41413b899ecd0129414f37d93617c23d415ab254e01f2a2a41659ed70ccc6bb141709fc55b14512b417852bbc7e115524180f59aa1016181418692c80cd9e24a418cb64b657a57ab4191776836a251f2419457b47212bfb34196b1701ffc6b11419841f127f428874198da5b1c6a41d14198686c7209bdbd4196fa00075ecaa24194ba5a851416804191e9f8bcf5cc3f418da5eddb7fbfc2418779c37089893e4181c5426989059f4179b14bab3422a94171b6a85237dd4f416741e56292e925415d057b99ad7c6a41512b575fea2d2b414335c79c727fee413441cbcb6a322941240d0a37715a4c4112897f403fdb5340ffd06087a1dac340e9238dc74cb7ae40d21a20dea06aaf40b76c87ef6e3007409ab1ae692644cd4079fe2751ad79b6405491248a282eec40280000000000003ff00000000000004023cc8a99af54524041800000000000,
  0x4061800000000000408d146b91b983d940b0e4000000000040cfab800000000040e9684d63ac23f7410202787e37923441170445402176a8412ae2bcb0fb4e20413cfdd8a48ceadc414d13e6fe318404415b48ef3b6f41d74168106219b25064417405bfa8175fa0417f87a447ff726241878d02410772fe4190b8e1196abea841969cce2c01d757419d284265eec44a41a1f1ef1f6c76ca41a51af34204230541a7bba7da6b34fb41a9879e23fbf87441aa476feb48813d41a9e3743d9959e441a8686c7209bdbd41a604eab1bad78641a300284f5269f5419f59734aae256f4198b4f0e1951fcc419295bab9178ca6418aa7e39e4d886f418232eaee9a433741779e35c2f52715416d125ebb37a36f4160eddd6efa88934152999ea7e85b99414335c79c727fee413291a57a76adfb4120b58883892095410bce3ee05fc8fd40f53595afc13c8240dd542568842ba140c21a20dea06aaf40a3851bf23128064081cbc99b6ed8884059fe2751ad79b6402b6c30b83593e63ff00000000000004028000000000000404db2cfe686fe7c4061800000000000,
  0x407dfe55497a99c340a863cfc8b5f06d40cbb79a3e30273c40e9684d63ac23f74103eb8800000000411b9550d7c59061413134d07efad6a741439bc07e28760e41549d9d4088c2a14164259292da3cee417268372cdee30d417f974218fe324f41898e16b7a11dfd41938bd281d1e51a419c5739d2df1e0141a383718100c01941a98ff9f1b9588741afe5ce5400123241b2fa2ec0357fde41b58cb5826f621141b75e0599e24e6a41b83490dc9c8cb041b7f51c1bb38d2d41b6a847fbbd77b941b478b37376525741b1aa422cc432a041ad19dba67f3d2041a6dd29471d927c41a11e4a58ef7270419865e01acd54164190864ec9057bf941853c957c663f664179d67a50047f64416daf11967db05741600d08df251cb2415047525ded75d0413ed2a6a067729f412b15e7ea2dfffa4115ef7b2dedeb3c410039361a8608e540e5a7e77ff2242440c9ab0dd495c5cc40aa67922c8d38af4086c739ede33432405f265be16bc610402e54dd4ce75f1d3ff0000000000000402b6c30b83593e6405491248a282eec4070f7856a3bc8a4407dfe55497a99c3,
  0x4096be626777ca7f40c217adad07b3e540e41a92692c2c22410202787e379234411b9550d7c590614132a47f000000004146b0e5b2b537f44159365b425b2d054169d3ea7f6d2fff4178937c205bebea4185d8db73767b2141923a01f356a43c419ca5555e3a1cfa41a5440c275fc60241ade653ab668b8d41b3f18aa764254941b948749082adc541be7f57427bb2aa41c184bf3f39b69941c32ec61656f23e41c407c1c7194b3d41c3f35e404080f241c2f4dd0872866841c12e47ee15a76841bdb25adf07d62341b875f77f8d31f041b3304a787b37a841aca4f974baa39441a451462c7fffa5419b594b4900d38841916f03009b269d4185012a7a3aac4f4177da0a5d7c6c81416971e17a67a2d441596699efff288d41479d4573228a63413452f0ecfa68e5412012dfbb26d79941072461be5f609640edf3ee1a6ba14240d122a6936ccf9c40b0ecd320708fc9408bdb681680d6a1406205ff005531d740306e825da8fc2b3ff0000000000000402e54dd4ce75f1d4059fe2751ad79b64079fe2751ad79b64090150c2806d8cc4096be626777ca7f,
  0x40af24a0d001faef40d8393fd809fd5f40fa4e0600263e7641170445402176a8413134d07efad6a74146b0e5b2b537f4415aed9b00000000416d2731623045c4417d142f6f013f0f418aebf9f31951484197447b9fbf16a741a2db641d52a93c41acc3d35c97fe8941b4b506e00ca78241bc345381af3d6741c234b355401ae941c64f90d62351da41c9fbf4725cf04841ccc930feab043e41ce5a5d52cfe1f441ce79a23d08dc4441cd23c9e6f0ccee41ca88b98e3c2b8941c700c242ff6e1841c2f9fa6a98405241bdc5d2c0e98df141b63018faaa23d341af60defb8e51e941a5052bbd81b072419aa15cef1e9c0b418fd44eacec9c834181e56a2092a23d4172ded2c217d53841629510dfdaea1e41510117c528df53413cbe11e4579ab241264389536cb2a8410f4d8b4b5e6c7340f3b7a647d2ed3d40d5dfdd4792868940b4db42dd02928740907aff3dd4a8954064580b02bdb55f40318cc821d6d3e23ff000000000000040306e825da8fc2b405f265be16bc6104081cbc99b6ed888409ab1ae692644cd40aa6cffd467fd2240af24a0d001faef,
  0x40c3851bf231280640edad00c5df2b26410f79d6a9bc1089412ae2bcb0fb4e2041439bc07e28760e4159365b425b2d05416d2731623045c4417ebb3720000000418dd317c309651f419ad85e768a535241a689d5febc77e241b1ba975a5ddf0641ba397c8c032cc241c249d66c6acbd641c81b3e77f2d76a41ce1579450b433f41d1cc40d7b5598a41d3fce8bc9eda0741d552aeb45a8f1b41d59e785b45d52f41d4d678d9c084b341d3183351042cdd41d0a190cb6140d741cb86681cd9126f41c5a02e111a707041c01dca3e8909e241b6c1c3c661239c41ae652903695c9041a329ee4024432f4196c2d463ff6d3041896419c0f24fb3417a834ef1a4105e4169ce47e683cf1441574b4c36ff1819414360cf490896b0412d7ac4dbaf93f541144c2dfdf2e9a640f8f898c4a99c0640daf6cbee729c1440b8eda341ac37a4409303b8e6072ad7406689978e2f1a6f40328c17b93378333ff000000000000040318cc821d6d3e2406205ff005531d74086c739ede3343240a3851bf231280640b76c87ef6e300740c352e2bc61b0ef40c3851bf2312806,
  0x40d6a0a91648855a4100ccd4bc0486bd4121651b95ee2684413cfdd8a48ceadc41549d9d4088c2a14169d3ea7f6d2fff417d142f6f013f0f418dd317c309651f419c23fda400000041a89b10f0059f6741b40cf6af8864f841be968ac3a14d9e41c5ea7ccb7daadf41cd94d53d6773fc41d2d89a223e0b7e41d6b54c8314f6f141d9e8bb34e36ac541dc05043aa28afe41dcbdcf91ce5f5c41dbf99131afb3fc41d9d727d1f4e89141d6a630b8e6911041d2d49a8673c7eb41cdae55f3660df441c627535737899541bf481de83b68ca41b4dbc568f6101d41aa38833e7923b2419eff4d37d6086341912e432cc107f34181cc015379589b4171275d9f05ed4f415e9c1c0485442141491e63a92317274132ce70d927037241196e4fedaa7fa640fea4755e84a45a40e027fd15c944da40bd137a1d559be5409581329240b2d440689accc54f09e040337135779c8dca3ff000000000000040328c17b93378334064580b02bdb55f408bdb681680d6a140aa67922c8d38af40c21a20dea06aaf40d21a20dea06aaf40d999a5b0c9f1e340d6a0a91648855a,
  0x40e870c9d718cf064111b6d2ae43764e4131e4dceb3229db414d13e6fe3184044164259292da3cee4178937c205bebea418aebf9f3195148419ad85e768a535241a89b10f0059f6741b4e1d18d00000041c0802db684590641c862c62f72104041d0e895c6d9464f41d60fd0b2dc6a2641db24389bfcfe3f41df891a7987aad541e152f6254321c341e203c0829d30a241e1bd56e4ef691641e08c0a222871d641dd3d6e77efce7441d876c2e6a9840f41d35ee6e391f51941cd018217edab5141c482a08f45832341bb5a2eb3f5241f41b12a5efdd0a02a41a43ad0e2bd63ca41965211fbe4f9514186f9c703684bbc4175f80e0d83816241636915a589f78f414f7ceb69fa35264137416237bb85e0411ef4198520c55e41024ff5e9a09b7b40e2e9b4734d9efc40c09ea55f9952f24097ed9e4b46e819406a8bc36d45aacd40343f9adc3f79ce3ff000000000000040337135779c8dca406689978e2f1a6f40907aff3dd4a89540b0ecd320708fc940c9ab0dd495c5cc40dd542568842ba140e9238dc74cb7ae40ef1b977076785840e870c9d718cf06,
  0x40f8be83f7b6c69741217f2dca11787e41413b899ecd0129415b48ef3b6f41d7417268372cdee30d4185d8db73767b214197447b9fbf16a741a689d5febc77e241b40cf6af8864f841c0802db684590641c94322f800000041d210a12daf810141d8376f0cff951e41de81eb829a9b1741e218801e95c53d41e43f20c912189841e563adad39667841e55a325c71b76641e4267529c8f4a341e1fa77c41f7f2a41de5342e8e6d48c41d829ea2b6265ca41d22d26c702d5a741c9c8f46c4bf8b141c1384517a16ae841b59d02a0b1fafc41a96eacefb35310419bf960b22c342c418ca924a85d8359417b3b86d846c1394167de8cce093d1641532c1ca48519e6413bfdced6dc955c412260443f962769410566ceb529079c40e5b48660cb413640c2ae4b930cc134409a43e7542bd8cd406c5c8ba190fb2d4034f9e6bbc4ecb33ff000000000000040343f9adc3f79ce40689accc54f09e0409303b8e6072ad740b4db42dd02928740d122a6936ccf9c40e5a7e77ff2242440f53595afc13c8240ffd06087a1dac341017f2dca11787e40f8be83f7b6c697,
  0x410797b93a7fd153413043f613e326fb414f37d93617c23d4168106219b25064417f974218fe324f41923a01f356a43c41a2db641d52a93c41b1ba975a5ddf0641be968ac3a14d9e41c862c62f72104041d210a12daf810141d8f9a57b00000041e029a65524aead41e3a25d69a37a6241e66dfd9baae34841e82165fc9356e341e8790682d9f35341e7699610bf8cf541e5223c6d8289e741e1ffb1e7ed4b6641dce9fab24f74bf41d5e322e843873041cf31e3fa18118a41c4e5b2ec54075b41ba44fe204ad73741aee94706499af541a0f96140305bcd41915644cba66c814180656a38c0b759416c8fcc868606284156c22e4bb5021f414073bb202fd7d1412559dd2586d1f24108877aa5c2395040e87c9b03cd13e140c4b1f04a32481c409c7f95548db638406e0d304d0d0fbd4035a220734903763ff00000000000004034f9e6bbc4ecb3406a8bc36d45aacd409581329240b2d440b8eda341ac37a440d5dfdd4792868940edf3ee1a6ba142410039361a8608e5410bce3ee05fc8fd4112897f403fdb53411259cd6bc5328b410797b93a7fd153,
  0x411544221bc5cc60413c92356db44809415ab254e01f2a2a417405bfa8175fa041898e16b7a11dfd419ca5555e3a1cfa41acc3d35c97fe8941ba397c8c032cc241c5ea7ccb7daadf41d0e895c6d9464f41d8376f0cff951e41e029a65524aead41e42c195980000041e798f054232dd641e9eb971de37b0541eac5354c21849f41ea04d21e207efa41e7cf2dfc928f1a41e483da6e2bf09741e0a3d0c38a92c141d964f9c482ab9041d236175c77b72741c88383c012735741bee94706499af541b236f185e2aafb41a401144d71421f4194667f254fc9bd41833bd12bbc05654170ac9007f6c8a4415a67c2b01ef9724142efacec964b67412855fea0b56bdd410ba27857bac39d40eb3674e1b1679040c6a353ee9af4d9409e9cb6ae49809a406f9db916866995403639e2653e421a3ff00000000000004035a22073490376406c5c8ba190fb2d4097ed9e4b46e81940bd137a1d559be540daf6cbee729c1440f3b7a647d2ed3d41072461be5f60964115ef7b2dedeb3c4120b5888389209541240d0a37715a4c41220b800f646364411544221bc5cc60,
  0x41222deb67c854664147c80370ab2af141659ed70ccc6bb1417f87a447ff726241938bd281d1e51a41a5440c275fc60241b4b506e00ca78241c249d66c6acbd641cd94d53d6773fc41d60fd0b2dc6a2641de81eb829a9b1741e3a25d69a37a6241e798f054232dd641ea8addfc80000041ebfd2f08b090d641ebb3d45b4bf36d41e9c10f12c4603141e67eefe129861e41e275d749c56e2741dc7302936acd5441d490de775dc1ac41cbdbc06d98f67441c1a5947d85ca0f41b4dc871b5b90c241a6f247e4eae11c4197669d5160e1104186074f42292a06417309b9e013d8ae415e0211878939eb41456272b414b26f412b436e708b97cc410ea86b7e16ebd240edd71749ed0f3740c87cb6c79620e540a04be7f22f897440708715c069bad74036c276054ecf783ff0000000000000403639e2653e421a406e0d304d0d0fbd409a43e7542bd8cd40c09ea55f9952f240e027fd15c944da40f8f898c4a99c06410f4d8b4b5e6c73412012dfbb26d799412b15e7ea2dfffa413291a57a76adfb413441cbcb6a32294130b6104155af7841222deb67c85466,
  0x412d8dd0a1eb3af84152cedaec05155141709fc55b14512b41878d02410772fe419c5739d2df1e0141ade653ab668b8d41bc345381af3d6741c81b3e77f2d76a41d2d89a223e0b7e41db24389bfcfe3f41e218801e95c53d41e66dfd9baae34841e9eb971de37b0541ebfd2f08b090d641ec48dcbe00000041eac722de00fd7641e7c354747d5a8541e3c4a9cfaabb8541ded260d11e5ce041d67ff2983917d841ceb90d5abf775341c3959e6d9d476841b742bb6dc1b3d241a9aa2e5084edb4419a36a0cd9501c94188ad198b4eaecd41754b1848790a1d4160bac8db5c56ae4147bb8d8404b480412e1111edc0b7524110c53875b333ec40f02a13c806b3fd40ca38d9068f7b9640a136e7573d483640712f45cd83cc9c40373ce704fb7b233ff00000000000004036c276054ecf78406f9db916866995409c7f95548db63840c2ae4b930cc13440e2e9b4734d9efc40fea4755e84a45a41144c2dfdf2e9a641264389536cb2a8413452f0ecfa68e5413ed2a6a067729f414335c79c727fee414335c79c727fee413d41c652b292f0412d8dd0a1eb3af8,
  0x4136e4747fe2e6e4415c53f1738c439b417852bbc7e115524190b8e1196abea841a383718100c01941b3f18aa764254941c234b355401ae941ce1579450b433f41d6b54c8314f6f141df891a7987aad541e43f20c912189841e82165fc9356e341eac5354c21849f41ebb3d45b4bf36d41eac722de00fd7641e832f5bf00000041e473b25e994ad141e029bfcd9a7fbc41d7dfdc5496c24341d075c47fa20aea41c52753c9dac84b41b9488dda9343fb41ac07063ef68c45419cb71ff3a15ff6418b12b4f9e0fd6841775c954db6db374162538e32feb36a4149eadc829ec78341305733df981e0d41121d354bb71cfa40f15204e4a16e3d40cbd2face8243c640a20dffe3a447404071c76e38277ad84037aa10d193c22c3ff000000000000040373ce704fb7b2340708715c069bad7409e9cb6ae49809a40c4b1f04a32481c40e5b48660cb413641024ff5e9a09b7b41196e4fedaa7fa6412d7ac4dbaf93f5413cbe11e4579ab241479d4573228a63415047525ded75d04152999ea7e85b9941512b575fea2d2b414847f3879ccc3b4136e4747fe2e6e4,
  0x4140eddd6efa8893416459a8b6408c014180f59aa101618141969cce2c01d75741a98ff9f1b9588741b948749082adc541c64f90d62351da41d1cc40d7b5598a41d9e8bb34e36ac541e152f6254321c341e563adad39667841e8790682d9f35341ea04d21e207efa41e9c10f12c4603141e7c354747d5a8541e473b25e994ad141e06bb90ac0000041d896aa5bb1fda541d126a531a9d30041c6420dc269f2c741bad12e2c237a7441adea6de74db5ea419ecb33ff7f7bde418d1f66bb2c2c3a41792b44a25d35084163be83ee1646e8414be12894577db2413185fc2c5b5850411355a1d173601840f25efccb24e5ec40cd46dc389d1dad40a2d00366e8ba9b40724f90289abe7f40380aa84ce72f893ff00000000000004037aa10d193c22c40712f45cd83cc9c40a04be7f22f897440c6a353ee9af4d940e87c9b03cd13e1410566ceb529079c411ef4198520c55e4132ce70d9270372414360cf490896b041510117c528df5341596699efff288d41600d08df251cb24160eddd6efa8893415d057b99ad7c6a41532735603cc0014140eddd6efa8893,
  0x4147f102b84bf001416beee090b6faf3418692c80cd9e24a419d284265eec44a41afe5ce5400123241be7f57427bb2aa41c9fbf4725cf04841d3fce8bc9eda0741dc05043aa28afe41e203c0829d30a241e55a325c71b76641e7699610bf8cf541e7cf2dfc928f1a41e67eefe129861e41e3c4a9cfaabb8541e029bfcd9a7fbc41d896aa5bb1fda541d163002980000041c6d40e7bf8a47941bbc63bd5740b2141af3b820e0135dc41a02d21f4b65cee418ebd8d7330f934417aa648abea38274164f017a9b4ac58414d90a4f7d08cef41328dddd49cf419411468962d02232040f34d0fb1a2e32140ce90bd573afec640a37bebe1937bac4072c7ac8278433440385f42f15214113ff000000000000040380aa84ce72f894071c76e38277ad840a136e7573d483640c87cb6c79620e540eb3674e1b167904108877aa5c23950412260443f9627694137416237bb85e041491e63a923172741574b4c36ff181941629510dfdaea1e416971e17a67a2d4416daf11967db057416d125ebb37a36f416741e56292e925415cc7920976b4fa4147f102b84bf001,
  0x4150355c1c61f7af41725676f8b7597a418cb64b657a57ab41a1f1ef1f6c76ca41b2fa2ec0357fde41c184bf3f39b69941ccc930feab043e41d552aeb45a8f1b41dcbdcf91ce5f5c41e1bd56e4ef691641e4267529c8f4a341e5223c6d8289e741e483da6e2bf09741e275d749c56e2741ded260d11e5ce041d7dfdc5496c24341d126a531a9d30041c6d40e7bf8a47941bc19895000000041afe89eaf0682f941a0a8c6933ff281418fdbcfa166a3c6417bbf9dc86950cd4165de6f17ee8c3b414eed6198784a25413368b94f35e936411550e71b1afb2d40f418d137dd0ea740cfad5e37d61f2b40a410d8e77b6d9e40732fc3f5a064f84038a85c24f706593ff000000000000040385f42f152141140724f90289abe7f40a20dffe3a4474040ca38d9068f7b9640edd71749ed0f37410ba27857bac39d412559dd2586d1f2413bfdced6dc955c414f7ceb69fa3526415e9c1c048544214169ce47e683cf144172ded2c217d5384177da0a5d7c6c814179d67a50047f6441779e35c2f527154171b6a85237dd4f4164a145d7ce44a94150355c1c61f7af,
  0x415508eb9ca2733541770df4cc0180c54191776836a251f241a51af34204230541b58cb5826f621141c32ec61656f23e41ce5a5d52cfe1f441d59e785b45d52f41dbf99131afb3fc41e08c0a222871d641e1fa77c41f7f2a41e1ffb1e7ed4b6641e0a3d0c38a92c141dc7302936acd5441d67ff2983917d841d075c47fa20aea41c6420dc269f2c741bbc63bd5740b2141afe89eaf0682f941a0d2a81a00000041903707201fa9c0417c6cc28acbbaa6416681cb2f2da092414fedac57e75f6c41341179aff00ee741160a3befae801240f4bf5bef64e28240d04cff722a90b240a48e0d865b19b1407387d70a127d2b4038e6593d77b0b73ff00000000000004038a85c24f706594072c7ac8278433440a2d00366e8ba9b40cbd2face8243c640f02a13c806b3fd410ea86b7e16ebd2412855fea0b56bdd414073bb202fd7d141532c1ca48519e641636915a589f78f4171275d9f05ed4f417a834ef1a4105e4181e56a2092a23d4185012a7a3aac4f41853c957c663f66418232eaee9a43374179b14bab3422a9416c42a7f1d04b44415508eb9ca27335,
  0x415a302bf9d7669a417bc6d916102624419457b47212bfb341a7bba7da6b34fb41b75e0599e24e6a41c407c1c7194b3d41ce79a23d08dc4441d4d678d9c084b341d9d727d1f4e89141dd3d6e77efce7441de5342e8e6d48c41dce9fab24f74bf41d964f9c482ab9041d490de775dc1ac41ceb90d5abf775341c52753c9dac84b41bad12e2c237a7441af3b820e0135dc41a0a8c6933ff28141903707201fa9c0417ca735700000004166d4d58ff4c09b4150452f87031e3a41348433ac98e7034116912096528ed840f53e5780d978e040d0aa2fb1f612d740a4f2ee99c5b2d84073cfe628500dfa4039198c8b8307c83ff00000000000004038e6593d77b0b740732fc3f5a064f840a37bebe1937bac40cd46dc389d1dad40f15204e4a16e3d4110c53875b333ec412b436e708b97cc4142efacec964b674156c22e4bb5021f4167de8cce093d164175f80e0d8381624181cc015379589b41896419c0f24fb3418fd44eacec9c8341916f03009b269d4190864ec9057bf9418aa7e39e4d886f4181c5426989059f41728490b960196d415a302bf9d7669a,
  0x415f4d04960cb6fe41800be49b66e5a54196b1701ffc6b1141a9879e23fbf87441b83490dc9c8cb041c3f35e404080f241cd23c9e6f0ccee41d3183351042cdd41d6a630b8e6911041d876c2e6a9840f41d829ea2b6265ca41d5e322e843873041d236175c77b72741cbdbc06d98f67441c3959e6d9d476841b9488dda9343fb41adea6de74db5ea41a02d21f4b65cee418fdbcfa166a3c6417c6cc28acbbaa64166d4d58ff4c09b41505f8c400000004134be3d2eb2c8844116e313928c46ae40f593fd817b7fe440d0ed5fddda96e140a53f017b8d4ab9407407f19f54b32340394237aa3e07493ff00000000000004039198c8b8307c8407387d70a127d2b40a410d8e77b6d9e40ce90bd573afec640f25efccb24e5ec41121d354bb71cfa412e1111edc0b75241456272b414b26f415a67c2b01ef972416c8fcc86860628417b3b86d846c1394186f9c703684bbc41912e432cc107f34196c2d463ff6d30419aa15cef1e9c0b419b594b4900d388419865e01acd5416419295bab9178ca6418779c37089893e41773d5cbdc12947415f4d04960cb6fe,
  0x4161f7f50126a2c34181c9b9a384911e419841f127f4288741aa476feb48813d41b7f51c1bb38d2d41c2f4dd0872866841ca88b98e3c2b8941d0a190cb6140d741d2d49a8673c7eb41d35ee6e391f51941d22d26c702d5a741cf31e3fa18118a41c88383c012735741c1a5947d85ca0f41b742bb6dc1b3d241ac07063ef68c45419ecb33ff7f7bde418ebd8d7330f934417bbf9dc86950cd416681cb2f2da0924150452f87031e3a4134be3d2eb2c8844116fe900000000040f5bf1d07830ab740d115eff78ae9e840a571eb0428183640742ff9a8d03e1e4039608d3c41fb4b3ff000000000000040394237aa3e07494073cfe628500dfa40a48e0d865b19b140cfad5e37d61f2b40f34d0fb1a2e321411355a1d173601841305733df981e0d4147bb8d8404b480415e0211878939eb4170ac9007f6c8a44180656a38c0b759418ca924a85d835941965211fbe4f951419eff4d37d6086341a329ee4024432f41a5052bbd81b07241a451462c7fffa541a11e4a58ef72704198b4f0e1951fcc418da5eddb7fbfc2417bf3da933e089d4161f7f50126a2c3,
  0x4163d362354cbd9e4182ecee7981a53d4198da5b1c6a41d141a9e3743d9959e441b6a847fbbd77b941c12e47ee15a76841c700c242ff6e1841cb86681cd9126f41cdae55f3660df441cd018217edab5141c9c8f46c4bf8b141c4e5b2ec54075b41bee94706499af541b4dc871b5b90c241a9aa2e5084edb4419cb71ff3a15ff6418d1f66bb2c2c3a417aa648abea38274165de6f17ee8c3b414fedac57e75f6c41348433ac98e7034116e313928c46ae40f5bf1d07830ab740d123800000000040a58b6ed217a530407447fe6c14733f403974b2334f23463ff00000000000004039608d3c41fb4b407407f19f54b32340a4f2ee99c5b2d840d04cff722a90b240f418d137dd0ea7411468962d022320413185fc2c5b58504149eadc829ec7834160bac8db5c56ae417309b9e013d8ae41833bd12bbc056541915644cba66c81419bf960b22c342c41a43ad0e2bd63ca41aa38833e7923b241ae652903695c9041af60defb8e51e941aca4f974baa39441a6dd29471d927c419f59734aae256f4191e9f8bcf5cc3f41801f29f5ba4a634163d362354cbd9e,
  0x41650741dc5729604183547fc0c46c144198686c7209bdbd41a8686c7209bdbd41b478b37376525741bdb25adf07d62341c2f9fa6a98405241c5a02e111a707041c627535737899541c482a08f45832341c1384517a16ae841ba44fe204ad73741b236f185e2aafb41a6f247e4eae11c419a36a0cd9501c9418b12b4f9e0fd6841792b44a25d35084164f017a9b4ac58414eed6198784a2541341179aff00ee74116912096528ed840f593fd817b7fe440d115eff78ae9e840a58b6ed217a530407450000000000040397ebeb6d6bbf33ff0000000000000403974b2334f234640742ff9a8d03e1e40a53f017b8d4ab940d0aa2fb1f612d740f4bf5bef64e282411550e71b1afb2d41328dddd49cf419414be12894577db24162538e32feb36a41754b1848790a1d4186074f42292a064194667f254fc9bd41a0f96140305bcd41a96eacefb3531041b12a5efdd0a02a41b4dbc568f6101d41b6c1c3c661239c41b63018faaa23d341b3304a787b37a841ad19dba67f3d2041a300284f5269f54194ba5a851416804181d7d8632b777541650741dc572960,
  0x416571dde4bedf424182f4670c0b75b04196fa00075ecaa241a604eab1bad78641b1aa422cc432a041b875f77f8d31f041bdc5d2c0e98df141c01dca3e8909e241bf481de83b68ca41bb5a2eb3f5241f41b59d02a0b1fafc41aee94706499af541a401144d71421f4197669d5160e1104188ad198b4eaecd41775c954db6db374163be83ee1646e8414d90a4f7d08cef413368b94f35e93641160a3befae801240f53e5780d978e040d0ed5fddda96e140a571eb04281836407447fe6c14733f40397ebeb6d6bbf33ff000000000000040397ebeb6d6bbf3407447fe6c14733f40a571eb0428183640d0ed5fddda96e140f53e5780d978e041160a3befae8012413368b94f35e936414d90a4f7d08cef4163be83ee1646e841775c954db6db374188ad198b4eaecd4197669d5160e11041a401144d71421f41aee94706499af541b59d02a0b1fafc41bb5a2eb3f5241f41bf481de83b68ca41c01dca3e8909e241bdc5d2c0e98df141b875f77f8d31f041b1aa422cc432a041a604eab1bad7864196fa00075ecaa24182f4670c0b75b0416571dde4bedf42,
  0x41650741dc5729604181d7d8632b77754194ba5a8514168041a300284f5269f541ad19dba67f3d2041b3304a787b37a841b63018faaa23d341b6c1c3c661239c41b4dbc568f6101d41b12a5efdd0a02a41a96eacefb3531041a0f96140305bcd4194667f254fc9bd4186074f42292a0641754b1848790a1d4162538e32feb36a414be12894577db241328dddd49cf419411550e71b1afb2d40f4bf5bef64e28240d0aa2fb1f612d740a53f017b8d4ab940742ff9a8d03e1e403974b2334f23463ff000000000000040397ebeb6d6bbf3407450000000000040a58b6ed217a53040d115eff78ae9e840f593fd817b7fe44116912096528ed841341179aff00ee7414eed6198784a254164f017a9b4ac5841792b44a25d3508418b12b4f9e0fd68419a36a0cd9501c941a6f247e4eae11c41b236f185e2aafb41ba44fe204ad73741c1384517a16ae841c482a08f45832341c627535737899541c5a02e111a707041c2f9fa6a98405241bdb25adf07d62341b478b37376525741a8686c7209bdbd4198686c7209bdbd4183547fc0c46c1441650741dc572960,
  0x4163d362354cbd9e41801f29f5ba4a634191e9f8bcf5cc3f419f59734aae256f41a6dd29471d927c41aca4f974baa39441af60defb8e51e941ae652903695c9041aa38833e7923b241a43ad0e2bd63ca419bf960b22c342c41915644cba66c8141833bd12bbc0565417309b9e013d8ae4160bac8db5c56ae4149eadc829ec783413185fc2c5b5850411468962d02232040f418d137dd0ea740d04cff722a90b240a4f2ee99c5b2d8407407f19f54b3234039608d3c41fb4b3ff0000000000000403974b2334f2346407447fe6c14733f40a58b6ed217a53040d123800000000040f5bf1d07830ab74116e313928c46ae41348433ac98e703414fedac57e75f6c4165de6f17ee8c3b417aa648abea3827418d1f66bb2c2c3a419cb71ff3a15ff641a9aa2e5084edb441b4dc871b5b90c241bee94706499af541c4e5b2ec54075b41c9c8f46c4bf8b141cd018217edab5141cdae55f3660df441cb86681cd9126f41c700c242ff6e1841c12e47ee15a76841b6a847fbbd77b941a9e3743d9959e44198da5b1c6a41d14182ecee7981a53d4163d362354cbd9e,
  0x4161f7f50126a2c3417bf3da933e089d418da5eddb7fbfc24198b4f0e1951fcc41a11e4a58ef727041a451462c7fffa541a5052bbd81b07241a329ee4024432f419eff4d37d6086341965211fbe4f951418ca924a85d83594180656a38c0b7594170ac9007f6c8a4415e0211878939eb4147bb8d8404b48041305733df981e0d411355a1d173601840f34d0fb1a2e32140cfad5e37d61f2b40a48e0d865b19b14073cfe628500dfa40394237aa3e07493ff00000000000004039608d3c41fb4b40742ff9a8d03e1e40a571eb0428183640d115eff78ae9e840f5bf1d07830ab74116fe90000000004134be3d2eb2c8844150452f87031e3a416681cb2f2da092417bbf9dc86950cd418ebd8d7330f934419ecb33ff7f7bde41ac07063ef68c4541b742bb6dc1b3d241c1a5947d85ca0f41c88383c012735741cf31e3fa18118a41d22d26c702d5a741d35ee6e391f51941d2d49a8673c7eb41d0a190cb6140d741ca88b98e3c2b8941c2f4dd0872866841b7f51c1bb38d2d41aa476feb48813d419841f127f428874181c9b9a384911e4161f7f50126a2c3,
  0x415f4d04960cb6fe41773d5cbdc12947418779c37089893e419295bab9178ca6419865e01acd5416419b594b4900d388419aa15cef1e9c0b4196c2d463ff6d3041912e432cc107f34186f9c703684bbc417b3b86d846c139416c8fcc86860628415a67c2b01ef97241456272b414b26f412e1111edc0b75241121d354bb71cfa40f25efccb24e5ec40ce90bd573afec640a410d8e77b6d9e407387d70a127d2b4039198c8b8307c83ff000000000000040394237aa3e0749407407f19f54b32340a53f017b8d4ab940d0ed5fddda96e140f593fd817b7fe44116e313928c46ae4134be3d2eb2c88441505f8c400000004166d4d58ff4c09b417c6cc28acbbaa6418fdbcfa166a3c641a02d21f4b65cee41adea6de74db5ea41b9488dda9343fb41c3959e6d9d476841cbdbc06d98f67441d236175c77b72741d5e322e843873041d829ea2b6265ca41d876c2e6a9840f41d6a630b8e6911041d3183351042cdd41cd23c9e6f0ccee41c3f35e404080f241b83490dc9c8cb041a9879e23fbf8744196b1701ffc6b1141800be49b66e5a5415f4d04960cb6fe,
  0x415a302bf9d7669a41728490b960196d4181c5426989059f418aa7e39e4d886f4190864ec9057bf941916f03009b269d418fd44eacec9c8341896419c0f24fb34181cc015379589b4175f80e0d8381624167de8cce093d164156c22e4bb5021f4142efacec964b67412b436e708b97cc4110c53875b333ec40f15204e4a16e3d40cd46dc389d1dad40a37bebe1937bac40732fc3f5a064f84038e6593d77b0b73ff00000000000004039198c8b8307c84073cfe628500dfa40a4f2ee99c5b2d840d0aa2fb1f612d740f53e5780d978e04116912096528ed841348433ac98e7034150452f87031e3a4166d4d58ff4c09b417ca7357000000041903707201fa9c041a0a8c6933ff28141af3b820e0135dc41bad12e2c237a7441c52753c9dac84b41ceb90d5abf775341d490de775dc1ac41d964f9c482ab9041dce9fab24f74bf41de5342e8e6d48c41dd3d6e77efce7441d9d727d1f4e89141d4d678d9c084b341ce79a23d08dc4441c407c1c7194b3d41b75e0599e24e6a41a7bba7da6b34fb419457b47212bfb3417bc6d916102624415a302bf9d7669a,
  0x415508eb9ca27335416c42a7f1d04b444179b14bab3422a9418232eaee9a433741853c957c663f664185012a7a3aac4f4181e56a2092a23d417a834ef1a4105e4171275d9f05ed4f41636915a589f78f41532c1ca48519e6414073bb202fd7d1412855fea0b56bdd410ea86b7e16ebd240f02a13c806b3fd40cbd2face8243c640a2d00366e8ba9b4072c7ac827843344038a85c24f706593ff00000000000004038e6593d77b0b7407387d70a127d2b40a48e0d865b19b140d04cff722a90b240f4bf5bef64e28241160a3befae801241341179aff00ee7414fedac57e75f6c416681cb2f2da092417c6cc28acbbaa641903707201fa9c041a0d2a81a00000041afe89eaf0682f941bbc63bd5740b2141c6420dc269f2c741d075c47fa20aea41d67ff2983917d841dc7302936acd5441e0a3d0c38a92c141e1ffb1e7ed4b6641e1fa77c41f7f2a41e08c0a222871d641dbf99131afb3fc41d59e785b45d52f41ce5a5d52cfe1f441c32ec61656f23e41b58cb5826f621141a51af3420423054191776836a251f241770df4cc0180c5415508eb9ca27335,
  0x4150355c1c61f7af4164a145d7ce44a94171b6a85237dd4f41779e35c2f527154179d67a50047f644177da0a5d7c6c814172ded2c217d5384169ce47e683cf14415e9c1c04854421414f7ceb69fa3526413bfdced6dc955c412559dd2586d1f2410ba27857bac39d40edd71749ed0f3740ca38d9068f7b9640a20dffe3a4474040724f90289abe7f40385f42f15214113ff00000000000004038a85c24f7065940732fc3f5a064f840a410d8e77b6d9e40cfad5e37d61f2b40f418d137dd0ea7411550e71b1afb2d413368b94f35e936414eed6198784a254165de6f17ee8c3b417bbf9dc86950cd418fdbcfa166a3c641a0a8c6933ff28141afe89eaf0682f941bc19895000000041c6d40e7bf8a47941d126a531a9d30041d7dfdc5496c24341ded260d11e5ce041e275d749c56e2741e483da6e2bf09741e5223c6d8289e741e4267529c8f4a341e1bd56e4ef691641dcbdcf91ce5f5c41d552aeb45a8f1b41ccc930feab043e41c184bf3f39b69941b2fa2ec0357fde41a1f1ef1f6c76ca418cb64b657a57ab41725676f8b7597a4150355c1c61f7af,
  0x4147f102b84bf001415cc7920976b4fa416741e56292e925416d125ebb37a36f416daf11967db057416971e17a67a2d441629510dfdaea1e41574b4c36ff181941491e63a92317274137416237bb85e0412260443f9627694108877aa5c2395040eb3674e1b1679040c87cb6c79620e540a136e7573d48364071c76e38277ad840380aa84ce72f893ff000000000000040385f42f15214114072c7ac8278433440a37bebe1937bac40ce90bd573afec640f34d0fb1a2e321411468962d02232041328dddd49cf419414d90a4f7d08cef4164f017a9b4ac58417aa648abea3827418ebd8d7330f93441a02d21f4b65cee41af3b820e0135dc41bbc63bd5740b2141c6d40e7bf8a47941d163002980000041d896aa5bb1fda541e029bfcd9a7fbc41e3c4a9cfaabb8541e67eefe129861e41e7cf2dfc928f1a41e7699610bf8cf541e55a325c71b76641e203c0829d30a241dc05043aa28afe41d3fce8bc9eda0741c9fbf4725cf04841be7f57427bb2aa41afe5ce54001232419d284265eec44a418692c80cd9e24a416beee090b6faf34147f102b84bf001,
  0x4140eddd6efa889341532735603cc001415d057b99ad7c6a4160eddd6efa889341600d08df251cb241596699efff288d41510117c528df53414360cf490896b04132ce70d9270372411ef4198520c55e410566ceb529079c40e87c9b03cd13e140c6a353ee9af4d940a04be7f22f897440712f45cd83cc9c4037aa10d193c22c3ff000000000000040380aa84ce72f8940724f90289abe7f40a2d00366e8ba9b40cd46dc389d1dad40f25efccb24e5ec411355a1d1736018413185fc2c5b5850414be12894577db24163be83ee1646e841792b44a25d3508418d1f66bb2c2c3a419ecb33ff7f7bde41adea6de74db5ea41bad12e2c237a7441c6420dc269f2c741d126a531a9d30041d896aa5bb1fda541e06bb90ac0000041e473b25e994ad141e7c354747d5a8541e9c10f12c4603141ea04d21e207efa41e8790682d9f35341e563adad39667841e152f6254321c341d9e8bb34e36ac541d1cc40d7b5598a41c64f90d62351da41b948749082adc541a98ff9f1b9588741969cce2c01d7574180f59aa1016181416459a8b6408c014140eddd6efa8893,
  0x4136e4747fe2e6e4414847f3879ccc3b41512b575fea2d2b4152999ea7e85b99415047525ded75d041479d4573228a63413cbe11e4579ab2412d7ac4dbaf93f541196e4fedaa7fa641024ff5e9a09b7b40e5b48660cb413640c4b1f04a32481c409e9cb6ae49809a40708715c069bad740373ce704fb7b233ff00000000000004037aa10d193c22c4071c76e38277ad840a20dffe3a4474040cbd2face8243c640f15204e4a16e3d41121d354bb71cfa41305733df981e0d4149eadc829ec7834162538e32feb36a41775c954db6db37418b12b4f9e0fd68419cb71ff3a15ff641ac07063ef68c4541b9488dda9343fb41c52753c9dac84b41d075c47fa20aea41d7dfdc5496c24341e029bfcd9a7fbc41e473b25e994ad141e832f5bf00000041eac722de00fd7641ebb3d45b4bf36d41eac5354c21849f41e82165fc9356e341e43f20c912189841df891a7987aad541d6b54c8314f6f141ce1579450b433f41c234b355401ae941b3f18aa764254941a383718100c0194190b8e1196abea8417852bbc7e11552415c53f1738c439b4136e4747fe2e6e4,
  0x412d8dd0a1eb3af8413d41c652b292f0414335c79c727fee414335c79c727fee413ed2a6a067729f413452f0ecfa68e541264389536cb2a841144c2dfdf2e9a640fea4755e84a45a40e2e9b4734d9efc40c2ae4b930cc134409c7f95548db638406f9db9168669954036c276054ecf783ff000000000000040373ce704fb7b2340712f45cd83cc9c40a136e7573d483640ca38d9068f7b9640f02a13c806b3fd4110c53875b333ec412e1111edc0b7524147bb8d8404b4804160bac8db5c56ae41754b1848790a1d4188ad198b4eaecd419a36a0cd9501c941a9aa2e5084edb441b742bb6dc1b3d241c3959e6d9d476841ceb90d5abf775341d67ff2983917d841ded260d11e5ce041e3c4a9cfaabb8541e7c354747d5a8541eac722de00fd7641ec48dcbe00000041ebfd2f08b090d641e9eb971de37b0541e66dfd9baae34841e218801e95c53d41db24389bfcfe3f41d2d89a223e0b7e41c81b3e77f2d76a41bc345381af3d6741ade653ab668b8d419c5739d2df1e0141878d02410772fe41709fc55b14512b4152cedaec051551412d8dd0a1eb3af8,
  0x41222deb67c854664130b6104155af78413441cbcb6a3229413291a57a76adfb412b15e7ea2dfffa412012dfbb26d799410f4d8b4b5e6c7340f8f898c4a99c0640e027fd15c944da40c09ea55f9952f2409a43e7542bd8cd406e0d304d0d0fbd403639e2653e421a3ff00000000000004036c276054ecf7840708715c069bad740a04be7f22f897440c87cb6c79620e540edd71749ed0f37410ea86b7e16ebd2412b436e708b97cc41456272b414b26f415e0211878939eb417309b9e013d8ae4186074f42292a064197669d5160e11041a6f247e4eae11c41b4dc871b5b90c241c1a5947d85ca0f41cbdbc06d98f67441d490de775dc1ac41dc7302936acd5441e275d749c56e2741e67eefe129861e41e9c10f12c4603141ebb3d45b4bf36d41ebfd2f08b090d641ea8addfc80000041e798f054232dd641e3a25d69a37a6241de81eb829a9b1741d60fd0b2dc6a2641cd94d53d6773fc41c249d66c6acbd641b4b506e00ca78241a5440c275fc60241938bd281d1e51a417f87a447ff726241659ed70ccc6bb14147c80370ab2af141222deb67c85466,
  0x411544221bc5cc6041220b800f64636441240d0a37715a4c4120b588838920954115ef7b2dedeb3c41072461be5f609640f3b7a647d2ed3d40daf6cbee729c1440bd137a1d559be54097ed9e4b46e819406c5c8ba190fb2d4035a220734903763ff0000000000000403639e2653e421a406f9db916866995409e9cb6ae49809a40c6a353ee9af4d940eb3674e1b16790410ba27857bac39d412855fea0b56bdd4142efacec964b67415a67c2b01ef9724170ac9007f6c8a441833bd12bbc05654194667f254fc9bd41a401144d71421f41b236f185e2aafb41bee94706499af541c88383c012735741d236175c77b72741d964f9c482ab9041e0a3d0c38a92c141e483da6e2bf09741e7cf2dfc928f1a41ea04d21e207efa41eac5354c21849f41e9eb971de37b0541e798f054232dd641e42c195980000041e029a65524aead41d8376f0cff951e41d0e895c6d9464f41c5ea7ccb7daadf41ba397c8c032cc241acc3d35c97fe89419ca5555e3a1cfa41898e16b7a11dfd417405bfa8175fa0415ab254e01f2a2a413c92356db44809411544221bc5cc60,
  0x410797b93a7fd153411259cd6bc5328b4112897f403fdb53410bce3ee05fc8fd410039361a8608e540edf3ee1a6ba14240d5dfdd4792868940b8eda341ac37a4409581329240b2d4406a8bc36d45aacd4034f9e6bbc4ecb33ff00000000000004035a22073490376406e0d304d0d0fbd409c7f95548db63840c4b1f04a32481c40e87c9b03cd13e14108877aa5c23950412559dd2586d1f2414073bb202fd7d14156c22e4bb5021f416c8fcc868606284180656a38c0b75941915644cba66c8141a0f96140305bcd41aee94706499af541ba44fe204ad73741c4e5b2ec54075b41cf31e3fa18118a41d5e322e843873041dce9fab24f74bf41e1ffb1e7ed4b6641e5223c6d8289e741e7699610bf8cf541e8790682d9f35341e82165fc9356e341e66dfd9baae34841e3a25d69a37a6241e029a65524aead41d8f9a57b00000041d210a12daf810141c862c62f72104041be968ac3a14d9e41b1ba975a5ddf0641a2db641d52a93c41923a01f356a43c417f974218fe324f4168106219b25064414f37d93617c23d413043f613e326fb410797b93a7fd153,
  0x40f8be83f7b6c69741017f2dca11787e40ffd06087a1dac340f53595afc13c8240e5a7e77ff2242440d122a6936ccf9c40b4db42dd029287409303b8e6072ad740689accc54f09e040343f9adc3f79ce3ff00000000000004034f9e6bbc4ecb3406c5c8ba190fb2d409a43e7542bd8cd40c2ae4b930cc13440e5b48660cb4136410566ceb529079c412260443f962769413bfdced6dc955c41532c1ca48519e64167de8cce093d16417b3b86d846c139418ca924a85d8359419bf960b22c342c41a96eacefb3531041b59d02a0b1fafc41c1384517a16ae841c9c8f46c4bf8b141d22d26c702d5a741d829ea2b6265ca41de5342e8e6d48c41e1fa77c41f7f2a41e4267529c8f4a341e55a325c71b76641e563adad39667841e43f20c912189841e218801e95c53d41de81eb829a9b1741d8376f0cff951e41d210a12daf810141c94322f800000041c0802db684590641b40cf6af8864f841a689d5febc77e24197447b9fbf16a74185d8db73767b21417268372cdee30d415b48ef3b6f41d741413b899ecd012941217f2dca11787e40f8be83f7b6c697,
  0x40e870c9d718cf0640ef1b977076785840e9238dc74cb7ae40dd542568842ba140c9ab0dd495c5cc40b0ecd320708fc940907aff3dd4a895406689978e2f1a6f40337135779c8dca3ff000000000000040343f9adc3f79ce406a8bc36d45aacd4097ed9e4b46e81940c09ea55f9952f240e2e9b4734d9efc41024ff5e9a09b7b411ef4198520c55e4137416237bb85e0414f7ceb69fa352641636915a589f78f4175f80e0d8381624186f9c703684bbc41965211fbe4f95141a43ad0e2bd63ca41b12a5efdd0a02a41bb5a2eb3f5241f41c482a08f45832341cd018217edab5141d35ee6e391f51941d876c2e6a9840f41dd3d6e77efce7441e08c0a222871d641e1bd56e4ef691641e203c0829d30a241e152f6254321c341df891a7987aad541db24389bfcfe3f41d60fd0b2dc6a2641d0e895c6d9464f41c862c62f72104041c0802db684590641b4e1d18d00000041a89b10f0059f67419ad85e768a5352418aebf9f31951484178937c205bebea4164259292da3cee414d13e6fe3184044131e4dceb3229db4111b6d2ae43764e40e870c9d718cf06,
  0x40d6a0a91648855a40d999a5b0c9f1e340d21a20dea06aaf40c21a20dea06aaf40aa67922c8d38af408bdb681680d6a14064580b02bdb55f40328c17b93378333ff000000000000040337135779c8dca40689accc54f09e0409581329240b2d440bd137a1d559be540e027fd15c944da40fea4755e84a45a41196e4fedaa7fa64132ce70d927037241491e63a9231727415e9c1c048544214171275d9f05ed4f4181cc015379589b41912e432cc107f3419eff4d37d6086341aa38833e7923b241b4dbc568f6101d41bf481de83b68ca41c627535737899541cdae55f3660df441d2d49a8673c7eb41d6a630b8e6911041d9d727d1f4e89141dbf99131afb3fc41dcbdcf91ce5f5c41dc05043aa28afe41d9e8bb34e36ac541d6b54c8314f6f141d2d89a223e0b7e41cd94d53d6773fc41c5ea7ccb7daadf41be968ac3a14d9e41b40cf6af8864f841a89b10f0059f67419c23fda4000000418dd317c309651f417d142f6f013f0f4169d3ea7f6d2fff41549d9d4088c2a1413cfdd8a48ceadc4121651b95ee26844100ccd4bc0486bd40d6a0a91648855a,
  0x40c3851bf231280640c352e2bc61b0ef40b76c87ef6e300740a3851bf23128064086c739ede33432406205ff005531d740318cc821d6d3e23ff000000000000040328c17b9337833406689978e2f1a6f409303b8e6072ad740b8eda341ac37a440daf6cbee729c1440f8f898c4a99c0641144c2dfdf2e9a6412d7ac4dbaf93f5414360cf490896b041574b4c36ff18194169ce47e683cf14417a834ef1a4105e41896419c0f24fb34196c2d463ff6d3041a329ee4024432f41ae652903695c9041b6c1c3c661239c41c01dca3e8909e241c5a02e111a707041cb86681cd9126f41d0a190cb6140d741d3183351042cdd41d4d678d9c084b341d59e785b45d52f41d552aeb45a8f1b41d3fce8bc9eda0741d1cc40d7b5598a41ce1579450b433f41c81b3e77f2d76a41c249d66c6acbd641ba397c8c032cc241b1ba975a5ddf0641a689d5febc77e2419ad85e768a5352418dd317c309651f417ebb3720000000416d2731623045c44159365b425b2d0541439bc07e28760e412ae2bcb0fb4e20410f79d6a9bc108940edad00c5df2b2640c3851bf2312806,
  0x40af24a0d001faef40aa6cffd467fd22409ab1ae692644cd4081cbc99b6ed888405f265be16bc61040306e825da8fc2b3ff000000000000040318cc821d6d3e24064580b02bdb55f40907aff3dd4a89540b4db42dd02928740d5dfdd4792868940f3b7a647d2ed3d410f4d8b4b5e6c7341264389536cb2a8413cbe11e4579ab241510117c528df5341629510dfdaea1e4172ded2c217d5384181e56a2092a23d418fd44eacec9c83419aa15cef1e9c0b41a5052bbd81b07241af60defb8e51e941b63018faaa23d341bdc5d2c0e98df141c2f9fa6a98405241c700c242ff6e1841ca88b98e3c2b8941cd23c9e6f0ccee41ce79a23d08dc4441ce5a5d52cfe1f441ccc930feab043e41c9fbf4725cf04841c64f90d62351da41c234b355401ae941bc345381af3d6741b4b506e00ca78241acc3d35c97fe8941a2db641d52a93c4197447b9fbf16a7418aebf9f3195148417d142f6f013f0f416d2731623045c4415aed9b000000004146b0e5b2b537f4413134d07efad6a741170445402176a840fa4e0600263e7640d8393fd809fd5f40af24a0d001faef,
  0x4096be626777ca7f4090150c2806d8cc4079fe2751ad79b64059fe2751ad79b6402e54dd4ce75f1d3ff000000000000040306e825da8fc2b406205ff005531d7408bdb681680d6a140b0ecd320708fc940d122a6936ccf9c40edf3ee1a6ba14241072461be5f6096412012dfbb26d799413452f0ecfa68e541479d4573228a6341596699efff288d416971e17a67a2d44177da0a5d7c6c814185012a7a3aac4f41916f03009b269d419b594b4900d38841a451462c7fffa541aca4f974baa39441b3304a787b37a841b875f77f8d31f041bdb25adf07d62341c12e47ee15a76841c2f4dd0872866841c3f35e404080f241c407c1c7194b3d41c32ec61656f23e41c184bf3f39b69941be7f57427bb2aa41b948749082adc541b3f18aa764254941ade653ab668b8d41a5440c275fc602419ca5555e3a1cfa41923a01f356a43c4185d8db73767b214178937c205bebea4169d3ea7f6d2fff4159365b425b2d054146b0e5b2b537f44132a47f00000000411b9550d7c59061410202787e37923440e41a92692c2c2240c217adad07b3e54096be626777ca7f,
  0x407dfe55497a99c34070f7856a3bc8a4405491248a282eec402b6c30b83593e63ff0000000000000402e54dd4ce75f1d405f265be16bc6104086c739ede3343240aa67922c8d38af40c9ab0dd495c5cc40e5a7e77ff22424410039361a8608e54115ef7b2dedeb3c412b15e7ea2dfffa413ed2a6a067729f415047525ded75d041600d08df251cb2416daf11967db0574179d67a50047f6441853c957c663f664190864ec9057bf9419865e01acd541641a11e4a58ef727041a6dd29471d927c41ad19dba67f3d2041b1aa422cc432a041b478b37376525741b6a847fbbd77b941b7f51c1bb38d2d41b83490dc9c8cb041b75e0599e24e6a41b58cb5826f621141b2fa2ec0357fde41afe5ce5400123241a98ff9f1b9588741a383718100c019419c5739d2df1e0141938bd281d1e51a41898e16b7a11dfd417f974218fe324f417268372cdee30d4164259292da3cee41549d9d4088c2a141439bc07e28760e413134d07efad6a7411b9550d7c590614103eb880000000040e9684d63ac23f740cbb79a3e30273c40a863cfc8b5f06d407dfe55497a99c3,
  0x4061800000000000404db2cfe686fe7c40280000000000003ff0000000000000402b6c30b83593e64059fe2751ad79b64081cbc99b6ed88840a3851bf231280640c21a20dea06aaf40dd542568842ba140f53595afc13c82410bce3ee05fc8fd4120b58883892095413291a57a76adfb414335c79c727fee4152999ea7e85b994160eddd6efa8893416d125ebb37a36f41779e35c2f52715418232eaee9a4337418aa7e39e4d886f419295bab9178ca64198b4f0e1951fcc419f59734aae256f41a300284f5269f541a604eab1bad78641a8686c7209bdbd41a9e3743d9959e441aa476feb48813d41a9879e23fbf87441a7bba7da6b34fb41a51af34204230541a1f1ef1f6c76ca419d284265eec44a41969cce2c01d7574190b8e1196abea841878d02410772fe417f87a447ff7262417405bfa8175fa04168106219b25064415b48ef3b6f41d7414d13e6fe318404413cfdd8a48ceadc412ae2bcb0fb4e2041170445402176a8410202787e37923440e9684d63ac23f740cfab800000000040b0e40000000000408d146b91b983d94061800000000000,
  0x40418000000000004023cc8a99af54523ff00000000000004028000000000000405491248a282eec4079fe2751ad79b6409ab1ae692644cd40b76c87ef6e300740d21a20dea06aaf40e9238dc74cb7ae40ffd06087a1dac34112897f403fdb5341240d0a37715a4c413441cbcb6a3229414335c79c727fee41512b575fea2d2b415d057b99ad7c6a416741e56292e9254171b6a85237dd4f4179b14bab3422a94181c5426989059f418779c37089893e418da5eddb7fbfc24191e9f8bcf5cc3f4194ba5a851416804196fa00075ecaa24198686c7209bdbd4198da5b1c6a41d1419841f127f428874196b1701ffc6b11419457b47212bfb34191776836a251f2418cb64b657a57ab418692c80cd9e24a4180f59aa1016181417852bbc7e1155241709fc55b14512b41659ed70ccc6bb1415ab254e01f2a2a414f37d93617c23d41413b899ecd01294131e4dceb3229db4121651b95ee2684410f79d6a9bc108940fa4e0600263e7640e41a92692c2c2240cbb79a3e30273c40b0e400000000004091a00000000000406db2cfe686fe7c4041800000000000,
  0x401c48c6001f0abf3ff00000000000004023cc8a99af5452404db2cfe686fe7c4070f7856a3bc8a44090150c2806d8cc40aa6cffd467fd2240c352e2bc61b0ef40d999a5b0c9f1e340ef1b977076785841017f2dca11787e411259cd6bc5328b41220b800f6463644130b6104155af78413d41c652b292f0414847f3879ccc3b41532735603cc001415cc7920976b4fa4164a145d7ce44a9416c42a7f1d04b4441728490b960196d41773d5cbdc12947417bf3da933e089d41801f29f5ba4a634181d7d8632b77754182f4670c0b75b04183547fc0c46c144182ecee7981a53d4181c9b9a384911e41800be49b66e5a5417bc6d91610262441770df4cc0180c541725676f8b7597a416beee090b6faf3416459a8b6408c01415c53f1738c439b4152cedaec0515514147c80370ab2af1413c92356db44809413043f613e326fb41217f2dca11787e4111b6d2ae43764e4100ccd4bc0486bd40edad00c5df2b2640d8393fd809fd5f40c217adad07b3e540a863cfc8b5f06d408d146b91b983d9406db2cfe686fe7c4048800000000000401c48c6001f0abf,
  0x3ff0000000000000401c48c6001f0abf40418000000000004061800000000000407dfe55497a99c34096be626777ca7f40af24a0d001faef40c3851bf231280640d6a0a91648855a40e870c9d718cf0640f8be83f7b6c697410797b93a7fd153411544221bc5cc6041222deb67c85466412d8dd0a1eb3af84136e4747fe2e6e44140eddd6efa88934147f102b84bf0014150355c1c61f7af415508eb9ca27335415a302bf9d7669a415f4d04960cb6fe4161f7f50126a2c34163d362354cbd9e41650741dc572960416571dde4bedf4241650741dc5729604163d362354cbd9e4161f7f50126a2c3415f4d04960cb6fe415a302bf9d7669a415508eb9ca273354150355c1c61f7af4147f102b84bf0014140eddd6efa88934136e4747fe2e6e4412d8dd0a1eb3af841222deb67c85466411544221bc5cc60410797b93a7fd15340f8be83f7b6c69740e870c9d718cf0640d6a0a91648855a40c3851bf231280640af24a0d001faef4096be626777ca7f407dfe55497a99c340618000000000004041800000000000401c48c6001f0abf3ff0000000000000]

/-- The coefficients for `2 ell = 51`: one number for each of the 52 values of `mp`, consisting of the doubles for the 52 values of `m`. -/
def wigner51 : List Nat := [
  0x3ff0000000000000401c90d29d2d43cd4041da83a23c4a60406209e0d8506b3f407f3e665be982284097f2a84a881a8d40b093c162b4763040c503f12149ba6440d8a48a84910fb940eaeea5227cd0f540fb98e8aa15a895410aa3cede16425d4118519ac2d4cc8c41250f881c486a5e4131594c5f416819413b3f56351a64eb41446f80a7d3cbb0414d52796da40eaa41542654c243aaa3415a8e20f3c3bfa84160cb839d1dd700416467d93ba1d1ad4167d424115b1039416ac1c0e9269dfd416ce69456576c22416e08d44ceefa17416e08d44ceefa17416ce69456576c22416ac1c0e9269dfd4167d424115b1039416467d93ba1d1ad4160cb839d1dd700415a8e20f3c3bfa841542654c243aaa3414d52796da40eaa41446f80a7d3cbb0413b3f56351a64eb4131594c5f41681941250f881c486a5e4118519ac2d4cc8c410aa3cede16425d40fb98e8aa15a89540eaeea5227cd0f540d8a48a84910fb940c503f12149ba6440b093c162b476304097f2a84a881a8d407f3e665be98228406209e0d8506b3f4041da83a23c4a60401c90d29d2d43cd3ff0000000000000,
  0x401c90d29d2d43cd4049000000000000406ea00000000000408e4f966e2093da40a9b4000000000040c3482aa1a1921240da1d40805be62540f02f625006e0d941028c207bab7af84113cc93f37f74af4123ce16123250224132a6d21a4028a5414099d33cbb5eea414c042bf577c892415678a1c93c3d5441612b575fea2d2b416909df6be02c894171733eea6a9da64177471078987bca417dbf6d6a54851f418239e7f58d7dc041856e2369b7e17b418830e1b75059f4418a3a19f80a518d418b510e6b44b1c7418b563c04d7b5ca418a4912536cf3b84188480cd1209e0641858b279e0879d841825a0c5619a558417e0097fa67d54641778486241168744171a9a8f7222f0a416964cc2677ccdd4161733eea6a9da64156e4747fe2e6e4414c9d919fdba09d41410157d68e739941332b467f87da1341246e8dd497d7474114844d8346931c4103526cf288802140f0f87ed0b6640440db9afac3f945e840c49965da374cb740abdaef77d97e054090c45197ade3314071800000000000404e4f966e2093da40240000000000003ff0000000000000401c90d29d2d43cd,
  0x4041da83a23c4a60406ea00000000000409260000000000040b1cec1fa4cbd4340cd8effffffffff40e5b12ff5d5c45440fcb9c6f39849f541116623493a981c4123798881da745141344b4ad995d79a4143ce161232502241522f733ffe8e08415f8aaaf36401234169ea42430eccbb4174395e684fd0cc417e0bd8e7d9cf0b418548644ee4f2a8418ccaf49c631db841929f406079fca241970df4cc0180c5419b56dbf0543ca1419f12e68c7dd3c041a0ef0466b83ef741a1b404baa090a541a1c17c9286405b41a115e58306d19e419f8ae2ca82be10419bec7523b24f544197b2ab943c8607419344f35a67ba69418e0097fa67d5464186577f6f1089a2417fcafcf00a54ad417595ad871907bc416beb97dd7762a341612b575fea2d2b415407e5efe68a0741461b5896ec6314413700baff6fd27d4126799c0373d3354114844d8346931c410163c873e1401e40eb27314df0a00640d352e2bc61b0ef40b8b813d2a8c275409bdaef77d97e05407ad3b5bf7c9eb54054ffffffffffff40283fab8b4d43153ff000000000000040240000000000004041da83a23c4a60,
  0x406209e0d8506b3f408e4f966e2093da40b1cec1fa4cbd4340d0e4000000000040eb6d4d0bcac3804103ae35fd7992de41197830ae3f6a33412e22cb0469ee57414076cc685893064150bd0143861373415fda62ed00bfa3416c7f86b1b7d7274178106219b2506441833ca8f6e73084418d30e35d8720234195108268ad9364419cf6b34feeaaaa41a2ff91be7a506e41a7ce8ad118181841ac85c6f605328441b0591b74aeef7641b1f0c394f9f7e341b2dadfa398128b41b2fb545fcc950841b24e5155874e4e41b0e908ed1224e941adeb0fcad154fe41a9558b146de29c41a485e3fa2d0e88419fc94216bbb5544197821ac335e3b7419095a04440b323418649fc4de0f6f6417c7c00ee2a57634171456d38cc491e4163d34d8fb26c9a41557a3eb1014afd4145e14cc91a19034134dea327c6fafa4122897f403fdb53410e75a5bad7263840f6f2d47ab8039540df5a8bbbac795940c32025a580983440a4634f6fc5c5824082613276e340e9405a8d45215b8101402bb67ae8584caa3ff000000000000040283fab8b4d4315404e4f966e2093da406209e0d8506b3f,
  0x407f3e665be9822840a9b4000000000040cd8f000000000040eb6d4d0bcac3804105c5e800000000411e896ef1b0bcc341334cd1abaa51b141464add35d312e44157c3899e73b58d41678e4005b27ed34175d6ace8a2e85c41830635e660030f418f42929137aed741984b9e1edddfef41a1e820ec5c00df41a91551a6201dfc41b0b8e1196abea841b54077980003a641b9c58917cd647c41bdd8ececafa8ff41c0847a368839f641c17aa1af06c71c41c1b08b7472c1c741c11fa61916bcac41bfb4f0bc82053541bc11afe98b33cd41b7c0326327047241b33290888a968941ad9f56794ba78941a5caeea63e7458419e89bf4372d483419458d40e4a7d584189bcb460cb691e417ed5d3534854314171733eea6a9da64162999ea7e85b994152999ea7e85b9941415ea108de4dd9412e1f6ec867c46741181494df20ab6f410195f94bf3598640e72fb5efd7002840cb27314df0a00640ab9afac3f945e840878abd8bace9f6405fd5a3f6af6b74402ea8cfb64547ab3ff0000000000000402bb67ae8584caa40550000000000004071800000000000407f3e665be98228,
  0x4097f2a84a881a8d40c3482aa1a1921240e5b12ff5d5c4544103ae35fd7992de411e896ef1b0bcc34134ea82000000004149cf38be7841fa415d157ecdb5bdf9416e3a8066d18cb0417d32085ecd29fe418a5adda9f7c50b4196568e1bb1d2ff41a1d7c3ceff3d9341aaf14b04ecb77a41b34616481da40541ba2e173020abfc41c0e86ef9bfc46841c4cb7445e5134641c86072d546b3cf41cb42257283417541cd178ea349913141cda53656fee10f41ccd93dfecb4a5041cacefc3968650441c7c924efee43f941c4242b023807e241c04498e440f2ac41b90bd11fa74f0441b25b7ba0ac63ce41a996bab9882e5b41a0eec6890f6e3641953c957c663f6641892efed6d1b41e417c291c0c0c9c0c416d98af7f4187ca415d1ebb5504daad414ab1810def1dca4136a952689926814121af587cf9e35c4109222099a9204240f00f782ee0ad8340d2266fd619796940b1b675442871da408ccffb8eb6e94b40626db1c10f73f340309cfdcd8ed0083ff0000000000000402ea8cfb64547ab405a8d45215b8101407ad3b5bf7c9eb54090c45197ade3314097f2a84a881a8d,
  0x40b093c162b4763040da1d40805be62540fcb9c6f39849f541197830ae3f6a3341334cd1abaa51b14149cf38be7841fa415f1229000000004171119eb7f1751041814921088b83284190416d13e85a78419c8e0b7a5d5d7c41a787ca3921f62d41b24219ef46484e41bac246b3f396ba41c28ff447a26ecc41c86cfc64a4ffcd41ce883b7dce3fc041d2264c12dff8b841d48ad502926c9b41d626791ec4e3b741d6c3c5fe1be97741d64e36118434ef41d4d678d9c084b341d28eafb94fcd3541cf7f83df27b2ea41c975a963bfba2441c39595fdf5f1a641bca4f974baa39441b3e3c2e76fc98f41aa2f3a8ef9e23041a04ec3e422d63841932ca8909d1b8b418538e3abf48c574176092fac9b1a56416560c1279a47ef415347f17e90d1b2414011493ece041441288d92e36f125a4111083a199833cd40f52e0b9d065a7d40d7338d987f8fc440b5d9a71440bbe440910f13aad65aed4064cfc8a5c43b104031bf8c9d2ed1a13ff000000000000040309cfdcd8ed008405fd5a3f6af6b744082613276e340e9409bdaef77d97e0540abdaef77d97e0540b093c162b47630,
  0x40c503f12149ba6440f02f625006e0d941116623493a981c412e22cb0469ee5741464add35d312e4415d157ecdb5bdf94171119eb7f17510418245cdc000000041920490584dcbf941a07c74d39a11c641ac27cd2948a6d841b689d5febc77e241c0f95ec9db1d5d41c81f82680858f941d036016678eb2441d4a4bcd6725b7c41d8f1b9831f83e041dca218e5cf687841df4024cc0f565541e0396f3f1c5b4941e00879109ff94941de299d6843855741db00f599dcc61341d700c242ff6e1841d2a2709c01cdcf41ccb0929a22362741c4f7300e2cb16b41bd0cfe530c008641b30d19ab041f7241a79af24a503a5c419b90a421e6278e418e40010725b5b5417f16d3152bfd9d416dcc46ac542ccd415a7fce24b36bca4145ba2d9286494b41304ba22de4b6f84116226e6f6d291040fadec96c30a07440dca3f18b82022f40ba251e3c49dae84093b2aa7c7525774067115d9e3bd1d84032c2fc595456a63ff00000000000004031bf8c9d2ed1a140626db1c10f73f340878abd8bace9f640a4634f6fc5c58240b8b813d2a8c27540c49965da374cb740c503f12149ba64,
  0x40d8a48a84910fb941028c207bab7af84123798881da7451414076cc685893064157c3899e73b58d416e3a8066d18cb041814921088b832841920490584dcbf941a1494f0200000041aec149ac19836941b98302c3face6841c3d24c9b837b2441ccf37d09d0c20e41d3edea0b2fd4a041d9ebe18c06effc41dfe8a57c4db12941e29d0b332d520241e49a63a2ce7fcf41e5a75177016c3241e59e785b45d52f41e482759a72de9741e27cfad028938041dfaa29d4e1d87c41d9bf4f564dacb241d3dd4e55f776c341cd0ddfacac3e2041c41d4c1514c88c41ba52aeb281f2b541b03f34803a041341a2df5a17406da9419491aeed9b1e6d4184f5d6a222143d4173e27b353b0c4641617879293f5213414c3f8f8981a3954134d85f1bebaa1f411bcb297a8f8d7f4100844e28b541f840e12fafd3bfe48b40be87e0c92c926c40964be909763d0f4069329997c571324033ac1cdf9639083ff00000000000004032c2fc595456a64064cfc8a5c43b10408ccffb8eb6e94b40ab9afac3f945e840c32025a580983440d352e2bc61b0ef40db9afac3f945e840d8a48a84910fb9,
  0x40eaeea5227cd0f54113cc93f37f74af41344b4ad995d79a4150bd014386137341678e4005b27ed3417d32085ecd29fe4190416d13e85a7841a07c74d39a11c641aec149ac19836941ba93c4e200000041c565d57e2c2dfb41d01f0edb1936b941d6cf949c8d648c41de6458a4d66c4d41e31b26c65e727d41e6b54c8314f6f141e98bf6137795cf41eb3aeb4680e6c641eb849149bdab2041ea5ffd82a1218341e7fa9ac3ea52b541e4acffd7c60fb841e0e69fc8a3f51d41da2d1a2d4542a141d32f83125ee1e941ca95973575d84d41c161cf2ccd0d6d41b568be5f97d3ec41a8c6ba70fdda2a419adc8f4c879a89418b2f69b1b66e2841799242f11404fa41663ccd3109113a4151c2f8cd169fb34139d8d0e56cf8494120f435491c55194103c7937ff6634840e4267bef06a95a40c178f916d4914d4098d4dac4f9a28b406b3395d523013540347e7054af09893ff00000000000004033ac1cdf9639084067115d9e3bd1d840910f13aad65aed40b1b675442871da40cb27314df0a00640df5a8bbbac795940eb27314df0a00640f0f87ed0b6640440eaeea5227cd0f5,
  0x40fb98e8aa15a8954123ce16123250224143ce1612325022415fda62ed00bfa34175d6ace8a2e85c418a5adda9f7c50b419c8e0b7a5d5d7c41ac27cd2948a6d841b98302c3face6841c565d57e2c2dfb41d0b4a7a400000041d862c62f72104041e0b222a22c1f9041e580cf31cd079841ea1a95c91036d241edead18106f0a841f03486d08e6d0541f09bd343c06c4241f01ce05a7c440c41ed99a870d4629941e9bdbb28e9c11f41e52fb5dd86812f41e07e5a52fc4d4841d844a038f1fa2a41d0d9d496d25a9041c60d57077b0d2d41bb241c57f9e8d541af56fcb83aa40f41a0ece8863d1cc041910a0af9074f5a417fd607a2fa3e2b416b7358c6231f694155b39afd5285e0413f334d6624d9a641242de1878778b1410729da6d03f9c140e729da6d03f9c140c3aa2a3f15d914409b48478caec8c1406d1462c40e65c640353c9c576aef0a3ff000000000000040347e7054af09894069329997c571324093b2aa7c75257740b5d9a71440bbe440d2266fd619796940e72fb5efd7002840f6f2d47ab80395410163c873e1401e4103526cf288802140fb98e8aa15a895,
  0x410aa3cede16425d4132a6d21a4028a541522f733ffe8e08416c7f86b1b7d72741830635e660030f4196568e1bb1d2ff41a787ca3921f62d41b689d5febc77e241c3d24c9b837b2441d01f0edb1936b941d862c62f72104041e139694c00000041e6cc92ed8f1c9141ec59eaf2aa673941f0980dbda9bbd941f25050d441e2d941f313a987c4a1a241f2c50e1f1c750f41f1735afa8c501f41eea9feda3f9db341e97443c23f8de641e3f3d9d974d61541dd83447c50fa8941d491bd8314917f41cafa6e7dc017ad41c09d424241d9d141b32b9b38c222b741a4a90728b99dba4194b8beea7389174183419d240dd76f41707d78159232024159da18c263b40f414264dbbdc8a007412781b7d202005b410a9b0d26a9df3d40ea2d6bd34670f140c5d08485655e1e409da19619da5cd7406ed50b87ba1f4c4035e8add236a58e3ff000000000000040353c9c576aef0a406b3395d523013540964be909763d0f40ba251e3c49dae840d7338d987f8fc440f00f782ee0ad83410195f94bf35986410e75a5bad726384114844d8346931c4114844d8346931c410aa3cede16425d,
  0x4118519ac2d4cc8c414099d33cbb5eea415f8aaaf36401234178106219b25064418f42929137aed741a1d7c3ceff3d9341b24219ef46484e41c0f95ec9db1d5d41ccf37d09d0c20e41d6cf949c8d648c41e0b222a22c1f9041e6cc92ed8f1c9141ed23410f80000041f1783dae490e9a41f3b14d5791dd0941f4e5c8afb2634f41f4e5c8afb2634f41f3b45abcfdb2c841f185ee457f66ac41ed6455972287a241e73c823353b62241e14dab113d69d141d83f4921f8a24841cfebccd208e6a541c3b3be9838216941b6c003b65c597141a88003ff77253e419884a8eaf0849a4186b30ece3f37ec4173561c7c7e309c415e1b5013c2e68841453d523ffb383e412addba54d72cc4410e0ac2831530ae40ed2522092fc11f40c7e58857df939c409fdcb5ca7f6f7b40703acbf78a957840368443dcc7be4a3ff00000000000004035e8add236a58e406d1462c40e65c64098d4dac4f9a28b40be87e0c92c926c40dca3f18b82022f40f52e0b9d065a7d4109222099a9204241181494df20ab6f4122897f403fdb534126799c0373d33541246e8dd497d7474118519ac2d4cc8c,
  0x41250f881c486a5e414c042bf577c8924169ea42430eccbb41833ca8f6e7308441984b9e1edddfef41aaf14b04ecb77a41bac246b3f396ba41c81f82680858f941d3edea0b2fd4a041de6458a4d66c4d41e580cf31cd079841ec59eaf2aa673941f1783dae490e9a41f42c195980000041f5dd4d5bcac89f41f64636c1c3152041f5589f245af43f41f3409bb3b850e041f057c5503d2dc941ea1b5930412f1341e39b77e1b4fc3841dbaa399ae697d841d24e7a9f6e5ed241c6aec2146ccb6041ba40044891f10c41ac4a4cc0509900419c4a4cc0509900418a222665d46bfe41762db813f8995841612cd7dba4ea7841481149bb3cd337412e2f5b7914b7d74110b44f038360a740f002b4200616d840c9e33600f058e640a0fb06cd4a13c84070fb06cd4a13c8403710ac0b5e5e313ff000000000000040368443dcc7be4a406ed50b87ba1f4c409b48478caec8c140c178f916d4914d40e12fafd3bfe48b40fadec96c30a0744111083a199833cd4121af587cf9e35c412e1f6ec867c4674134dea327c6fafa413700baff6fd27d41332b467f87da1341250f881c486a5e,
  0x4131594c5f416819415678a1c93c3d544174395e684fd0cc418d30e35d87202341a1e820ec5c00df41b34616481da40541c28ff447a26ecc41d036016678eb2441d9ebe18c06effc41e31b26c65e727d41ea1a95c91036d241f0980dbda9bbd941f3b14d5791dd0941f5dd4d5bcac89f41f6c02bfd00000041f6361d0de58fd641f45c454cbd192f41f18753dc611ea541ec5794235fcd5641e5817028a0dd4d41de9a6033b9860941d463e8612fda6841c965e88354e4c441bd80a594096a9241afddca78c977b6419fe3d4dbb0ed84418d6fd82d40db3f4178ed34908b635441633b34f09dd77b414ace957581e7184130b202ebb578e041125253f79b475640f161a2c5f4a1ba40cbc40db435aac740a1f5376fc444a14071ab3857f1c6d540378ef5ca97b3c73ff0000000000000403710ac0b5e5e3140703acbf78a9578409da19619da5cd740c3aa2a3f15d91440e4267bef06a95a4100844e28b541f84116226e6f6d291041288d92e36f125a4136a9526899268141415ea108de4dd94145e14cc91a190341461b5896ec631441410157d68e73994131594c5f416819,
  0x413b3f56351a64eb41612b575fea2d2b417e0bd8e7d9cf0b4195108268ad936441a91551a6201dfc41ba2e173020abfc41c86cfc64a4ffcd41d4a4bcd6725b7c41dfe8a57c4db12941e6b54c8314f6f141edead18106f0a841f25050d441e2d941f4e5c8afb2634f41f64636c1c3152041f6361d0de58fd641f4bdf73600000041f226384f40000041edc30ed34589b141e6dba93c8d358041e06e789371cdbb41d6155cc8e057dc41cbb253e9f2703141c02bdc09b027bf41b18849bbfd283341a195a04f057ddd41903e6c95ed64d8417b7d554c7e0d1f416529577489e40d414d6339c3a37695413234ceaf54a35e4113d7ce9b2c8de440f2aa3d7415d89740cd830f9643617c40a2db856701bebb40724b622600bc1940380000000000003ff000000000000040378ef5ca97b3c74070fb06cd4a13c8409fdcb5ca7f6f7b40c5d08485655e1e40e729da6d03f9c14103c7937ff66348411bcb297a8f8d7f41304ba22de4b6f8414011493ece0414414ab1810def1dca4152999ea7e85b9941557a3eb1014afd415407e5efe68a07414c9d919fdba09d413b3f56351a64eb,
  0x41446f80a7d3cbb0416909df6be02c89418548644ee4f2a8419cf6b34feeaaaa41b0b8e1196abea841c0e86ef9bfc46841ce883b7dce3fc041d8f1b9831f83e041e29d0b332d520241e98bf6137795cf41f03486d08e6d0541f313a987c4a1a241f4e5c8afb2634f41f5589f245af43f41f45c454cbd192f41f226384f40000041ee3fb32ec0000041e78fc111ec625741e124beed69e82041d7472ad0e138ca41cd71d10bd5ca7a41c14f747237861f41b2ddd60b4d83b441a2fe4fe0fceb8d419195a04f057ddd417dc7c712dde38c4166e871bfbe6044414fbe032eced6134133977bd7c24f0e41153d9bcc8d694340f3d7ce9b2c8de440cf1bbbc179be5140a3acb50ed796524072db856701bebb40386482dd5650213ff000000000000040380000000000004071ab3857f1c6d540a0fb06cd4a13c840c7e58857df939c40ea2d6bd34670f1410729da6d03f9c14120f435491c55194134d85f1bebaa1f4145ba2d9286494b415347f17e90d1b2415d1ebb5504daad4162999ea7e85b994163d34d8fb26c9a41612b575fea2d2b4156e4747fe2e6e441446f80a7d3cbb0,
  0x414d52796da40eaa4171733eea6a9da6418ccaf49c631db841a2ff91be7a506e41b54077980003a641c4cb7445e5134641d2264c12dff8b841dca218e5cf687841e49a63a2ce7fcf41eb3aeb4680e6c641f09bd343c06c4241f2c50e1f1c750f41f3b45abcfdb2c841f3409bb3b850e041f18753dc611ea541edc30ed34589b141e78fc111ec625741e163002980000041d7e550b43c5b1b41ce89aa4d97b13d41c21b4e26dfc45641b3ded0728f25f241a41c1a76f4893a4192b00c71dc1b34417fb8245a1bfd8c41686ae362c83b344150e789ba8a9f244134d224fd72358741167d36cc69975440f4e615d297df3740d04509248fb77e40a467b32899458840735ba304b4da7b4038bd171a07e38a3ff000000000000040386482dd56502140724b622600bc1940a1f5376fc444a140c9e33600f058e640ed2522092fc11f410a9b0d26a9df3d41242de1878778b14139d8d0e56cf849414c3f8f8981a395415a7fce24b36bca416560c1279a47ef416d98af7f4187ca4171733eea6a9da64171456d38cc491e416beb97dd7762a34161733eea6a9da6414d52796da40eaa,
  0x41542654c243aaa34177471078987bca41929f406079fca241a7ce8ad118181841b9c58917cd647c41c86072d546b3cf41d48ad502926c9b41df4024cc0f565541e5a75177016c3241eb849149bdab2041f01ce05a7c440c41f1735afa8c501f41f185ee457f66ac41f057c5503d2dc941ec5794235fcd5641e6dba93c8d358041e124beed69e82041d7e550b43c5b1b41cee8e3d800000041c28427e3a2b21641b47e641ee23e2d41a4e22de354f86e41938264d56f6d9f41809e71047e4bd64169a4bee75cd33f4151c430729c256f4135ddc5795db7eb411790d53eb1338f40f5d1516afc735040d0e5499db5708f40a50b922545462d4073cbbbb4605f4a40390a3b58a0599b3ff00000000000004038bd171a07e38a4072db856701bebb40a2db856701bebb40cbc40db435aac740f002b4200616d8410e0ac2831530ae412781b7d202005b413f334d6624d9a64151c2f8cd169fb341617879293f5213416dcc46ac542ccd4176092fac9b1a56417c291c0c0c9c0c417ed5d353485431417c7c00ee2a5763417595ad871907bc416964cc2677ccdd41542654c243aaa3,
  0x415a8e20f3c3bfa8417dbf6d6a54851f41970df4cc0180c541ac85c6f605328441bdd8ececafa8ff41cb42257283417541d626791ec4e3b741e0396f3f1c5b4941e59e785b45d52f41ea5ffd82a1218341ed99a870d4629941eea9feda3f9db341ed6455972287a241ea1b5930412f1341e5817028a0dd4d41e06e789371cdbb41d7472ad0e138ca41ce89aa4d97b13d41c28427e3a2b21641b4b4802000000041a54789a2e1054441940423d755562b4181240d24b8260a416a8c3db610011b41526f128ae24f714136b463ccbb498b4118737f2b3fd90c40f6964681bd56c040d16d1f516f97b340a59787f5ce227940742bd002f3235f40394c583ada5b523ff000000000000040390a3b58a0599b40735ba304b4da7b40a3acb50ed7965240cd830f9643617c40f161a2c5f4a1ba4110b44f038360a7412addba54d72cc4414264dbbdc8a0074155b39afd5285e041663ccd3109113a4173e27b353b0c46417f16d3152bfd9d418538e3abf48c5741892efed6d1b41e4189bcb460cb691e418649fc4de0f6f6417fcafcf00a54ad4171a9a8f7222f0a415a8e20f3c3bfa8,
  0x4160cb839d1dd700418239e7f58d7dc0419b56dbf0543ca141b0591b74aeef7641c0847a368839f641cd178ea349913141d6c3c5fe1be97741e00879109ff94941e482759a72de9741e7fa9ac3ea52b541e9bdbb28e9c11f41e97443c23f8de641e73c823353b62241e39b77e1b4fc3841de9a6033b9860941d6155cc8e057dc41cd71d10bd5ca7a41c21b4e26dfc45641b47e641ee23e2d41a54789a2e1054441942ffcec0000004181681652e79c18416b1a1e4d230cc64152e39c3bc28d7f41375134f96e009b41192122fe520bcf40f73247afae324940d1db4a439c723e40a60aec49d2423940747be05da27295403983c37ca9aa043ff000000000000040394c583ada5b524073cbbbb4605f4a40a467b32899458840cf1bbbc179be5140f2aa3d7415d89741125253f79b4756412e2f5b7914b7d741453d523ffb383e4159da18c263b40f416b7358c6231f6941799242f11404fa4184f5d6a222143d418e40010725b5b541932ca8909d1b8b41953c957c663f66419458d40e4a7d58419095a04440b3234186577f6f1089a241778486241168744160cb839d1dd700,
  0x416467d93ba1d1ad41856e2369b7e17b419f12e68c7dd3c041b1f0c394f9f7e341c17aa1af06c71c41cda53656fee10f41d64e36118434ef41de299d6843855741e27cfad028938041e4acffd7c60fb841e52fb5dd86812f41e3f3d9d974d61541e14dab113d69d141dbaa399ae697d841d463e8612fda6841cbb253e9f2703141c14f747237861f41b3ded0728f25f241a4e22de354f86e41940423d755562b4181681652e79c18416b49e9c000000041531eac61aa83204137b0b86603a7e5411996a588d6edd240f7a33a678a26e940d22eca7707cf2940a665372b2ec3044074bbed1814b4344039b0c25315c2cd3ff0000000000000403983c37ca9aa0440742bd002f3235f40a50b922545462d40d04509248fb77e40f3d7ce9b2c8de44113d7ce9b2c8de44130b202ebb578e041481149bb3cd337415e1b5013c2e68841707d7815923202417fd607a2fa3e2b418b2f69b1b66e28419491aeed9b1e6d419b90a421e6278e41a04ec3e422d63841a0eec6890f6e36419e89bf4372d4834197821ac335e3b7418e0097fa67d546417e0097fa67d546416467d93ba1d1ad,
  0x4167d424115b1039418830e1b75059f441a0ef0466b83ef741b2dadfa398128b41c1b08b7472c1c741ccd93dfecb4a5041d4d678d9c084b341db00f599dcc61341dfaa29d4e1d87c41e0e69fc8a3f51d41e07e5a52fc4d4841dd83447c50fa8941d83f4921f8a24841d24e7a9f6e5ed241c965e88354e4c441c02bdc09b027bf41b2ddd60b4d83b441a41c1a76f4893a41938264d56f6d9f4181240d24b8260a416b1a1e4d230cc641531eac61aa83204137d0cc000000004119d1ee00a73c0540f7e79b13dfadf340d266dfeda1dd8640a6a5ffe964c1e04074ebf670cac4e04039d38b395ad1b23ff00000000000004039b0c25315c2cd40747be05da2729540a59787f5ce227940d0e5499db5708f40f4e615d297df3741153d9bcc8d6943413234ceaf54a35e414ace957581e71841612cd7dba4ea784173561c7c7e309c4183419d240dd76f41910a0af9074f5a419adc8f4c879a8941a2df5a17406da941a79af24a503a5c41aa2f3a8ef9e23041a996bab9882e5b41a5caeea63e7458419fc94216bbb554419344f35a67ba6941825a0c5619a5584167d424115b1039,
  0x416ac1c0e9269dfd418a3a19f80a518d41a1b404baa090a541b2fb545fcc950841c11fa61916bcac41cacefc3968650441d28eafb94fcd3541d700c242ff6e1841d9bf4f564dacb241da2d1a2d4542a141d844a038f1fa2a41d491bd8314917f41cfebccd208e6a541c6aec2146ccb6041bd80a594096a9241b18849bbfd283341a2fe4fe0fceb8d4192b00c71dc1b3441809e71047e4bd6416a8c3db610011b4152e39c3bc28d7f4137b0b86603a7e54119d1ee00a73c0540f7fe800000000040d2830aa8a3500140a6ccfc4b42683440750bfc943d4c7f4039ec474a2612633ff00000000000004039d38b395ad1b24074bbed1814b43440a60aec49d2423940d16d1f516f97b340f5d1516afc735041167d36cc6997544133977bd7c24f0e414d6339c3a3769541633b34f09dd77b41762db813f899584186b30ece3f37ec4194b8beea73891741a0ece8863d1cc041a8c6ba70fdda2a41b03f34803a041341b30d19ab041f7241b3e3c2e76fc98f41b25b7ba0ac63ce41ad9f56794ba78941a485e3fa2d0e884197b2ab943c860741858b279e0879d8416ac1c0e9269dfd,
  0x416ce69456576c22418b510e6b44b1c741a1c17c9286405b41b24e5155874e4e41bfb4f0bc82053541c7c924efee43f941cf7f83df27b2ea41d2a2709c01cdcf41d3dd4e55f776c341d32f83125ee1e941d0d9d496d25a9041cafa6e7dc017ad41c3b3be9838216941ba40044891f10c41afddca78c977b641a195a04f057ddd419195a04f057ddd417fb8245a1bfd8c4169a4bee75cd33f41526f128ae24f7141375134f96e009b411996a588d6edd240f7e79b13dfadf340d2830aa8a3500140a6da000000000040751bff9efb42654039fb1339d2c7df3ff00000000000004039ec474a2612634074ebf670cac4e040a665372b2ec30440d1db4a439c723e40f6964681bd56c0411790d53eb1338f4134d224fd723587414fbe032eced613416529577489e40d4178ed34908b6354418a222665d46bfe419884a8eaf0849a41a4a90728b99dba41af56fcb83aa40f41b568be5f97d3ec41ba52aeb281f2b541bd0cfe530c008641bca4f974baa39441b90bd11fa74f0441b33290888a968941a9558b146de29c419bec7523b24f544188480cd1209e06416ce69456576c22,
  0x416e08d44ceefa17418b563c04d7b5ca41a115e58306d19e41b0e908ed1224e941bc11afe98b33cd41c4242b023807e241c975a963bfba2441ccb0929a22362741cd0ddfacac3e2041ca95973575d84d41c60d57077b0d2d41c09d424241d9d141b6c003b65c597141ac4a4cc0509900419fe3d4dbb0ed8441903e6c95ed64d8417dc7c712dde38c41686ae362c83b344151c430729c256f4136b463ccbb498b41192122fe520bcf40f7a33a678a26e940d266dfeda1dd8640a6ccfc4b42683440751bff9efb4265403a0000000000003ff00000000000004039fb1339d2c7df40750bfc943d4c7f40a6a5ffe964c1e040d22eca7707cf2940f73247afae32494118737f2b3fd90c4135ddc5795db7eb4150e789ba8a9f244166e871bfbe6044417b7d554c7e0d1f418d6fd82d40db3f419c4a4cc050990041a88003ff77253e41b32b9b38c222b741bb241c57f9e8d541c161cf2ccd0d6d41c41d4c1514c88c41c4f7300e2cb16b41c39595fdf5f1a641c04498e440f2ac41b7c0326327047241adeb0fcad154fe419f8ae2ca82be10418a4912536cf3b8416e08d44ceefa17,
  0x416e08d44ceefa17418a4912536cf3b8419f8ae2ca82be1041adeb0fcad154fe41b7c0326327047241c04498e440f2ac41c39595fdf5f1a641c4f7300e2cb16b41c41d4c1514c88c41c161cf2ccd0d6d41bb241c57f9e8d541b32b9b38c222b741a88003ff77253e419c4a4cc0509900418d6fd82d40db3f417b7d554c7e0d1f4166e871bfbe60444150e789ba8a9f244135ddc5795db7eb4118737f2b3fd90c40f73247afae324940d22eca7707cf2940a6a5ffe964c1e040750bfc943d4c7f4039fb1339d2c7df3ff0000000000000403a00000000000040751bff9efb426540a6ccfc4b42683440d266dfeda1dd8640f7a33a678a26e941192122fe520bcf4136b463ccbb498b4151c430729c256f41686ae362c83b34417dc7c712dde38c41903e6c95ed64d8419fe3d4dbb0ed8441ac4a4cc050990041b6c003b65c597141c09d424241d9d141c60d57077b0d2d41ca95973575d84d41cd0ddfacac3e2041ccb0929a22362741c975a963bfba2441c4242b023807e241bc11afe98b33cd41b0e908ed1224e941a115e58306d19e418b563c04d7b5ca416e08d44ceefa17,
  0x416ce69456576c224188480cd1209e06419bec7523b24f5441a9558b146de29c41b33290888a968941b90bd11fa74f0441bca4f974baa39441bd0cfe530c008641ba52aeb281f2b541b568be5f97d3ec41af56fcb83aa40f41a4a90728b99dba419884a8eaf0849a418a222665d46bfe4178ed34908b6354416529577489e40d414fbe032eced6134134d224fd723587411790d53eb1338f40f6964681bd56c040d1db4a439c723e40a665372b2ec3044074ebf670cac4e04039ec474a2612633ff00000000000004039fb1339d2c7df40751bff9efb426540a6da000000000040d2830aa8a3500140f7e79b13dfadf3411996a588d6edd241375134f96e009b41526f128ae24f714169a4bee75cd33f417fb8245a1bfd8c419195a04f057ddd41a195a04f057ddd41afddca78c977b641ba40044891f10c41c3b3be9838216941cafa6e7dc017ad41d0d9d496d25a9041d32f83125ee1e941d3dd4e55f776c341d2a2709c01cdcf41cf7f83df27b2ea41c7c924efee43f941bfb4f0bc82053541b24e5155874e4e41a1c17c9286405b418b510e6b44b1c7416ce69456576c22,
  0x416ac1c0e9269dfd41858b279e0879d84197b2ab943c860741a485e3fa2d0e8841ad9f56794ba78941b25b7ba0ac63ce41b3e3c2e76fc98f41b30d19ab041f7241b03f34803a041341a8c6ba70fdda2a41a0ece8863d1cc04194b8beea7389174186b30ece3f37ec41762db813f8995841633b34f09dd77b414d6339c3a376954133977bd7c24f0e41167d36cc69975440f5d1516afc735040d16d1f516f97b340a60aec49d242394074bbed1814b4344039d38b395ad1b23ff00000000000004039ec474a26126340750bfc943d4c7f40a6ccfc4b42683440d2830aa8a3500140f7fe80000000004119d1ee00a73c054137b0b86603a7e54152e39c3bc28d7f416a8c3db610011b41809e71047e4bd64192b00c71dc1b3441a2fe4fe0fceb8d41b18849bbfd283341bd80a594096a9241c6aec2146ccb6041cfebccd208e6a541d491bd8314917f41d844a038f1fa2a41da2d1a2d4542a141d9bf4f564dacb241d700c242ff6e1841d28eafb94fcd3541cacefc3968650441c11fa61916bcac41b2fb545fcc950841a1b404baa090a5418a3a19f80a518d416ac1c0e9269dfd,
  0x4167d424115b103941825a0c5619a558419344f35a67ba69419fc94216bbb55441a5caeea63e745841a996bab9882e5b41aa2f3a8ef9e23041a79af24a503a5c41a2df5a17406da9419adc8f4c879a8941910a0af9074f5a4183419d240dd76f4173561c7c7e309c41612cd7dba4ea78414ace957581e718413234ceaf54a35e41153d9bcc8d694340f4e615d297df3740d0e5499db5708f40a59787f5ce227940747be05da272954039b0c25315c2cd3ff00000000000004039d38b395ad1b24074ebf670cac4e040a6a5ffe964c1e040d266dfeda1dd8640f7e79b13dfadf34119d1ee00a73c054137d0cc0000000041531eac61aa8320416b1a1e4d230cc64181240d24b8260a41938264d56f6d9f41a41c1a76f4893a41b2ddd60b4d83b441c02bdc09b027bf41c965e88354e4c441d24e7a9f6e5ed241d83f4921f8a24841dd83447c50fa8941e07e5a52fc4d4841e0e69fc8a3f51d41dfaa29d4e1d87c41db00f599dcc61341d4d678d9c084b341ccd93dfecb4a5041c1b08b7472c1c741b2dadfa398128b41a0ef0466b83ef7418830e1b75059f44167d424115b1039,
  0x416467d93ba1d1ad417e0097fa67d546418e0097fa67d5464197821ac335e3b7419e89bf4372d48341a0eec6890f6e3641a04ec3e422d638419b90a421e6278e419491aeed9b1e6d418b2f69b1b66e28417fd607a2fa3e2b41707d7815923202415e1b5013c2e68841481149bb3cd3374130b202ebb578e04113d7ce9b2c8de440f3d7ce9b2c8de440d04509248fb77e40a50b922545462d40742bd002f3235f403983c37ca9aa043ff00000000000004039b0c25315c2cd4074bbed1814b43440a665372b2ec30440d22eca7707cf2940f7a33a678a26e9411996a588d6edd24137b0b86603a7e541531eac61aa8320416b49e9c00000004181681652e79c1841940423d755562b41a4e22de354f86e41b3ded0728f25f241c14f747237861f41cbb253e9f2703141d463e8612fda6841dbaa399ae697d841e14dab113d69d141e3f3d9d974d61541e52fb5dd86812f41e4acffd7c60fb841e27cfad028938041de299d6843855741d64e36118434ef41cda53656fee10f41c17aa1af06c71c41b1f0c394f9f7e3419f12e68c7dd3c041856e2369b7e17b416467d93ba1d1ad,
  0x4160cb839d1dd70041778486241168744186577f6f1089a2419095a04440b323419458d40e4a7d5841953c957c663f6641932ca8909d1b8b418e40010725b5b54184f5d6a222143d41799242f11404fa416b7358c6231f694159da18c263b40f41453d523ffb383e412e2f5b7914b7d741125253f79b475640f2aa3d7415d89740cf1bbbc179be5140a467b3289945884073cbbbb4605f4a40394c583ada5b523ff0000000000000403983c37ca9aa0440747be05da2729540a60aec49d2423940d1db4a439c723e40f73247afae324941192122fe520bcf41375134f96e009b4152e39c3bc28d7f416b1a1e4d230cc64181681652e79c1841942ffcec00000041a54789a2e1054441b47e641ee23e2d41c21b4e26dfc45641cd71d10bd5ca7a41d6155cc8e057dc41de9a6033b9860941e39b77e1b4fc3841e73c823353b62241e97443c23f8de641e9bdbb28e9c11f41e7fa9ac3ea52b541e482759a72de9741e00879109ff94941d6c3c5fe1be97741cd178ea349913141c0847a368839f641b0591b74aeef76419b56dbf0543ca1418239e7f58d7dc04160cb839d1dd700,
  0x415a8e20f3c3bfa84171a9a8f7222f0a417fcafcf00a54ad418649fc4de0f6f64189bcb460cb691e41892efed6d1b41e418538e3abf48c57417f16d3152bfd9d4173e27b353b0c4641663ccd3109113a4155b39afd5285e0414264dbbdc8a007412addba54d72cc44110b44f038360a740f161a2c5f4a1ba40cd830f9643617c40a3acb50ed7965240735ba304b4da7b40390a3b58a0599b3ff000000000000040394c583ada5b5240742bd002f3235f40a59787f5ce227940d16d1f516f97b340f6964681bd56c04118737f2b3fd90c4136b463ccbb498b41526f128ae24f71416a8c3db610011b4181240d24b8260a41940423d755562b41a54789a2e1054441b4b4802000000041c28427e3a2b21641ce89aa4d97b13d41d7472ad0e138ca41e06e789371cdbb41e5817028a0dd4d41ea1b5930412f1341ed6455972287a241eea9feda3f9db341ed99a870d4629941ea5ffd82a1218341e59e785b45d52f41e0396f3f1c5b4941d626791ec4e3b741cb42257283417541bdd8ececafa8ff41ac85c6f605328441970df4cc0180c5417dbf6d6a54851f415a8e20f3c3bfa8,
  0x41542654c243aaa3416964cc2677ccdd417595ad871907bc417c7c00ee2a5763417ed5d353485431417c291c0c0c9c0c4176092fac9b1a56416dcc46ac542ccd41617879293f52134151c2f8cd169fb3413f334d6624d9a6412781b7d202005b410e0ac2831530ae40f002b4200616d840cbc40db435aac740a2db856701bebb4072db856701bebb4038bd171a07e38a3ff000000000000040390a3b58a0599b4073cbbbb4605f4a40a50b922545462d40d0e5499db5708f40f5d1516afc7350411790d53eb1338f4135ddc5795db7eb4151c430729c256f4169a4bee75cd33f41809e71047e4bd641938264d56f6d9f41a4e22de354f86e41b47e641ee23e2d41c28427e3a2b21641cee8e3d800000041d7e550b43c5b1b41e124beed69e82041e6dba93c8d358041ec5794235fcd5641f057c5503d2dc941f185ee457f66ac41f1735afa8c501f41f01ce05a7c440c41eb849149bdab2041e5a75177016c3241df4024cc0f565541d48ad502926c9b41c86072d546b3cf41b9c58917cd647c41a7ce8ad118181841929f406079fca24177471078987bca41542654c243aaa3,
  0x414d52796da40eaa4161733eea6a9da6416beb97dd7762a34171456d38cc491e4171733eea6a9da6416d98af7f4187ca416560c1279a47ef415a7fce24b36bca414c3f8f8981a3954139d8d0e56cf84941242de1878778b1410a9b0d26a9df3d40ed2522092fc11f40c9e33600f058e640a1f5376fc444a140724b622600bc1940386482dd5650213ff00000000000004038bd171a07e38a40735ba304b4da7b40a467b32899458840d04509248fb77e40f4e615d297df3741167d36cc6997544134d224fd7235874150e789ba8a9f2441686ae362c83b34417fb8245a1bfd8c4192b00c71dc1b3441a41c1a76f4893a41b3ded0728f25f241c21b4e26dfc45641ce89aa4d97b13d41d7e550b43c5b1b41e163002980000041e78fc111ec625741edc30ed34589b141f18753dc611ea541f3409bb3b850e041f3b45abcfdb2c841f2c50e1f1c750f41f09bd343c06c4241eb3aeb4680e6c641e49a63a2ce7fcf41dca218e5cf687841d2264c12dff8b841c4cb7445e5134641b54077980003a641a2ff91be7a506e418ccaf49c631db84171733eea6a9da6414d52796da40eaa,
  0x41446f80a7d3cbb04156e4747fe2e6e441612b575fea2d2b4163d34d8fb26c9a4162999ea7e85b99415d1ebb5504daad415347f17e90d1b24145ba2d9286494b4134d85f1bebaa1f4120f435491c5519410729da6d03f9c140ea2d6bd34670f140c7e58857df939c40a0fb06cd4a13c84071ab3857f1c6d540380000000000003ff000000000000040386482dd5650214072db856701bebb40a3acb50ed7965240cf1bbbc179be5140f3d7ce9b2c8de441153d9bcc8d69434133977bd7c24f0e414fbe032eced6134166e871bfbe6044417dc7c712dde38c419195a04f057ddd41a2fe4fe0fceb8d41b2ddd60b4d83b441c14f747237861f41cd71d10bd5ca7a41d7472ad0e138ca41e124beed69e82041e78fc111ec625741ee3fb32ec0000041f226384f40000041f45c454cbd192f41f5589f245af43f41f4e5c8afb2634f41f313a987c4a1a241f03486d08e6d0541e98bf6137795cf41e29d0b332d520241d8f1b9831f83e041ce883b7dce3fc041c0e86ef9bfc46841b0b8e1196abea8419cf6b34feeaaaa418548644ee4f2a8416909df6be02c8941446f80a7d3cbb0,
  0x413b3f56351a64eb414c9d919fdba09d415407e5efe68a0741557a3eb1014afd4152999ea7e85b99414ab1810def1dca414011493ece041441304ba22de4b6f8411bcb297a8f8d7f4103c7937ff6634840e729da6d03f9c140c5d08485655e1e409fdcb5ca7f6f7b4070fb06cd4a13c840378ef5ca97b3c73ff0000000000000403800000000000040724b622600bc1940a2db856701bebb40cd830f9643617c40f2aa3d7415d8974113d7ce9b2c8de4413234ceaf54a35e414d6339c3a37695416529577489e40d417b7d554c7e0d1f41903e6c95ed64d841a195a04f057ddd41b18849bbfd283341c02bdc09b027bf41cbb253e9f2703141d6155cc8e057dc41e06e789371cdbb41e6dba93c8d358041edc30ed34589b141f226384f40000041f4bdf73600000041f6361d0de58fd641f64636c1c3152041f4e5c8afb2634f41f25050d441e2d941edead18106f0a841e6b54c8314f6f141dfe8a57c4db12941d4a4bcd6725b7c41c86cfc64a4ffcd41ba2e173020abfc41a91551a6201dfc4195108268ad9364417e0bd8e7d9cf0b41612b575fea2d2b413b3f56351a64eb,
  0x4131594c5f41681941410157d68e739941461b5896ec63144145e14cc91a190341415ea108de4dd94136a9526899268141288d92e36f125a4116226e6f6d29104100844e28b541f840e4267bef06a95a40c3aa2a3f15d914409da19619da5cd740703acbf78a9578403710ac0b5e5e313ff000000000000040378ef5ca97b3c74071ab3857f1c6d540a1f5376fc444a140cbc40db435aac740f161a2c5f4a1ba41125253f79b47564130b202ebb578e0414ace957581e71841633b34f09dd77b4178ed34908b6354418d6fd82d40db3f419fe3d4dbb0ed8441afddca78c977b641bd80a594096a9241c965e88354e4c441d463e8612fda6841de9a6033b9860941e5817028a0dd4d41ec5794235fcd5641f18753dc611ea541f45c454cbd192f41f6361d0de58fd641f6c02bfd00000041f5dd4d5bcac89f41f3b14d5791dd0941f0980dbda9bbd941ea1a95c91036d241e31b26c65e727d41d9ebe18c06effc41d036016678eb2441c28ff447a26ecc41b34616481da40541a1e820ec5c00df418d30e35d8720234174395e684fd0cc415678a1c93c3d544131594c5f416819,
  0x41250f881c486a5e41332b467f87da13413700baff6fd27d4134dea327c6fafa412e1f6ec867c4674121af587cf9e35c4111083a199833cd40fadec96c30a07440e12fafd3bfe48b40c178f916d4914d409b48478caec8c1406ed50b87ba1f4c40368443dcc7be4a3ff0000000000000403710ac0b5e5e314070fb06cd4a13c840a0fb06cd4a13c840c9e33600f058e640f002b4200616d84110b44f038360a7412e2f5b7914b7d741481149bb3cd33741612cd7dba4ea7841762db813f89958418a222665d46bfe419c4a4cc050990041ac4a4cc050990041ba40044891f10c41c6aec2146ccb6041d24e7a9f6e5ed241dbaa399ae697d841e39b77e1b4fc3841ea1b5930412f1341f057c5503d2dc941f3409bb3b850e041f5589f245af43f41f64636c1c3152041f5dd4d5bcac89f41f42c195980000041f1783dae490e9a41ec59eaf2aa673941e580cf31cd079841de6458a4d66c4d41d3edea0b2fd4a041c81f82680858f941bac246b3f396ba41aaf14b04ecb77a41984b9e1edddfef41833ca8f6e730844169ea42430eccbb414c042bf577c89241250f881c486a5e,
  0x4118519ac2d4cc8c41246e8dd497d7474126799c0373d3354122897f403fdb5341181494df20ab6f4109222099a9204240f52e0b9d065a7d40dca3f18b82022f40be87e0c92c926c4098d4dac4f9a28b406d1462c40e65c64035e8add236a58e3ff000000000000040368443dcc7be4a40703acbf78a9578409fdcb5ca7f6f7b40c7e58857df939c40ed2522092fc11f410e0ac2831530ae412addba54d72cc441453d523ffb383e415e1b5013c2e6884173561c7c7e309c4186b30ece3f37ec419884a8eaf0849a41a88003ff77253e41b6c003b65c597141c3b3be9838216941cfebccd208e6a541d83f4921f8a24841e14dab113d69d141e73c823353b62241ed6455972287a241f185ee457f66ac41f3b45abcfdb2c841f4e5c8afb2634f41f4e5c8afb2634f41f3b14d5791dd0941f1783dae490e9a41ed23410f80000041e6cc92ed8f1c9141e0b222a22c1f9041d6cf949c8d648c41ccf37d09d0c20e41c0f95ec9db1d5d41b24219ef46484e41a1d7c3ceff3d93418f42929137aed74178106219b25064415f8aaaf3640123414099d33cbb5eea4118519ac2d4cc8c,
  0x410aa3cede16425d4114844d8346931c4114844d8346931c410e75a5bad72638410195f94bf3598640f00f782ee0ad8340d7338d987f8fc440ba251e3c49dae840964be909763d0f406b3395d523013540353c9c576aef0a3ff00000000000004035e8add236a58e406ed50b87ba1f4c409da19619da5cd740c5d08485655e1e40ea2d6bd34670f1410a9b0d26a9df3d412781b7d202005b414264dbbdc8a0074159da18c263b40f41707d78159232024183419d240dd76f4194b8beea73891741a4a90728b99dba41b32b9b38c222b741c09d424241d9d141cafa6e7dc017ad41d491bd8314917f41dd83447c50fa8941e3f3d9d974d61541e97443c23f8de641eea9feda3f9db341f1735afa8c501f41f2c50e1f1c750f41f313a987c4a1a241f25050d441e2d941f0980dbda9bbd941ec59eaf2aa673941e6cc92ed8f1c9141e139694c00000041d862c62f72104041d01f0edb1936b941c3d24c9b837b2441b689d5febc77e241a787ca3921f62d4196568e1bb1d2ff41830635e660030f416c7f86b1b7d72741522f733ffe8e084132a6d21a4028a5410aa3cede16425d,
  0x40fb98e8aa15a8954103526cf2888021410163c873e1401e40f6f2d47ab8039540e72fb5efd7002840d2266fd619796940b5d9a71440bbe44093b2aa7c7525774069329997c5713240347e7054af09893ff000000000000040353c9c576aef0a406d1462c40e65c6409b48478caec8c140c3aa2a3f15d91440e729da6d03f9c1410729da6d03f9c141242de1878778b1413f334d6624d9a64155b39afd5285e0416b7358c6231f69417fd607a2fa3e2b41910a0af9074f5a41a0ece8863d1cc041af56fcb83aa40f41bb241c57f9e8d541c60d57077b0d2d41d0d9d496d25a9041d844a038f1fa2a41e07e5a52fc4d4841e52fb5dd86812f41e9bdbb28e9c11f41ed99a870d4629941f01ce05a7c440c41f09bd343c06c4241f03486d08e6d0541edead18106f0a841ea1a95c91036d241e580cf31cd079841e0b222a22c1f9041d862c62f72104041d0b4a7a400000041c565d57e2c2dfb41b98302c3face6841ac27cd2948a6d8419c8e0b7a5d5d7c418a5adda9f7c50b4175d6ace8a2e85c415fda62ed00bfa34143ce16123250224123ce161232502240fb98e8aa15a895,
  0x40eaeea5227cd0f540f0f87ed0b6640440eb27314df0a00640df5a8bbbac795940cb27314df0a00640b1b675442871da40910f13aad65aed4067115d9e3bd1d84033ac1cdf9639083ff000000000000040347e7054af0989406b3395d52301354098d4dac4f9a28b40c178f916d4914d40e4267bef06a95a4103c7937ff663484120f435491c55194139d8d0e56cf8494151c2f8cd169fb341663ccd3109113a41799242f11404fa418b2f69b1b66e28419adc8f4c879a8941a8c6ba70fdda2a41b568be5f97d3ec41c161cf2ccd0d6d41ca95973575d84d41d32f83125ee1e941da2d1a2d4542a141e0e69fc8a3f51d41e4acffd7c60fb841e7fa9ac3ea52b541ea5ffd82a1218341eb849149bdab2041eb3aeb4680e6c641e98bf6137795cf41e6b54c8314f6f141e31b26c65e727d41de6458a4d66c4d41d6cf949c8d648c41d01f0edb1936b941c565d57e2c2dfb41ba93c4e200000041aec149ac19836941a07c74d39a11c64190416d13e85a78417d32085ecd29fe41678e4005b27ed34150bd014386137341344b4ad995d79a4113cc93f37f74af40eaeea5227cd0f5,
  0x40d8a48a84910fb940db9afac3f945e840d352e2bc61b0ef40c32025a580983440ab9afac3f945e8408ccffb8eb6e94b4064cfc8a5c43b104032c2fc595456a63ff00000000000004033ac1cdf9639084069329997c5713240964be909763d0f40be87e0c92c926c40e12fafd3bfe48b4100844e28b541f8411bcb297a8f8d7f4134d85f1bebaa1f414c3f8f8981a39541617879293f52134173e27b353b0c464184f5d6a222143d419491aeed9b1e6d41a2df5a17406da941b03f34803a041341ba52aeb281f2b541c41d4c1514c88c41cd0ddfacac3e2041d3dd4e55f776c341d9bf4f564dacb241dfaa29d4e1d87c41e27cfad028938041e482759a72de9741e59e785b45d52f41e5a75177016c3241e49a63a2ce7fcf41e29d0b332d520241dfe8a57c4db12941d9ebe18c06effc41d3edea0b2fd4a041ccf37d09d0c20e41c3d24c9b837b2441b98302c3face6841aec149ac19836941a1494f0200000041920490584dcbf941814921088b8328416e3a8066d18cb04157c3899e73b58d414076cc685893064123798881da745141028c207bab7af840d8a48a84910fb9,
  0x40c503f12149ba6440c49965da374cb740b8b813d2a8c27540a4634f6fc5c58240878abd8bace9f640626db1c10f73f34031bf8c9d2ed1a13ff00000000000004032c2fc595456a64067115d9e3bd1d84093b2aa7c75257740ba251e3c49dae840dca3f18b82022f40fadec96c30a0744116226e6f6d291041304ba22de4b6f84145ba2d9286494b415a7fce24b36bca416dcc46ac542ccd417f16d3152bfd9d418e40010725b5b5419b90a421e6278e41a79af24a503a5c41b30d19ab041f7241bd0cfe530c008641c4f7300e2cb16b41ccb0929a22362741d2a2709c01cdcf41d700c242ff6e1841db00f599dcc61341de299d6843855741e00879109ff94941e0396f3f1c5b4941df4024cc0f565541dca218e5cf687841d8f1b9831f83e041d4a4bcd6725b7c41d036016678eb2441c81f82680858f941c0f95ec9db1d5d41b689d5febc77e241ac27cd2948a6d841a07c74d39a11c641920490584dcbf9418245cdc00000004171119eb7f17510415d157ecdb5bdf941464add35d312e4412e22cb0469ee5741116623493a981c40f02f625006e0d940c503f12149ba64,
  0x40b093c162b4763040abdaef77d97e05409bdaef77d97e054082613276e340e9405fd5a3f6af6b7440309cfdcd8ed0083ff00000000000004031bf8c9d2ed1a14064cfc8a5c43b1040910f13aad65aed40b5d9a71440bbe440d7338d987f8fc440f52e0b9d065a7d4111083a199833cd41288d92e36f125a414011493ece0414415347f17e90d1b2416560c1279a47ef4176092fac9b1a56418538e3abf48c5741932ca8909d1b8b41a04ec3e422d63841aa2f3a8ef9e23041b3e3c2e76fc98f41bca4f974baa39441c39595fdf5f1a641c975a963bfba2441cf7f83df27b2ea41d28eafb94fcd3541d4d678d9c084b341d64e36118434ef41d6c3c5fe1be97741d626791ec4e3b741d48ad502926c9b41d2264c12dff8b841ce883b7dce3fc041c86cfc64a4ffcd41c28ff447a26ecc41bac246b3f396ba41b24219ef46484e41a787ca3921f62d419c8e0b7a5d5d7c4190416d13e85a7841814921088b83284171119eb7f17510415f1229000000004149cf38be7841fa41334cd1abaa51b141197830ae3f6a3340fcb9c6f39849f540da1d40805be62540b093c162b47630,
  0x4097f2a84a881a8d4090c45197ade331407ad3b5bf7c9eb5405a8d45215b8101402ea8cfb64547ab3ff000000000000040309cfdcd8ed00840626db1c10f73f3408ccffb8eb6e94b40b1b675442871da40d2266fd619796940f00f782ee0ad834109222099a920424121af587cf9e35c4136a95268992681414ab1810def1dca415d1ebb5504daad416d98af7f4187ca417c291c0c0c9c0c41892efed6d1b41e41953c957c663f6641a0eec6890f6e3641a996bab9882e5b41b25b7ba0ac63ce41b90bd11fa74f0441c04498e440f2ac41c4242b023807e241c7c924efee43f941cacefc3968650441ccd93dfecb4a5041cda53656fee10f41cd178ea349913141cb42257283417541c86072d546b3cf41c4cb7445e5134641c0e86ef9bfc46841ba2e173020abfc41b34616481da40541aaf14b04ecb77a41a1d7c3ceff3d934196568e1bb1d2ff418a5adda9f7c50b417d32085ecd29fe416e3a8066d18cb0415d157ecdb5bdf94149cf38be7841fa4134ea8200000000411e896ef1b0bcc34103ae35fd7992de40e5b12ff5d5c45440c3482aa1a192124097f2a84a881a8d,
  0x407f3e665be9822840718000000000004055000000000000402bb67ae8584caa3ff0000000000000402ea8cfb64547ab405fd5a3f6af6b7440878abd8bace9f640ab9afac3f945e840cb27314df0a00640e72fb5efd70028410195f94bf3598641181494df20ab6f412e1f6ec867c46741415ea108de4dd94152999ea7e85b994162999ea7e85b994171733eea6a9da6417ed5d3534854314189bcb460cb691e419458d40e4a7d58419e89bf4372d48341a5caeea63e745841ad9f56794ba78941b33290888a968941b7c0326327047241bc11afe98b33cd41bfb4f0bc82053541c11fa61916bcac41c1b08b7472c1c741c17aa1af06c71c41c0847a368839f641bdd8ececafa8ff41b9c58917cd647c41b54077980003a641b0b8e1196abea841a91551a6201dfc41a1e820ec5c00df41984b9e1edddfef418f42929137aed741830635e660030f4175d6ace8a2e85c41678e4005b27ed34157c3899e73b58d41464add35d312e441334cd1abaa51b1411e896ef1b0bcc34105c5e80000000040eb6d4d0bcac38040cd8f000000000040a9b40000000000407f3e665be98228,
  0x406209e0d8506b3f404e4f966e2093da40283fab8b4d43153ff0000000000000402bb67ae8584caa405a8d45215b81014082613276e340e940a4634f6fc5c58240c32025a580983440df5a8bbbac795940f6f2d47ab80395410e75a5bad726384122897f403fdb534134dea327c6fafa4145e14cc91a190341557a3eb1014afd4163d34d8fb26c9a4171456d38cc491e417c7c00ee2a5763418649fc4de0f6f6419095a04440b3234197821ac335e3b7419fc94216bbb55441a485e3fa2d0e8841a9558b146de29c41adeb0fcad154fe41b0e908ed1224e941b24e5155874e4e41b2fb545fcc950841b2dadfa398128b41b1f0c394f9f7e341b0591b74aeef7641ac85c6f605328441a7ce8ad118181841a2ff91be7a506e419cf6b34feeaaaa4195108268ad9364418d30e35d87202341833ca8f6e730844178106219b25064416c7f86b1b7d727415fda62ed00bfa34150bd0143861373414076cc68589306412e22cb0469ee5741197830ae3f6a334103ae35fd7992de40eb6d4d0bcac38040d0e4000000000040b1cec1fa4cbd43408e4f966e2093da406209e0d8506b3f,
  0x4041da83a23c4a6040240000000000003ff000000000000040283fab8b4d43154054ffffffffffff407ad3b5bf7c9eb5409bdaef77d97e0540b8b813d2a8c27540d352e2bc61b0ef40eb27314df0a006410163c873e1401e4114844d8346931c4126799c0373d335413700baff6fd27d41461b5896ec6314415407e5efe68a0741612b575fea2d2b416beb97dd7762a3417595ad871907bc417fcafcf00a54ad4186577f6f1089a2418e0097fa67d546419344f35a67ba694197b2ab943c8607419bec7523b24f54419f8ae2ca82be1041a115e58306d19e41a1c17c9286405b41a1b404baa090a541a0ef0466b83ef7419f12e68c7dd3c0419b56dbf0543ca141970df4cc0180c541929f406079fca2418ccaf49c631db8418548644ee4f2a8417e0bd8e7d9cf0b4174395e684fd0cc4169ea42430eccbb415f8aaaf364012341522f733ffe8e084143ce161232502241344b4ad995d79a4123798881da745141116623493a981c40fcb9c6f39849f540e5b12ff5d5c45440cd8effffffffff40b1cec1fa4cbd434092600000000000406ea000000000004041da83a23c4a60,
  0x401c90d29d2d43cd3ff00000000000004024000000000000404e4f966e2093da40718000000000004090c45197ade33140abdaef77d97e0540c49965da374cb740db9afac3f945e840f0f87ed0b664044103526cf28880214114844d8346931c41246e8dd497d74741332b467f87da1341410157d68e7399414c9d919fdba09d4156e4747fe2e6e44161733eea6a9da6416964cc2677ccdd4171a9a8f7222f0a4177848624116874417e0097fa67d54641825a0c5619a55841858b279e0879d84188480cd1209e06418a4912536cf3b8418b563c04d7b5ca418b510e6b44b1c7418a3a19f80a518d418830e1b75059f441856e2369b7e17b418239e7f58d7dc0417dbf6d6a54851f4177471078987bca4171733eea6a9da6416909df6be02c8941612b575fea2d2b415678a1c93c3d54414c042bf577c892414099d33cbb5eea4132a6d21a4028a54123ce16123250224113cc93f37f74af41028c207bab7af840f02f625006e0d940da1d40805be62540c3482aa1a1921240a9b40000000000408e4f966e2093da406ea000000000004049000000000000401c90d29d2d43cd,
  0x3ff0000000000000401c90d29d2d43cd4041da83a23c4a60406209e0d8506b3f407f3e665be982284097f2a84a881a8d40b093c162b4763040c503f12149ba6440d8a48a84910fb940eaeea5227cd0f540fb98e8aa15a895410aa3cede16425d4118519ac2d4cc8c41250f881c486a5e4131594c5f416819413b3f56351a64eb41446f80a7d3cbb0414d52796da40eaa41542654c243aaa3415a8e20f3c3bfa84160cb839d1dd700416467d93ba1d1ad4167d424115b1039416ac1c0e9269dfd416ce69456576c22416e08d44ceefa17416e08d44ceefa17416ce69456576c22416ac1c0e9269dfd4167d424115b1039416467d93ba1d1ad4160cb839d1dd700415a8e20f3c3bfa841542654c243aaa3414d52796da40eaa41446f80a7d3cbb0413b3f56351a64eb4131594c5f41681941250f881c486a5e4118519ac2d4cc8c410aa3cede16425d40fb98e8aa15a89540eaeea5227cd0f540d8a48a84910fb940c503f12149ba6440b093c162b476304097f2a84a881a8d407f3e665be98228406209e0d8506b3f4041da83a23c4a60401c90d29d2d43cd3ff0000000000000]

/-- The coefficients for `2 ell = 52`: one number for each of the 53 values of `mp`, consisting of the doubles for the 53 values of `m`. -/
def wigner52 : List Nat := [
  0x3ff0000000000000401cd82b446159f34042350738f34edf406295245a0e469d4080427fcecc7dc9409930841fadb93040b1a00aaaa7705f40c69743875fecca40daca1b717fb7ab40ed9dec3bab574240feb51ad80f9f30410e005d9aedf7c1411bba48031f33b04128519ac2d4cc8c41344b68f0fbfdd74140269facd5a36b41488f7bcbb2dd974151ded0f793a18b4158eb46c99c7a794160aad155e37d97416568d39baf5dab416a6dade22e956c416f5f356b7748724171ea24b1752f1d4173b14838dfd3244174d73106bd39b641753cd2c630c28e4174d73106bd39b64173b14838dfd3244171ea24b1752f1d416f5f356b774872416a6dade22e956c416568d39baf5dab4160aad155e37d974158eb46c99c7a794151ded0f793a18b41488f7bcbb2dd974140269facd5a36b41344b68f0fbfdd74128519ac2d4cc8c411bba48031f33b0410e005d9aedf7c140feb51ad80f9f3040ed9dec3bab574240daca1b717fb7ab40c69743875fecca40b1a00aaaa7705f409930841fadb9304080427fcecc7dc9406295245a0e469d4042350738f34edf401cd82b446159f33ff0000000000000,
  0x401cd82b446159f34049800000000000406f8f9a9c832c7f408f91497a8cbbaf40ab0ed14478a0df40c485b56cb631cf40dc1ba32c39e69240f19f37eb90579941046ec4148dc46941161366c16c9e1641265b3af3fdf4494135528282273f75414339c5c4e86ad2415070c3588d7f53415abc801a5633e64164b7aa24e90f9e416ea740fbbdb1884175af1cd52b26c9417d5f7ebf835c4141831188d78559704187c06e6176d6c0418c674a1ac36cde4190507b204d72a6419202e1a84ff01241931db347d7b1c24193820a87149c30419324afb34189a64192101cb5f6a39541906299ab4b2aa7418c91cfded712df4187ed816293b93841833db65431cde0417db089f9d48c704175f529363c7681416f19d17f7c07544165108268ad9364415b3f56351a64eb4150cc44c3fb3d184143b350eafc263e4135ebaf20bca9c44127122085e3b3634116e1e9b762509741054ab20cf1dc7740f27b67e36ccbcb40ddb863069fa95340c5edf5f1f2341f40ad547dbed83e824091773dcee75085407209e0d8506b3f404eec5ce089dc6d402432f24fb01c7a3ff0000000000000401cd82b446159f3,
  0x4042350738f34edf406f8f9a9c832c7f409324000000000040b2c0fff92cbcc140cf7ad23dafaa8d40e75e3d1f9ce28a40ff4f55e4b5c6bf41133172f4212ee24125bfac1b893e234136f381dbc3cc0f4146b0837275074041551cbae58ee9cb41628f72eef7a2ca416eeddcf9a240d341787cc90d759ff341827644fa8d6627418a8eb25c537f6141923ff51b6cfc774197fe76825298c4419e3580ca4e49b841a239e7f58d7dc041a517bcaf7fa20241a76c3b5f796f1a41a8f7a257878bbf41a98d67bc098d8b41a91c49ef9eaa3d41a7b180cf0e531d41a5764391b9ef9741a2a8439d9d5308419f1deda350a7dc4198e0696e3a59c041930d2e8dffab1a418bed5f4ad4ac0a418391336bc429ee417a2cde5f9fec794170af810321d0e241643bf59bad54dc4157490f81337e8841495bb7136681f3413a0bac9c52bd54412920bb1c23f0164116a832b7ea8a824102f94b222a8f6e40ed47a9eb49bc0940d49965da374cb740ba0e6119c6a60d409d0a839c7c1519407bab80805ed3e240556edb65e9fc4a40287eb1990b697a3ff0000000000000402432f24fb01c7a4042350738f34edf,
  0x406295245a0e469d408f91497a8cbbaf40b2c0fff92cbcc140d1fe000000000040ed8effffffffff4105770984e22b66411c1ef1861ea01d4130d8b34e6a306e4142a548dfa2043941533543cf1200dc416286a1a26c548f4170ce9eba32c46e417ccb2125530b8c41875c0a441b44e54191fe98fe784ddf419a613850852b2a41a26e721b97e0f741a89626c9ead11041af587adeee994e41b31da4c27b08c741b6528b67f2311941b8f8db5f21414941bac64396498bba41bb854f1c7c8ed041bb1f5871e8a7c041b9a0d8448a3a6d41b736f4820ee51d41b426f47328dcfc41b0c1c89de5b2f841aaad5c6140d4fa41a44fc957873ddc419d8e2f33ef8ba1419485b1b645e2d0418b28fdfd0ca6c0418118fd33c7f68741746f80a7d3cbb04167212fd250295f4158b7575b9623d54148d88e4cc98ddf4137648beb5994044124844d8346931c4110a641fb369d1f40f8c98aa926cc1f40e0bc20f0d0852d40c42eda84be878c40a546578634eb134082f8344ba1fb5b405b1c62db2564fe402bffffffffffff3ff000000000000040287eb1990b697a404eec5ce089dc6d406295245a0e469d,
  0x4080427fcecc7dc940ab0ed14478a0df40cf7ad23dafaa8d40ed8f00000000004107c0a0000000004120dd877ab1b462413597c299453af24149450cf59f48a5415b4d73d9bf862f416b70aa033e4a5f4179cdced916e37e4186cf452144e60341930635e660030f419e089f7c230f7041a67e3f3e16615741b0042b55756c7e41b5b9067bf2ffff41bc1950e6c3381241c15a1f724414dd41c47b30873aadfa41c71ea2aba88e4741c8f8db5f21414941c9d17807c6eb4f41c98e129a73a92f41c8376a65b44ca241c5f794cd08c45d41c311b68f67a9ea41bfaaedd9895b4341b922acecd88c7541b30e1d6a09bcb341ab90da6480af6241a2fff9c5f56c0c4198eb7c5d54dc90418f0a46d80e756d418251a192e8882341746f80a7d3cbb041657a3eb1014afd41552f6f7312fa244143859460e781c24130b58883892095411a60f5f1ed064941030726d5f545db40e8c98aa926cc1f40ccb0387840e44e40acd5382b5953ed408850640717e81540604275f7af69bc402efbdeb14f4ed93ff0000000000000402c00000000000040556edb65e9fc4a407209e0d8506b3f4080427fcecc7dc9,
  0x409930841fadb93040c485b56cb631cf40e75e3d1f9ce28a4105770984e22b664120dd877ab1b462413767f300000000414d451f806084f94160b825e85e4e2b41719fac164cdea74181450a893f9cb8418fa5a88be4253e419b3d148f7e06bd41a61aac5d80897041b0f69c98407d6741b8aec9042b474c41c10ef8110e29fb41c66f66fab5a23d41cc1d0fc2b5734941d0cd112327c17b41d32b7926e1d95241d4e4a5d8e15cb241d5c2df133975c741d5aa4fdc16f81741d49e9cb849ca4941d2c20bf39f8d4d41d04e81cafee3e441cb147db22f636a41c576a67667909c41c03990aed7064141b75ebd00bc6adc41b003a942f0285441a4d975f43bfd0a4199bcb460cb691e418e0df30985801a41808e005eb2cf29417125ff1a6d2d8c4160a2ec13ce54b6414e15c99483e264413933d8f76d008841236a0b65add882410b3e6d8737336240f1320a7619e53b40d3333c4497756a40b284ac8b711a3f408dc74a6699e2584062d5646fbd87f84030caf8960e710d3ff0000000000000402efbdeb14f4ed9405b1c62db2564fe407bab80805ed3e24091773dcee75085409930841fadb930,
  0x40b1a00aaaa7705f40dc1ba32c39e69240ff4f55e4b5c6bf411c1ef1861ea01d413597c299453af2414d451f806084f94161dda4600000004173e9950996ed50418476fd8628516641938a1d3dc9c40b41a16ea1def70d0a41ad325605623b2e41b708f5878eaf5941c12c2dd17bec2d41c840970cb3957141d040c99b248a5c41d4b53a0add701241d91cae833cbc8441dd039e9563d7bb41dff69a10dd8be241e0cbd96161180941e0d8a0986377bb41e02079d3473f0c41dd78152f50989f41d9b1070c5960ce41d55cf1297e023341d0eea67582c7b641c99008806b04d141c25b7ba0ac63ce41b90ccdc961361741b0363b49f7503541a3dd75671c5de74196fd46556aed3241890e5a2c70e3144179a19a2684c796416882177906462c4155cb886239dcc74141ea5900c03900412b03a27d3c7a8141127f63b6c5cd4c40f6b67ef1eed94140d8934e24def28140b6ddf5cf8994b84091a4d93498fe3c406547863283db0f4031f1c1799ca8fe3ff00000000000004030caf8960e710d40604275f7af69bc4082f8344ba1fb5b409d0a839c7c151940ad547dbed83e8240b1a00aaaa7705f,
  0x40c69743875fecca40f19f37eb90579941133172f4212ee24130d8b34e6a306e4149450cf59f48a54160b825e85e4e2b4173e9950996ed504185a381200000004195ab315c5586e841a42500cee05e2541b17c784f6086b841bc793f822df04641c5d29e9e75a16641cf94a7187dd48041d59fdbf03489b241dc1405340ce49c41e14f6321ba4cbf41e44ab7d8aeee2941e6a2f361197d5141e80bfb1046d41c41e85626deaa88ee41e77855473df8ae41e591b403ba8d1141e2e2c6a10f278441df7f83df27b2ea41d900377a84182041d2df3657043a1c41cb110271ace94141c26a0e142ed6df41b7bb512577ad6041ace91152b6b9f941a09b05de3662f94191efa129c0c38c418226f3cef95766417123f72b1b4ccb415e0c1cb44c194c41484ab43e3a639b4131f891a5b7fb634118164ac68ad95740fcdd00982a669440de60b35343fdb140bb6403c2aa04e4409463a7b8a201d940679923933d8a494032f9422c23c47d3ff00000000000004031f1c1799ca8fe4062d5646fbd87f8408850640717e81540a546578634eb1340ba0e6119c6a60d40c5edf5f1f2341f40c69743875fecca,
  0x40daca1b717fb7ab41046ec4148dc4694125bfac1b893e234142a548dfa20439415b4d73d9bf862f41719fac164cdea7418476fd862851664195ab315c5586e841a520b5e600000041b31c5cde04d7a541c020c9753c52d141c98302c3face6841d2fa458b0a9c7041daa193e9742cb141e1aa5d15d7fcc941e632a107b7e24f41ea751574ae636941edf1ffcbffcfb241f01b2e0144aac341f079d52de052a741f00879109ff94941edb001cd3d6ab641ea2571b2f5ec3241e5e5ee6fe93f4741e16e5680e4655741da5a6bb8124e7e41d2e5eae9bc6a4e41c9ad6f85672ba941c07fb1568d89be41b4032838478e8741a6db0ec7de8c684198815c394473b241889400d5cea3a34176f5fb41fee1244163dfda9b8690d7414fac32b77770cf41370b94a82aaf11411e4f14aaa88c384101c5e3ca270d4f40e24137241af04240c002ae587f0cc34097190ccb1fa7c34069ca6649d0180e4033e655eefe13673ff00000000000004032f9422c23c47d406547863283db0f408dc74a6699e25840acd5382b5953ed40c42eda84be878c40d49965da374cb740ddb863069fa95340daca1b717fb7ab,
  0x40ed9dec3bab574241161366c16c9e164136f381dbc3cc0f41533543cf1200dc416b70aa033e4a5f4181450a893f9cb841938a1d3dc9c40b41a42500cee05e2541b31c5cde04d7a541c0ce622580000041cb8e4c4466533841d5273a63b26cfa41de84650f4c2de341e4be3d9e3c153641eaa1b83c53037041f02ca94f68d52f41f29d0b332d520241f4509e2df3846241f50b23113dfbbc41f4b2da0bbe7d3341f3562e3ab7068e41f12804f2261b9f41ece7e183eb5fc941e71be1b6b1c42e41e184d17e9d25f341d9296339b0ebc441d1180fa762c2a241c5ef9194c19f9741ba87f415c1b12a41ae2b732f61782641a0145fbe70ec684190023a0e55b8a3417da471033197a74169625a5ff3556e4153f97c50884a2a413ca624220c5d2041228770fc5fb3aa410552b7fb7af23040e56f5fa23a76d340c258c218c5bc744099beed563d3504406bdb681680d6a14034bc876ba7f6ec3ff00000000000004033e655eefe136740679923933d8a494091a4d93498fe3c40b284ac8b711a3f40ccb0387840e44e40e0bc20f0d0852d40ed47a9eb49bc0940f27b67e36ccbcb40ed9dec3bab5742,
  0x40feb51ad80f9f3041265b3af3fdf4494146b08372750740416286a1a26c548f4179cdced916e37e418fa5a88be4253e41a16ea1def70d0a41b17c784f6086b841c020c9753c52d141cb8e4c4466533841d5ed1c0740000041e05253ea935e3c41e6cf949c8d648c41ee0279f3f166cc41f29f4e03a75e4841f5d70d447f632841f83c5a1c3871fe41f978b29b69a5ba41f95ec535e9105741f7f4ccbab020f041f57288ea5c09fd41f233a4bf2c7d3841ed45eed00ea2cf41e649c8708dad1341e00d4408cfd91241d5d75d000cfac041cc071a13d28f5c41c0ece8863d1cc041b3310e636ea86241a45e68dc8fc7c64194293d1ca328ec418287379260c965416f72d64e35886741587b9175f2daf6414156b1f2d6fb2a41261af0676a1980410904f938cac34140e8add3b3fe2c1940c4ac7e37623c5a409c4fedea80b939406dcc39b92b8fda40357e82ecdabe8c3ff00000000000004034bc876ba7f6ec4069ca6649d0180e409463a7b8a201d940b6ddf5cf8994b840d3333c4497756a40e8c98aa926cc1f40f8c98aa926cc1f4102f94b222a8f6e41054ab20cf1dc7740feb51ad80f9f30,
  0x410e005d9aedf7c14135528282273f7541551cbae58ee9cb4170ce9eba32c46e4186cf452144e603419b3d148f7e06bd41ad325605623b2e41bc793f822df04641c98302c3face6841d5273a63b26cfa41e05253ea935e3c41e78a320a00000041efd674c934bef441f43e9b4d7bd50641f84243339215cb41fb6f3868d1fcd941fd50f78f9a2e1141fda041fed3425441fc53f001227bec41f9a271bdf2cbf741f5f3bdd6c72ee641f1c882cf86933741eb3cfc77bd0b3241e3b3af14cdda0141dae27e0fe3078d41d146462253002a41c4dd0e213d1aeb41b79f8ddbcb36ed41a9002134d85e8b4198a380e92bce21418682f0fcf96fec4172f6d6638e81ec415d432d44c806d2414480af98f970614129d03796e0090a410ccbc65c2552eb40ebefac0d4095cb40c6f6a363614d56409ec75475afa861406f9ce68d3acf7a40362e5acd0c3ebd3ff000000000000040357e82ecdabe8c406bdb681680d6a14097190ccb1fa7c340bb6403c2aa04e440d8934e24def28140f1320a7619e53b41030726d5f545db4110a641fb369d1f4116a832b7ea8a824116e1e9b7625097410e005d9aedf7c1,
  0x411bba48031f33b0414339c5c4e86ad241628f72eef7a2ca417ccb2125530b8c41930635e660030f41a61aac5d80897041b708f5878eaf5941c5d29e9e75a16641d2fa458b0a9c7041de84650f4c2de341e6cf949c8d648c41efd674c934bef441f4d009e680000041f98e32dba4222541fd877787f5191342001434b8a2ef1342008560243b9d3542000718d337888b41fd5fadfc35672141f96cdf57deed5341f4c8820166b21241f008dc64af716c41e754f6a30a288a41dff9ed09f634e641d49adfd022c09341c8ebe36362c6ba41bc37cd09b20c0041add20de6835272419d4e0b1ca33404418aa8bdc6c8f369417653e56a56640241611975a2d5179e4147bf1c29862816412d9421106f585841104ae66e1f5e6d40ef284960fa78e140c930720f81dea340a09078bf7cfa8d4070a6bb44ce37bf4036cdb2bbb212eb3ff000000000000040362e5acd0c3ebd406dcc39b92b8fda4099beed563d350440c002ae587f0cc340de60b35343fdb140f6b67ef1eed941410b3e6d87373362411a60f5f1ed06494124844d8346931c412920bb1c23f0164127122085e3b363411bba48031f33b0,
  0x4128519ac2d4cc8c415070c3588d7f53416eeddcf9a240d341875c0a441b44e5419e089f7c230f7041b0f69c98407d6741c12c2dd17bec2d41cf94a7187dd48041daa193e9742cb141e4be3d9e3c153641ee0279f3f166cc41f43e9b4d7bd50641f98e32dba4222541fe4226064000004200d58f27f6aa884201a0b07536dce94201634a0f32133c42002a73c4aba0a941fc56b700abacdf41f76a1779e3c22a41f23a64e147843d41eab861daaa383341e26ac59cd0abcd41d7d69a28f49dd941ccea31789976dc41c064a62bb266af41b152fc1a2c714841a100149f17d2c8418ed7ac3c5f6db84179b843755be2374163952c2cd7b3f5414afeb6f9e63f244130a962c04aacf0411228d66e485b3140f125bee493731c40cb53aa895ba09040a1ac87593197d740716ef7b61ca8ff40375ddc4efa914a3ff00000000000004036cdb2bbb212eb406f9ce68d3acf7a409c4fedea80b93940c258c218c5bc7440e24137241af04240fcdd00982a669441127f63b6c5cd4c41236a0b65add8824130b588838920954137648beb599404413a0bac9c52bd544135ebaf20bca9c44128519ac2d4cc8c,
  0x41344b68f0fbfdd7415abc801a5633e641787cc90d759ff34191fe98fe784ddf41a67e3f3e16615741b8aec9042b474c41c840970cb3957141d59fdbf03489b241e1aa5d15d7fcc941eaa1b83c53037041f29f4e03a75e4841f84243339215cb41fd877787f519134200d58f27f6aa88420202cd7da0000042021b01ad777b3b42011d71d830ffd041fe70d0568ef8ec41f977ef91c5d89a41f40a780836039241eda4b905cbb88c41e4955812c63c8f41dacc4d83a4b7b941d052ad1cc737d041c28fc4f778c28441b3a4ccd0057a3e41a346cba5bba4934191760b63931753417d09e115edd8b44166039bfba7a67e414e2b95513f514941327c05476f8ea74113f72a9ba8a90c40f2a6d85fb1e15440cd5a8d06c900db40a2b630a23994904072272ab892ba634037dfea8e0922113ff000000000000040375ddc4efa914a4070a6bb44ce37bf409ec75475afa86140c4ac7e37623c5a40e56f5fa23a76d34101c5e3ca270d4f4118164ac68ad957412b03a27d3c7a81413933d8f76d00884143859460e781c24148d88e4cc98ddf41495bb7136681f34143b350eafc263e41344b68f0fbfdd7,
  0x4140269facd5a36b4164b7aa24e90f9e41827644fa8d6627419a613850852b2a41b0042b55756c7e41c10ef8110e29fb41d040c99b248a5c41dc1405340ce49c41e632a107b7e24f41f02ca94f68d52f41f5d70d447f632841fb6f3868d1fcd942001434b8a2ef134201a0b07536dce942021b01ad777b3b42017132ca80000041ff8ad0a721473441fac6818ffdd68e41f555cd1b56e56a41efe5e266264cad41e6596b4bc69c9841dd501715500e8541d1f58b1d60df3d41c482c3bcc5504b41b5c4d505ad851241a56476f2c6c832419360b33aaaa4554180170ce25c9f544168536b330b0b5b415098e502aef76941343815b98ca98e4115adabc1ebafa340f411ff3450e65640cf3fd9adfcfc1b40a3abff97e457944072cf55e37b0f35403854bfb363dc393ff00000000000004037dfea8e09221140716ef7b61ca8ff40a09078bf7cfa8d40c6f6a363614d5640e8add3b3fe2c19410552b7fb7af230411e4f14aaa88c384131f891a5b7fb634141ea5900c03900414e15c99483e26441552f6f7312fa244158b7575b9623d54157490f81337e884150cc44c3fb3d184140269facd5a36b,
  0x41488f7bcbb2dd97416ea740fbbdb188418a8eb25c537f6141a26e721b97e0f741b5b9067bf2ffff41c66f66fab5a23d41d4b53a0add701241e14f6321ba4cbf41ea751574ae636941f29d0b332d520241f83c5a1c3871fe41fd50f78f9a2e1142008560243b9d354201634a0f32133c42011d71d830ffd041ff8ad0a721473441fb395476e0000041f6025e8b0f2b7e41f0a91822ed4ffd41e7991583f65b4041df3b0fd479477e41d346a8c7bbe35b41c624bc71f5ba8641b79a8aecfeebcc41a743177ad36184419519f39206970a4181856ffa492469416a73ad51ac5d104151ff041941117d4135d41c99989a2b4117449a0d6aad8940f562296404763640d07f684d46a82340a48cab4e005b964073677a6d823a444038bd171a07e38a3ff0000000000000403854bfb363dc394072272ab892ba6340a1ac87593197d740c930720f81dea340ebefac0d4095cb410904f938cac34141228770fc5fb3aa41370b94a82aaf1141484ab43e3a639b4155cb886239dcc74160a2ec13ce54b641657a3eb1014afd4167212fd250295f41643bf59bad54dc415b3f56351a64eb41488f7bcbb2dd97,
  0x4151ded0f793a18b4175af1cd52b26c941923ff51b6cfc7741a89626c9ead11041bc1950e6c3381241cc1d0fc2b5734941d91cae833cbc8441e44ab7d8aeee2941edf1ffcbffcfb241f4509e2df3846241f978b29b69a5ba41fda041fed3425442000718d337888b42002a73c4aba0a941fe70d0568ef8ec41fac6818ffdd68e41f6025e8b0f2b7e41f0e75c9a20000041e83e9fb467bf9b41e0375682e8bd6a41d432e646dda7bc41c76027444661a441b9100fe7c9cd6c41a8cea3596f4f69419691499e0b6aba4182c3f0d7c1b63b416c5485bed604ee41533f1e67229384413747485f81be2b4118b4cf0c9c4ee840f692c0a5dc2c8840d14998f0570f8840a557137871b4844073ef994663b3614039198c8b8307c83ff00000000000004038bd171a07e38a4072cf55e37b0f3540a2b630a239949040cb53aa895ba09040ef284960fa78e1410ccbc65c2552eb41261af0676a1980413ca624220c5d20414fac32b77770cf415e0c1cb44c194c416882177906462c417125ff1a6d2d8c41746f80a7d3cbb041746f80a7d3cbb04170af810321d0e24165108268ad93644151ded0f793a18b,
  0x4158eb46c99c7a79417d5f7ebf835c414197fe76825298c441af587adeee994e41c15a1f724414dd41d0cd112327c17b41dd039e9563d7bb41e6a2f361197d5141f01b2e0144aac341f50b23113dfbbc41f95ec535e9105741fc53f001227bec41fd5fadfc35672141fc56b700abacdf41f977ef91c5d89a41f555cd1b56e56a41f0a91822ed4ffd41e83e9fb467bf9b41e06bb90ac0000041d4ac959aace19c41c8246833d505c841ba139a4246662f41a9f62c41feec654197b85f17fe59f34183c7cc57e1b0ec416de7be48adcc304154510daadbf4dd413889a2b1c9ae1a4119f7dbb113496a40f79fac8688f94b40d1fc9ec7a8f35040a60a3d9dd65545407467b32899458840396aa1b6b0ec773ff00000000000004039198c8b8307c84073677a6d823a4440a3abff97e4579440cd5a8d06c900db40f125bee493731c41104ae66e1f5e6d4129d03796e0090a414156b1f2d6fb2a4153f97c50884a2a4163dfda9b8690d7417123f72b1b4ccb4179a19a2684c79641808e005eb2cf29418251a192e88823418118fd33c7f687417a2cde5f9fec79416f19d17f7c07544158eb46c99c7a79,
  0x4160aad155e37d9741831188d7855970419e3580ca4e49b841b31da4c27b08c741c47b30873aadfa41d32b7926e1d95241dff69a10dd8be241e80bfb1046d41c41f079d52de052a741f4b2da0bbe7d3341f7f4ccbab020f041f9a271bdf2cbf741f96cdf57deed5341f76a1779e3c22a41f40a780836039241efe5e266264cad41e7991583f65b4041e0375682e8bd6a41d4ac959aace19c41c86704b800000041ba989dbc5e6aea41aaacd98e66d801419883c3a201b0c04184881d1c325b36416f214c8e157e1841552dcd2b66963a4139943f261df3a3411b08225031401b40f8855b0594796140d296d9d8cb217740a6a552d23b5dc84074cfc8a5c43b104039b0c25315c2cd3ff000000000000040396aa1b6b0ec774073ef994663b36140a48cab4e005b9640cf3fd9adfcfc1b40f2a6d85fb1e154411228d66e485b31412d9421106f5858414480af98f9706141587b9175f2daf64169625a5ff3556e4176f5fb41fee124418226f3cef9576641890e5a2c70e314418e0df30985801a418f0a46d80e756d418b28fdfd0ca6c0418391336bc429ee4175f529363c76814160aad155e37d97,
  0x416568d39baf5dab4187c06e6176d6c041a239e7f58d7dc041b6528b67f2311941c71ea2aba88e4741d4e4a5d8e15cb241e0cbd96161180941e85626deaa88ee41f00879109ff94941f3562e3ab7068e41f57288ea5c09fd41f5f3bdd6c72ee641f4c8820166b21241f23a64e147843d41eda4b905cbb88c41e6596b4bc69c9841df3b0fd479477e41d432e646dda7bc41c8246833d505c841ba989dbc5e6aea41aaeaa6900000004198eb80bb503e9e4184fe3e4de300b9416ff7c208fbf2634155cfae8a8d4cd3413a6162ffffd454411be0eca3a557cb40f940c7cb7c8dfe40d316ea27de211b40a7279de17a0dc5407527da2f8373c34039ec474a2612633ff00000000000004039b0c25315c2cd407467b32899458840a557137871b48440d07f684d46a82340f411ff3450e6564113f72a9ba8a90c4130a962c04aacf04147bf1c29862816415d432d44c806d2416f72d64e358867417da471033197a741889400d5cea3a34191efa129c0c38c4196fd46556aed324199bcb460cb691e4198eb7c5d54dc90419485b1b645e2d0418bed5f4ad4ac0a417db089f9d48c70416568d39baf5dab,
  0x416a6dade22e956c418c674a1ac36cde41a517bcaf7fa20241b8f8db5f21414941c8f8db5f21414941d5c2df133975c741e0d8a0986377bb41e77855473df8ae41edb001cd3d6ab641f12804f2261b9f41f233a4bf2c7d3841f1c882cf86933741f008dc64af716c41eab861daaa383341e4955812c63c8f41dd501715500e8541d346a8c7bbe35b41c76027444661a441ba139a4246662f41aaacd98e66d8014198eb80bb503e9e4185261528000000417032519bb44c2b4156328404fbed2b413aeca57e3355cb411c7e7dc9c57b2840f9cf820e8753eb40d37bafb7e97dc840a79089d70a5bb840756fe81dcd60b9403a1d79241626a33ff00000000000004039ec474a2612634074cfc8a5c43b1040a60a3d9dd6554540d14998f0570f8840f56229640476364115adabc1ebafa341327c05476f8ea7414afeb6f9e63f2441611975a2d5179e4172f6d6638e81ec418287379260c9654190023a0e55b8a34198815c394473b241a09b05de3662f941a3dd75671c5de741a4d975f43bfd0a41a2fff9c5f56c0c419d8e2f33ef8ba141930d2e8dffab1a41833db65431cde0416a6dade22e956c,
  0x416f5f356b7748724190507b204d72a641a76c3b5f796f1a41bac64396498bba41c9d17807c6eb4f41d5aa4fdc16f81741e02079d3473f0c41e591b403ba8d1141ea2571b2f5ec3241ece7e183eb5fc941ed45eed00ea2cf41eb3cfc77bd0b3241e754f6a30a288a41e26ac59cd0abcd41dacc4d83a4b7b941d1f58b1d60df3d41c624bc71f5ba8641b9100fe7c9cd6c41a9f62c41feec65419883c3a201b0c04184fe3e4de300b9417032519bb44c2b415653bf40000000413b33085fb2d391411cde2045cc02f140fa2fb13736659140d3c44a8b16581e40a7dfa0d5b59a974075a7f2b3843a78403a4491e34f47d93ff0000000000000403a1d79241626a3407527da2f8373c340a6a552d23b5dc840d1fc9ec7a8f35040f692c0a5dc2c884117449a0d6aad8941343815b98ca98e414e2b95513f51494163952c2cd7b3f5417653e56a566402418682f0fcf96fec4194293d1ca328ec41a0145fbe70ec6841a6db0ec7de8c6841ace91152b6b9f941b0363b49f7503541b003a942f0285441ab90da6480af6241a44fc957873ddc4198e0696e3a59c04187ed816293b938416f5f356b774872,
  0x4171ea24b1752f1d419202e1a84ff01241a8f7a257878bbf41bb854f1c7c8ed041c98e129a73a92f41d49e9cb849ca4941dd78152f50989f41e2e2c6a10f278441e5e5ee6fe93f4741e71be1b6b1c42e41e649c8708dad1341e3b3af14cdda0141dff9ed09f634e641d7d69a28f49dd941d052ad1cc737d041c482c3bcc5504b41b79a8aecfeebcc41a8cea3596f4f694197b85f17fe59f34184881d1c325b36416ff7c208fbf2634156328404fbed2b413b33085fb2d391411cfe300000000040fa60185117f9aa40d3f01aa2d6ef4440a8148b35155fd94075cffa21bd3185403a61be6cfec9963ff0000000000000403a4491e34f47d940756fe81dcd60b940a7279de17a0dc540d296d9d8cb217740f79fac8688f94b4118b4cf0c9c4ee84135d41c99989a2b415098e502aef7694166039bfba7a67e4179b843755be237418aa8bdc6c8f3694198a380e92bce2141a45e68dc8fc7c641ae2b732f61782641b4032838478e8741b7bb512577ad6041b90ccdc961361741b75ebd00bc6adc41b30e1d6a09bcb341aaad5c6140d4fa419f1deda350a7dc418c91cfded712df4171ea24b1752f1d,
  0x4173b14838dfd32441931db347d7b1c241a98d67bc098d8b41bb1f5871e8a7c041c8376a65b44ca241d2c20bf39f8d4d41d9b1070c5960ce41df7f83df27b2ea41e16e5680e4655741e184d17e9d25f341e00d4408cfd91241dae27e0fe3078d41d49adfd022c09341ccea31789976dc41c28fc4f778c28441b5c4d505ad851241a743177ad36184419691499e0b6aba4183c7cc57e1b0ec416f214c8e157e184155cfae8a8d4cd3413aeca57e3355cb411cde2045cc02f140fa60185117f9aa40d3fec00000000040a82f0edd898d674075e7fe8a0ae835403a751f9447b7243ff0000000000000403a61be6cfec9964075a7f2b3843a7840a79089d70a5bb840d316ea27de211b40f8855b059479614119f7dbb113496a413747485f81be2b4151ff041941117d4168536b330b0b5b417d09e115edd8b4418ed7ac3c5f6db8419d4e0b1ca3340441a9002134d85e8b41b3310e636ea86241ba87f415c1b12a41c07fb1568d89be41c26a0e142ed6df41c25b7ba0ac63ce41c03990aed7064141b922acecd88c7541b0c1c89de5b2f841a2a8439d9d530841906299ab4b2aa74173b14838dfd324,
  0x4174d73106bd39b64193820a87149c3041a91c49ef9eaa3d41b9a0d8448a3a6d41c5f794cd08c45d41d04e81cafee3e441d55cf1297e023341d900377a84182041da5a6bb8124e7e41d9296339b0ebc441d5d75d000cfac041d146462253002a41c8ebe36362c6ba41c064a62bb266af41b3a4ccd0057a3e41a56476f2c6c832419519f39206970a4182c3f0d7c1b63b416de7be48adcc3041552dcd2b66963a413a6162ffffd454411c7e7dc9c57b2840fa2fb13736659140d3f01aa2d6ef4440a82f0edd898d674075f00000000000403a7ecad724e9853ff0000000000000403a751f9447b7244075cffa21bd318540a7dfa0d5b59a9740d37bafb7e97dc840f940c7cb7c8dfe411b08225031401b413889a2b1c9ae1a41533f1e67229384416a73ad51ac5d104180170ce25c9f544191760b6393175341a100149f17d2c841add20de683527241b79f8ddbcb36ed41c0ece8863d1cc041c5ef9194c19f9741c9ad6f85672ba941cb110271ace94141c99008806b04d141c576a67667909c41bfaaedd9895b4341b426f47328dcfc41a5764391b9ef974192101cb5f6a3954174d73106bd39b6,
  0x41753cd2c630c28e419324afb34189a641a7b180cf0e531d41b736f4820ee51d41c311b68f67a9ea41cb147db22f636a41d0eea67582c7b641d2df3657043a1c41d2e5eae9bc6a4e41d1180fa762c2a241cc071a13d28f5c41c4dd0e213d1aeb41bc37cd09b20c0041b152fc1a2c714841a346cba5bba493419360b33aaaa4554181856ffa492469416c5485bed604ee4154510daadbf4dd4139943f261df3a3411be0eca3a557cb40f9cf820e8753eb40d3c44a8b16581e40a8148b35155fd94075e7fe8a0ae835403a7ecad724e9853ff0000000000000403a7ecad724e9854075e7fe8a0ae83540a8148b35155fd940d3c44a8b16581e40f9cf820e8753eb411be0eca3a557cb4139943f261df3a34154510daadbf4dd416c5485bed604ee4181856ffa492469419360b33aaaa45541a346cba5bba49341b152fc1a2c714841bc37cd09b20c0041c4dd0e213d1aeb41cc071a13d28f5c41d1180fa762c2a241d2e5eae9bc6a4e41d2df3657043a1c41d0eea67582c7b641cb147db22f636a41c311b68f67a9ea41b736f4820ee51d41a7b180cf0e531d419324afb34189a641753cd2c630c28e,
  0x4174d73106bd39b64192101cb5f6a39541a5764391b9ef9741b426f47328dcfc41bfaaedd9895b4341c576a67667909c41c99008806b04d141cb110271ace94141c9ad6f85672ba941c5ef9194c19f9741c0ece8863d1cc041b79f8ddbcb36ed41add20de683527241a100149f17d2c84191760b639317534180170ce25c9f54416a73ad51ac5d1041533f1e67229384413889a2b1c9ae1a411b08225031401b40f940c7cb7c8dfe40d37bafb7e97dc840a7dfa0d5b59a974075cffa21bd3185403a751f9447b7243ff0000000000000403a7ecad724e9854075f0000000000040a82f0edd898d6740d3f01aa2d6ef4440fa2fb137366591411c7e7dc9c57b28413a6162ffffd45441552dcd2b66963a416de7be48adcc304182c3f0d7c1b63b419519f39206970a41a56476f2c6c83241b3a4ccd0057a3e41c064a62bb266af41c8ebe36362c6ba41d146462253002a41d5d75d000cfac041d9296339b0ebc441da5a6bb8124e7e41d900377a84182041d55cf1297e023341d04e81cafee3e441c5f794cd08c45d41b9a0d8448a3a6d41a91c49ef9eaa3d4193820a87149c304174d73106bd39b6,
  0x4173b14838dfd32441906299ab4b2aa741a2a8439d9d530841b0c1c89de5b2f841b922acecd88c7541c03990aed7064141c25b7ba0ac63ce41c26a0e142ed6df41c07fb1568d89be41ba87f415c1b12a41b3310e636ea86241a9002134d85e8b419d4e0b1ca33404418ed7ac3c5f6db8417d09e115edd8b44168536b330b0b5b4151ff041941117d413747485f81be2b4119f7dbb113496a40f8855b0594796140d316ea27de211b40a79089d70a5bb84075a7f2b3843a78403a61be6cfec9963ff0000000000000403a751f9447b7244075e7fe8a0ae83540a82f0edd898d6740d3fec00000000040fa60185117f9aa411cde2045cc02f1413aeca57e3355cb4155cfae8a8d4cd3416f214c8e157e184183c7cc57e1b0ec419691499e0b6aba41a743177ad3618441b5c4d505ad851241c28fc4f778c28441ccea31789976dc41d49adfd022c09341dae27e0fe3078d41e00d4408cfd91241e184d17e9d25f341e16e5680e4655741df7f83df27b2ea41d9b1070c5960ce41d2c20bf39f8d4d41c8376a65b44ca241bb1f5871e8a7c041a98d67bc098d8b41931db347d7b1c24173b14838dfd324,
  0x4171ea24b1752f1d418c91cfded712df419f1deda350a7dc41aaad5c6140d4fa41b30e1d6a09bcb341b75ebd00bc6adc41b90ccdc961361741b7bb512577ad6041b4032838478e8741ae2b732f61782641a45e68dc8fc7c64198a380e92bce21418aa8bdc6c8f3694179b843755be2374166039bfba7a67e415098e502aef7694135d41c99989a2b4118b4cf0c9c4ee840f79fac8688f94b40d296d9d8cb217740a7279de17a0dc540756fe81dcd60b9403a4491e34f47d93ff0000000000000403a61be6cfec9964075cffa21bd318540a8148b35155fd940d3f01aa2d6ef4440fa60185117f9aa411cfe3000000000413b33085fb2d3914156328404fbed2b416ff7c208fbf2634184881d1c325b364197b85f17fe59f341a8cea3596f4f6941b79a8aecfeebcc41c482c3bcc5504b41d052ad1cc737d041d7d69a28f49dd941dff9ed09f634e641e3b3af14cdda0141e649c8708dad1341e71be1b6b1c42e41e5e5ee6fe93f4741e2e2c6a10f278441dd78152f50989f41d49e9cb849ca4941c98e129a73a92f41bb854f1c7c8ed041a8f7a257878bbf419202e1a84ff0124171ea24b1752f1d,
  0x416f5f356b7748724187ed816293b9384198e0696e3a59c041a44fc957873ddc41ab90da6480af6241b003a942f0285441b0363b49f7503541ace91152b6b9f941a6db0ec7de8c6841a0145fbe70ec684194293d1ca328ec418682f0fcf96fec417653e56a5664024163952c2cd7b3f5414e2b95513f514941343815b98ca98e4117449a0d6aad8940f692c0a5dc2c8840d1fc9ec7a8f35040a6a552d23b5dc8407527da2f8373c3403a1d79241626a33ff0000000000000403a4491e34f47d94075a7f2b3843a7840a7dfa0d5b59a9740d3c44a8b16581e40fa2fb137366591411cde2045cc02f1413b33085fb2d391415653bf40000000417032519bb44c2b4184fe3e4de300b9419883c3a201b0c041a9f62c41feec6541b9100fe7c9cd6c41c624bc71f5ba8641d1f58b1d60df3d41dacc4d83a4b7b941e26ac59cd0abcd41e754f6a30a288a41eb3cfc77bd0b3241ed45eed00ea2cf41ece7e183eb5fc941ea2571b2f5ec3241e591b403ba8d1141e02079d3473f0c41d5aa4fdc16f81741c9d17807c6eb4f41bac64396498bba41a76c3b5f796f1a4190507b204d72a6416f5f356b774872,
  0x416a6dade22e956c41833db65431cde041930d2e8dffab1a419d8e2f33ef8ba141a2fff9c5f56c0c41a4d975f43bfd0a41a3dd75671c5de741a09b05de3662f94198815c394473b24190023a0e55b8a3418287379260c9654172f6d6638e81ec41611975a2d5179e414afeb6f9e63f2441327c05476f8ea74115adabc1ebafa340f562296404763640d14998f0570f8840a60a3d9dd655454074cfc8a5c43b104039ec474a2612633ff0000000000000403a1d79241626a340756fe81dcd60b940a79089d70a5bb840d37bafb7e97dc840f9cf820e8753eb411c7e7dc9c57b28413aeca57e3355cb4156328404fbed2b417032519bb44c2b41852615280000004198eb80bb503e9e41aaacd98e66d80141ba139a4246662f41c76027444661a441d346a8c7bbe35b41dd501715500e8541e4955812c63c8f41eab861daaa383341f008dc64af716c41f1c882cf86933741f233a4bf2c7d3841f12804f2261b9f41edb001cd3d6ab641e77855473df8ae41e0d8a0986377bb41d5c2df133975c741c8f8db5f21414941b8f8db5f21414941a517bcaf7fa202418c674a1ac36cde416a6dade22e956c,
  0x416568d39baf5dab417db089f9d48c70418bed5f4ad4ac0a419485b1b645e2d04198eb7c5d54dc904199bcb460cb691e4196fd46556aed324191efa129c0c38c41889400d5cea3a3417da471033197a7416f72d64e358867415d432d44c806d24147bf1c298628164130a962c04aacf04113f72a9ba8a90c40f411ff3450e65640d07f684d46a82340a557137871b484407467b3289945884039b0c25315c2cd3ff00000000000004039ec474a261263407527da2f8373c340a7279de17a0dc540d316ea27de211b40f940c7cb7c8dfe411be0eca3a557cb413a6162ffffd4544155cfae8a8d4cd3416ff7c208fbf2634184fe3e4de300b94198eb80bb503e9e41aaeaa69000000041ba989dbc5e6aea41c8246833d505c841d432e646dda7bc41df3b0fd479477e41e6596b4bc69c9841eda4b905cbb88c41f23a64e147843d41f4c8820166b21241f5f3bdd6c72ee641f57288ea5c09fd41f3562e3ab7068e41f00879109ff94941e85626deaa88ee41e0cbd96161180941d4e4a5d8e15cb241c71ea2aba88e4741b6528b67f2311941a239e7f58d7dc04187c06e6176d6c0416568d39baf5dab,
  0x4160aad155e37d974175f529363c7681418391336bc429ee418b28fdfd0ca6c0418f0a46d80e756d418e0df30985801a41890e5a2c70e314418226f3cef957664176f5fb41fee1244169625a5ff3556e41587b9175f2daf6414480af98f97061412d9421106f5858411228d66e485b3140f2a6d85fb1e15440cf3fd9adfcfc1b40a48cab4e005b964073ef994663b36140396aa1b6b0ec773ff00000000000004039b0c25315c2cd4074cfc8a5c43b1040a6a552d23b5dc840d296d9d8cb217740f8855b05947961411b08225031401b4139943f261df3a341552dcd2b66963a416f214c8e157e184184881d1c325b36419883c3a201b0c041aaacd98e66d80141ba989dbc5e6aea41c86704b800000041d4ac959aace19c41e0375682e8bd6a41e7991583f65b4041efe5e266264cad41f40a780836039241f76a1779e3c22a41f96cdf57deed5341f9a271bdf2cbf741f7f4ccbab020f041f4b2da0bbe7d3341f079d52de052a741e80bfb1046d41c41dff69a10dd8be241d32b7926e1d95241c47b30873aadfa41b31da4c27b08c7419e3580ca4e49b841831188d78559704160aad155e37d97,
  0x4158eb46c99c7a79416f19d17f7c0754417a2cde5f9fec79418118fd33c7f687418251a192e8882341808e005eb2cf294179a19a2684c796417123f72b1b4ccb4163dfda9b8690d74153f97c50884a2a414156b1f2d6fb2a4129d03796e0090a41104ae66e1f5e6d40f125bee493731c40cd5a8d06c900db40a3abff97e457944073677a6d823a444039198c8b8307c83ff000000000000040396aa1b6b0ec77407467b32899458840a60a3d9dd6554540d1fc9ec7a8f35040f79fac8688f94b4119f7dbb113496a413889a2b1c9ae1a4154510daadbf4dd416de7be48adcc304183c7cc57e1b0ec4197b85f17fe59f341a9f62c41feec6541ba139a4246662f41c8246833d505c841d4ac959aace19c41e06bb90ac0000041e83e9fb467bf9b41f0a91822ed4ffd41f555cd1b56e56a41f977ef91c5d89a41fc56b700abacdf41fd5fadfc35672141fc53f001227bec41f95ec535e9105741f50b23113dfbbc41f01b2e0144aac341e6a2f361197d5141dd039e9563d7bb41d0cd112327c17b41c15a1f724414dd41af587adeee994e4197fe76825298c4417d5f7ebf835c414158eb46c99c7a79,
  0x4151ded0f793a18b4165108268ad93644170af810321d0e241746f80a7d3cbb041746f80a7d3cbb0417125ff1a6d2d8c416882177906462c415e0c1cb44c194c414fac32b77770cf413ca624220c5d2041261af0676a1980410ccbc65c2552eb40ef284960fa78e140cb53aa895ba09040a2b630a23994904072cf55e37b0f354038bd171a07e38a3ff00000000000004039198c8b8307c84073ef994663b36140a557137871b48440d14998f0570f8840f692c0a5dc2c884118b4cf0c9c4ee8413747485f81be2b41533f1e67229384416c5485bed604ee4182c3f0d7c1b63b419691499e0b6aba41a8cea3596f4f6941b9100fe7c9cd6c41c76027444661a441d432e646dda7bc41e0375682e8bd6a41e83e9fb467bf9b41f0e75c9a20000041f6025e8b0f2b7e41fac6818ffdd68e41fe70d0568ef8ec42002a73c4aba0a942000718d337888b41fda041fed3425441f978b29b69a5ba41f4509e2df3846241edf1ffcbffcfb241e44ab7d8aeee2941d91cae833cbc8441cc1d0fc2b5734941bc1950e6c3381241a89626c9ead11041923ff51b6cfc774175af1cd52b26c94151ded0f793a18b,
  0x41488f7bcbb2dd97415b3f56351a64eb41643bf59bad54dc4167212fd250295f41657a3eb1014afd4160a2ec13ce54b64155cb886239dcc741484ab43e3a639b41370b94a82aaf1141228770fc5fb3aa410904f938cac34140ebefac0d4095cb40c930720f81dea340a1ac87593197d74072272ab892ba63403854bfb363dc393ff00000000000004038bd171a07e38a4073677a6d823a4440a48cab4e005b9640d07f684d46a82340f56229640476364117449a0d6aad894135d41c99989a2b4151ff041941117d416a73ad51ac5d104181856ffa492469419519f39206970a41a743177ad3618441b79a8aecfeebcc41c624bc71f5ba8641d346a8c7bbe35b41df3b0fd479477e41e7991583f65b4041f0a91822ed4ffd41f6025e8b0f2b7e41fb395476e0000041ff8ad0a721473442011d71d830ffd04201634a0f32133c42008560243b9d3541fd50f78f9a2e1141f83c5a1c3871fe41f29d0b332d520241ea751574ae636941e14f6321ba4cbf41d4b53a0add701241c66f66fab5a23d41b5b9067bf2ffff41a26e721b97e0f7418a8eb25c537f61416ea740fbbdb18841488f7bcbb2dd97,
  0x4140269facd5a36b4150cc44c3fb3d184157490f81337e884158b7575b9623d541552f6f7312fa24414e15c99483e2644141ea5900c039004131f891a5b7fb63411e4f14aaa88c38410552b7fb7af23040e8add3b3fe2c1940c6f6a363614d5640a09078bf7cfa8d40716ef7b61ca8ff4037dfea8e0922113ff0000000000000403854bfb363dc394072cf55e37b0f3540a3abff97e4579440cf3fd9adfcfc1b40f411ff3450e6564115adabc1ebafa341343815b98ca98e415098e502aef7694168536b330b0b5b4180170ce25c9f54419360b33aaaa45541a56476f2c6c83241b5c4d505ad851241c482c3bcc5504b41d1f58b1d60df3d41dd501715500e8541e6596b4bc69c9841efe5e266264cad41f555cd1b56e56a41fac6818ffdd68e41ff8ad0a721473442017132ca80000042021b01ad777b3b4201a0b07536dce942001434b8a2ef1341fb6f3868d1fcd941f5d70d447f632841f02ca94f68d52f41e632a107b7e24f41dc1405340ce49c41d040c99b248a5c41c10ef8110e29fb41b0042b55756c7e419a613850852b2a41827644fa8d66274164b7aa24e90f9e4140269facd5a36b,
  0x41344b68f0fbfdd74143b350eafc263e41495bb7136681f34148d88e4cc98ddf4143859460e781c2413933d8f76d0088412b03a27d3c7a814118164ac68ad9574101c5e3ca270d4f40e56f5fa23a76d340c4ac7e37623c5a409ec75475afa8614070a6bb44ce37bf40375ddc4efa914a3ff00000000000004037dfea8e0922114072272ab892ba6340a2b630a239949040cd5a8d06c900db40f2a6d85fb1e1544113f72a9ba8a90c41327c05476f8ea7414e2b95513f51494166039bfba7a67e417d09e115edd8b44191760b6393175341a346cba5bba49341b3a4ccd0057a3e41c28fc4f778c28441d052ad1cc737d041dacc4d83a4b7b941e4955812c63c8f41eda4b905cbb88c41f40a780836039241f977ef91c5d89a41fe70d0568ef8ec42011d71d830ffd042021b01ad777b3b420202cd7da000004200d58f27f6aa8841fd877787f5191341f84243339215cb41f29f4e03a75e4841eaa1b83c53037041e1aa5d15d7fcc941d59fdbf03489b241c840970cb3957141b8aec9042b474c41a67e3f3e1661574191fe98fe784ddf41787cc90d759ff3415abc801a5633e641344b68f0fbfdd7,
  0x4128519ac2d4cc8c4135ebaf20bca9c4413a0bac9c52bd544137648beb5994044130b5888389209541236a0b65add88241127f63b6c5cd4c40fcdd00982a669440e24137241af04240c258c218c5bc74409c4fedea80b939406f9ce68d3acf7a4036cdb2bbb212eb3ff000000000000040375ddc4efa914a40716ef7b61ca8ff40a1ac87593197d740cb53aa895ba09040f125bee493731c411228d66e485b314130a962c04aacf0414afeb6f9e63f244163952c2cd7b3f54179b843755be237418ed7ac3c5f6db841a100149f17d2c841b152fc1a2c714841c064a62bb266af41ccea31789976dc41d7d69a28f49dd941e26ac59cd0abcd41eab861daaa383341f23a64e147843d41f76a1779e3c22a41fc56b700abacdf42002a73c4aba0a94201634a0f32133c4201a0b07536dce94200d58f27f6aa8841fe42260640000041f98e32dba4222541f43e9b4d7bd50641ee0279f3f166cc41e4be3d9e3c153641daa193e9742cb141cf94a7187dd48041c12c2dd17bec2d41b0f69c98407d67419e089f7c230f7041875c0a441b44e5416eeddcf9a240d3415070c3588d7f534128519ac2d4cc8c,
  0x411bba48031f33b04127122085e3b363412920bb1c23f0164124844d8346931c411a60f5f1ed0649410b3e6d8737336240f6b67ef1eed94140de60b35343fdb140c002ae587f0cc34099beed563d3504406dcc39b92b8fda40362e5acd0c3ebd3ff00000000000004036cdb2bbb212eb4070a6bb44ce37bf40a09078bf7cfa8d40c930720f81dea340ef284960fa78e141104ae66e1f5e6d412d9421106f58584147bf1c2986281641611975a2d5179e417653e56a566402418aa8bdc6c8f369419d4e0b1ca3340441add20de683527241bc37cd09b20c0041c8ebe36362c6ba41d49adfd022c09341dff9ed09f634e641e754f6a30a288a41f008dc64af716c41f4c8820166b21241f96cdf57deed5341fd5fadfc35672142000718d337888b42008560243b9d3542001434b8a2ef1341fd877787f5191341f98e32dba4222541f4d009e680000041efd674c934bef441e6cf949c8d648c41de84650f4c2de341d2fa458b0a9c7041c5d29e9e75a16641b708f5878eaf5941a61aac5d80897041930635e660030f417ccb2125530b8c41628f72eef7a2ca414339c5c4e86ad2411bba48031f33b0,
  0x410e005d9aedf7c14116e1e9b76250974116a832b7ea8a824110a641fb369d1f41030726d5f545db40f1320a7619e53b40d8934e24def28140bb6403c2aa04e44097190ccb1fa7c3406bdb681680d6a140357e82ecdabe8c3ff000000000000040362e5acd0c3ebd406f9ce68d3acf7a409ec75475afa86140c6f6a363614d5640ebefac0d4095cb410ccbc65c2552eb4129d03796e0090a414480af98f97061415d432d44c806d24172f6d6638e81ec418682f0fcf96fec4198a380e92bce2141a9002134d85e8b41b79f8ddbcb36ed41c4dd0e213d1aeb41d146462253002a41dae27e0fe3078d41e3b3af14cdda0141eb3cfc77bd0b3241f1c882cf86933741f5f3bdd6c72ee641f9a271bdf2cbf741fc53f001227bec41fda041fed3425441fd50f78f9a2e1141fb6f3868d1fcd941f84243339215cb41f43e9b4d7bd50641efd674c934bef441e78a320a00000041e05253ea935e3c41d5273a63b26cfa41c98302c3face6841bc793f822df04641ad325605623b2e419b3d148f7e06bd4186cf452144e6034170ce9eba32c46e41551cbae58ee9cb4135528282273f75410e005d9aedf7c1,
  0x40feb51ad80f9f3041054ab20cf1dc774102f94b222a8f6e40f8c98aa926cc1f40e8c98aa926cc1f40d3333c4497756a40b6ddf5cf8994b8409463a7b8a201d94069ca6649d0180e4034bc876ba7f6ec3ff000000000000040357e82ecdabe8c406dcc39b92b8fda409c4fedea80b93940c4ac7e37623c5a40e8add3b3fe2c19410904f938cac34141261af0676a1980414156b1f2d6fb2a41587b9175f2daf6416f72d64e358867418287379260c9654194293d1ca328ec41a45e68dc8fc7c641b3310e636ea86241c0ece8863d1cc041cc071a13d28f5c41d5d75d000cfac041e00d4408cfd91241e649c8708dad1341ed45eed00ea2cf41f233a4bf2c7d3841f57288ea5c09fd41f7f4ccbab020f041f95ec535e9105741f978b29b69a5ba41f83c5a1c3871fe41f5d70d447f632841f29f4e03a75e4841ee0279f3f166cc41e6cf949c8d648c41e05253ea935e3c41d5ed1c0740000041cb8e4c4466533841c020c9753c52d141b17c784f6086b841a16ea1def70d0a418fa5a88be4253e4179cdced916e37e416286a1a26c548f4146b0837275074041265b3af3fdf44940feb51ad80f9f30,
  0x40ed9dec3bab574240f27b67e36ccbcb40ed47a9eb49bc0940e0bc20f0d0852d40ccb0387840e44e40b284ac8b711a3f4091a4d93498fe3c40679923933d8a494033e655eefe13673ff00000000000004034bc876ba7f6ec406bdb681680d6a14099beed563d350440c258c218c5bc7440e56f5fa23a76d3410552b7fb7af23041228770fc5fb3aa413ca624220c5d204153f97c50884a2a4169625a5ff3556e417da471033197a74190023a0e55b8a341a0145fbe70ec6841ae2b732f61782641ba87f415c1b12a41c5ef9194c19f9741d1180fa762c2a241d9296339b0ebc441e184d17e9d25f341e71be1b6b1c42e41ece7e183eb5fc941f12804f2261b9f41f3562e3ab7068e41f4b2da0bbe7d3341f50b23113dfbbc41f4509e2df3846241f29d0b332d520241f02ca94f68d52f41eaa1b83c53037041e4be3d9e3c153641de84650f4c2de341d5273a63b26cfa41cb8e4c4466533841c0ce622580000041b31c5cde04d7a541a42500cee05e2541938a1d3dc9c40b4181450a893f9cb8416b70aa033e4a5f41533543cf1200dc4136f381dbc3cc0f41161366c16c9e1640ed9dec3bab5742,
  0x40daca1b717fb7ab40ddb863069fa95340d49965da374cb740c42eda84be878c40acd5382b5953ed408dc74a6699e258406547863283db0f4032f9422c23c47d3ff00000000000004033e655eefe13674069ca6649d0180e4097190ccb1fa7c340c002ae587f0cc340e24137241af0424101c5e3ca270d4f411e4f14aaa88c3841370b94a82aaf11414fac32b77770cf4163dfda9b8690d74176f5fb41fee12441889400d5cea3a34198815c394473b241a6db0ec7de8c6841b4032838478e8741c07fb1568d89be41c9ad6f85672ba941d2e5eae9bc6a4e41da5a6bb8124e7e41e16e5680e4655741e5e5ee6fe93f4741ea2571b2f5ec3241edb001cd3d6ab641f00879109ff94941f079d52de052a741f01b2e0144aac341edf1ffcbffcfb241ea751574ae636941e632a107b7e24f41e1aa5d15d7fcc941daa193e9742cb141d2fa458b0a9c7041c98302c3face6841c020c9753c52d141b31c5cde04d7a541a520b5e60000004195ab315c5586e8418476fd8628516641719fac164cdea7415b4d73d9bf862f4142a548dfa204394125bfac1b893e2341046ec4148dc46940daca1b717fb7ab,
  0x40c69743875fecca40c5edf5f1f2341f40ba0e6119c6a60d40a546578634eb13408850640717e8154062d5646fbd87f84031f1c1799ca8fe3ff00000000000004032f9422c23c47d40679923933d8a49409463a7b8a201d940bb6403c2aa04e440de60b35343fdb140fcdd00982a66944118164ac68ad9574131f891a5b7fb6341484ab43e3a639b415e0c1cb44c194c417123f72b1b4ccb418226f3cef957664191efa129c0c38c41a09b05de3662f941ace91152b6b9f941b7bb512577ad6041c26a0e142ed6df41cb110271ace94141d2df3657043a1c41d900377a84182041df7f83df27b2ea41e2e2c6a10f278441e591b403ba8d1141e77855473df8ae41e85626deaa88ee41e80bfb1046d41c41e6a2f361197d5141e44ab7d8aeee2941e14f6321ba4cbf41dc1405340ce49c41d59fdbf03489b241cf94a7187dd48041c5d29e9e75a16641bc793f822df04641b17c784f6086b841a42500cee05e254195ab315c5586e84185a381200000004173e9950996ed504160b825e85e4e2b4149450cf59f48a54130d8b34e6a306e41133172f4212ee240f19f37eb90579940c69743875fecca,
  0x40b1a00aaaa7705f40ad547dbed83e82409d0a839c7c15194082f8344ba1fb5b40604275f7af69bc4030caf8960e710d3ff00000000000004031f1c1799ca8fe406547863283db0f4091a4d93498fe3c40b6ddf5cf8994b840d8934e24def28140f6b67ef1eed94141127f63b6c5cd4c412b03a27d3c7a814141ea5900c039004155cb886239dcc7416882177906462c4179a19a2684c79641890e5a2c70e3144196fd46556aed3241a3dd75671c5de741b0363b49f7503541b90ccdc961361741c25b7ba0ac63ce41c99008806b04d141d0eea67582c7b641d55cf1297e023341d9b1070c5960ce41dd78152f50989f41e02079d3473f0c41e0d8a0986377bb41e0cbd96161180941dff69a10dd8be241dd039e9563d7bb41d91cae833cbc8441d4b53a0add701241d040c99b248a5c41c840970cb3957141c12c2dd17bec2d41b708f5878eaf5941ad325605623b2e41a16ea1def70d0a41938a1d3dc9c40b418476fd862851664173e9950996ed504161dda460000000414d451f806084f9413597c299453af2411c1ef1861ea01d40ff4f55e4b5c6bf40dc1ba32c39e69240b1a00aaaa7705f,
  0x409930841fadb9304091773dcee75085407bab80805ed3e2405b1c62db2564fe402efbdeb14f4ed93ff00000000000004030caf8960e710d4062d5646fbd87f8408dc74a6699e25840b284ac8b711a3f40d3333c4497756a40f1320a7619e53b410b3e6d8737336241236a0b65add882413933d8f76d0088414e15c99483e2644160a2ec13ce54b6417125ff1a6d2d8c41808e005eb2cf29418e0df30985801a4199bcb460cb691e41a4d975f43bfd0a41b003a942f0285441b75ebd00bc6adc41c03990aed7064141c576a67667909c41cb147db22f636a41d04e81cafee3e441d2c20bf39f8d4d41d49e9cb849ca4941d5aa4fdc16f81741d5c2df133975c741d4e4a5d8e15cb241d32b7926e1d95241d0cd112327c17b41cc1d0fc2b5734941c66f66fab5a23d41c10ef8110e29fb41b8aec9042b474c41b0f69c98407d6741a61aac5d808970419b3d148f7e06bd418fa5a88be4253e4181450a893f9cb841719fac164cdea74160b825e85e4e2b414d451f806084f9413767f3000000004120dd877ab1b4624105770984e22b6640e75e3d1f9ce28a40c485b56cb631cf409930841fadb930,
  0x4080427fcecc7dc9407209e0d8506b3f40556edb65e9fc4a402c0000000000003ff0000000000000402efbdeb14f4ed940604275f7af69bc408850640717e81540acd5382b5953ed40ccb0387840e44e40e8c98aa926cc1f41030726d5f545db411a60f5f1ed06494130b588838920954143859460e781c241552f6f7312fa2441657a3eb1014afd41746f80a7d3cbb0418251a192e88823418f0a46d80e756d4198eb7c5d54dc9041a2fff9c5f56c0c41ab90da6480af6241b30e1d6a09bcb341b922acecd88c7541bfaaedd9895b4341c311b68f67a9ea41c5f794cd08c45d41c8376a65b44ca241c98e129a73a92f41c9d17807c6eb4f41c8f8db5f21414941c71ea2aba88e4741c47b30873aadfa41c15a1f724414dd41bc1950e6c3381241b5b9067bf2ffff41b0042b55756c7e41a67e3f3e166157419e089f7c230f7041930635e660030f4186cf452144e6034179cdced916e37e416b70aa033e4a5f415b4d73d9bf862f4149450cf59f48a5413597c299453af24120dd877ab1b4624107c0a00000000040ed8f000000000040cf7ad23dafaa8d40ab0ed14478a0df4080427fcecc7dc9,
  0x406295245a0e469d404eec5ce089dc6d40287eb1990b697a3ff0000000000000402bffffffffffff405b1c62db2564fe4082f8344ba1fb5b40a546578634eb1340c42eda84be878c40e0bc20f0d0852d40f8c98aa926cc1f4110a641fb369d1f4124844d8346931c4137648beb5994044148d88e4cc98ddf4158b7575b9623d54167212fd250295f41746f80a7d3cbb0418118fd33c7f687418b28fdfd0ca6c0419485b1b645e2d0419d8e2f33ef8ba141a44fc957873ddc41aaad5c6140d4fa41b0c1c89de5b2f841b426f47328dcfc41b736f4820ee51d41b9a0d8448a3a6d41bb1f5871e8a7c041bb854f1c7c8ed041bac64396498bba41b8f8db5f21414941b6528b67f2311941b31da4c27b08c741af587adeee994e41a89626c9ead11041a26e721b97e0f7419a613850852b2a4191fe98fe784ddf41875c0a441b44e5417ccb2125530b8c4170ce9eba32c46e416286a1a26c548f41533543cf1200dc4142a548dfa204394130d8b34e6a306e411c1ef1861ea01d4105770984e22b6640ed8effffffffff40d1fe000000000040b2c0fff92cbcc1408f91497a8cbbaf406295245a0e469d,
  0x4042350738f34edf402432f24fb01c7a3ff000000000000040287eb1990b697a40556edb65e9fc4a407bab80805ed3e2409d0a839c7c151940ba0e6119c6a60d40d49965da374cb740ed47a9eb49bc094102f94b222a8f6e4116a832b7ea8a82412920bb1c23f016413a0bac9c52bd5441495bb7136681f34157490f81337e8841643bf59bad54dc4170af810321d0e2417a2cde5f9fec79418391336bc429ee418bed5f4ad4ac0a41930d2e8dffab1a4198e0696e3a59c0419f1deda350a7dc41a2a8439d9d530841a5764391b9ef9741a7b180cf0e531d41a91c49ef9eaa3d41a98d67bc098d8b41a8f7a257878bbf41a76c3b5f796f1a41a517bcaf7fa20241a239e7f58d7dc0419e3580ca4e49b84197fe76825298c441923ff51b6cfc77418a8eb25c537f6141827644fa8d662741787cc90d759ff3416eeddcf9a240d341628f72eef7a2ca41551cbae58ee9cb4146b083727507404136f381dbc3cc0f4125bfac1b893e2341133172f4212ee240ff4f55e4b5c6bf40e75e3d1f9ce28a40cf7ad23dafaa8d40b2c0fff92cbcc14093240000000000406f8f9a9c832c7f4042350738f34edf,
  0x401cd82b446159f33ff0000000000000402432f24fb01c7a404eec5ce089dc6d407209e0d8506b3f4091773dcee7508540ad547dbed83e8240c5edf5f1f2341f40ddb863069fa95340f27b67e36ccbcb41054ab20cf1dc774116e1e9b76250974127122085e3b3634135ebaf20bca9c44143b350eafc263e4150cc44c3fb3d18415b3f56351a64eb4165108268ad9364416f19d17f7c07544175f529363c7681417db089f9d48c7041833db65431cde04187ed816293b938418c91cfded712df41906299ab4b2aa74192101cb5f6a395419324afb34189a64193820a87149c3041931db347d7b1c2419202e1a84ff0124190507b204d72a6418c674a1ac36cde4187c06e6176d6c041831188d7855970417d5f7ebf835c414175af1cd52b26c9416ea740fbbdb1884164b7aa24e90f9e415abc801a5633e6415070c3588d7f53414339c5c4e86ad24135528282273f7541265b3af3fdf44941161366c16c9e1641046ec4148dc46940f19f37eb90579940dc1ba32c39e69240c485b56cb631cf40ab0ed14478a0df408f91497a8cbbaf406f8f9a9c832c7f4049800000000000401cd82b446159f3,
  0x3ff0000000000000401cd82b446159f34042350738f34edf406295245a0e469d4080427fcecc7dc9409930841fadb93040b1a00aaaa7705f40c69743875fecca40daca1b717fb7ab40ed9dec3bab574240feb51ad80f9f30410e005d9aedf7c1411bba48031f33b04128519ac2d4cc8c41344b68f0fbfdd74140269facd5a36b41488f7bcbb2dd974151ded0f793a18b4158eb46c99c7a794160aad155e37d97416568d39baf5dab416a6dade22e956c416f5f356b7748724171ea24b1752f1d4173b14838dfd3244174d73106bd39b641753cd2c630c28e4174d73106bd39b64173b14838dfd3244171ea24b1752f1d416f5f356b774872416a6dade22e956c416568d39baf5dab4160aad155e37d974158eb46c99c7a794151ded0f793a18b41488f7bcbb2dd974140269facd5a36b41344b68f0fbfdd74128519ac2d4cc8c411bba48031f33b0410e005d9aedf7c140feb51ad80f9f3040ed9dec3bab574240daca1b717fb7ab40c69743875fecca40b1a00aaaa7705f409930841fadb9304080427fcecc7dc9406295245a0e469d4042350738f34edf401cd82b446159f33ff0000000000000]

/-- The coefficients for `2 ell = 53`: one number for each of the 54 values of `mp`, consisting of the doubles for the 54 values of `m`. -/
def wigner53 : List Nat := [
  0x3ff0000000000000401d1ed52076fbe940428f8ac4cd992a406321c7074cae5b4080e91087459169409a780ecf5299bf40b2b7657e26738240c83fb7f506787a40dd12cb09aecfb540f040a5d8b1b0d841010bb96984d9a44110d9d9fb820991411f867a26c2203f412bfe357fdb05a24137a88d50a119cf414312f2c64cba9b414d6520f79a501d4155aedc62082005415eaa1a4c46ef484164cf3e645957d5416b21e0426038f54171018ee5803f7c41748296b73dcea94177cfb80982cbc8417a9f388d991a3b417cac37b2056df7417dc14dc29d5ce2417dc14dc29d5ce2417cac37b2056df7417a9f388d991a3b4177cfb80982cbc841748296b73dcea94171018ee5803f7c416b21e0426038f54164cf3e645957d5415eaa1a4c46ef484155aedc62082005414d6520f79a501d414312f2c64cba9b4137a88d50a119cf412bfe357fdb05a2411f867a26c2203f4110d9d9fb82099141010bb96984d9a440f040a5d8b1b0d840dd12cb09aecfb540c83fb7f506787a40b2b7657e267382409a780ecf5299bf4080e91087459169406321c7074cae5b40428f8ac4cd992a401d1ed52076fbe93ff0000000000000,
  0x401d1ed52076fbe9404a000000000000407040ccc7c27e3840906cc25b7a11d940ac745fa9e5dc2040c5d0942a0bb8be40de353ff305f78740f327001b918462410676b29d39cfa041188e99280a685d41292b96c775c30541384dcea9b4be7541463165aa27f73e415339c5c4e86ad2415faf54c62d62434168e3e2133d9c104172aca89fd704f4417ace39735d725041826d89e1cea27741884be6f7693b45418ebf3ce9138e2b4192b00ec31c2b594195d57c13e63e93419887d5dc0200f8419a8308a48eb749419b91cb82d2f466419b96a404233f02419a910fb821f0d241989d9a4717c7ee4195f0db03c58edb4192ce8a5bdf6724418efd764dcaed77418887136014f8e54182a2727dbe46a6417b27a7c939605c4172f4534ea8a71b416950fd5ebbcf854160269facd5a36b4153a66f1ca9e6ff4146bf8511902c4b4138fe4de66157ab4129fb644a5440ac4119761574d5bb5641076a09486d8bbd40f41794951fc9c040dff2c523e0713f40c750debd633cfe40aed9c97aeadc1d40922dd0cdb46f49407295245a0e469d404f89233efeda98402465655f122ff63ff0000000000000401d1ed52076fbe9,
  0x40428f8ac4cd992a407040ccc7c27e384093ec000000000040b3bacdec97f54d40d0bdbfe895b0b340e92273e8fe1b5e41010844afc0a68b411520c2ca3fd4a041283aece3e678734139e2db045626424149ea61bc40240f41586d823283e2864165c31177cd30e84172618a481c1964417d841fb49f9f9b41869388d72f897e41907b0a147641ca4196ffd8152f6385419eb813835276f241a3a7c547f8504041a81eb50110684141ac674a1ac36cde41b00eb49b77108841b170777f95376841b232a9f5bc3cfc41b23f7f6a40f56b41b195915dafa8b141b0481e4d43d51641acf7136393ceb241a8bdf26da1593941a449265e43a3e8419fe85ea0476e7941980d23e93e415941915beafed390da4187f6fe39a1c04f417f98c39d045d164173dc1b4bfea8d44167c17f89e41e41415af9d84f69f638414cff8f6e161612413d68dd402cf56d412c0672e7b493e64118f781ccc112564104a9df5d1de13740ef85e9b1ee979640d5edf5f1f2341f40bb6f8ce5fb53eb409e406ad7108c74407c8581b6afc7e84055ddb6bcd869674028bd171a07e38a3ff0000000000000402465655f122ff640428f8ac4cd992a,
  0x406321c7074cae5b40906cc25b7a11d940b3bacdec97f54d40d324000000000040efce55a762e83641075e3d1f9ce28a411efb672a91e8f14132c9ff155278f141450ee02204bc894155f95eb337e875416579ab54ffb1b74173bfa97ba793da41812757da841df5418c3bfcb4065ab24196129b54e39a5641a06d3aa3c6026341a7510f3ecfbaa941af9c115310ec2441b47d2052ee58e241b96cb674b1cc9641be3987a7d68a0741c138dde954ba4441c2d2cc163d447941c3bd07ccdb6c4f41c3dc838a5ea10341c32dafca2df20841c1c5209b4abe5541bf975669686ed141baedf1858a984e41b600c30be87b7341b138555edbad0e41a9cbbc4657f2c541a278dd8075b744419942d9bad21645419077dee8ad58e141846f80a7d3cbb041781562886e6ac6416ae33d6669c71b415c59f54abb1b8d414c21e94c835145413a27660a7710a54126a832b7ea8a8241122a81242467e440faba92d2cc320440e1d6e581cd0cd240c546578634eb1340a62e343580b9f2408390cad22e3397405bab80805ed3e2402c48c6001f0abf3ff00000000000004028bd171a07e38a404f89233efeda98406321c7074cae5b,
  0x4080e9108745916940ac745fa9e5dc2040d0bdbfe895b0b340efce55a762e8364109dd2000000000412296d77ff1255d4138192f0899c99f414c908a11c582e7415f450aaf31cff8416fda5c7e0a1c8c417e5ee0e13fe2ec418b3b0a8aedb62641970bc83fed510941a277a305a9822d41ac180c5a0fb2a641b453b49a05860241bc074bd58d7ddd41c2709d17701ccc41c72e2ed683e05f41cbdda66c9a67ad41d00771e4e6071f41d1a86eb6fa2e6d41d2a25da928755541d2d797e5bdcd4841d241e1e99b1e3041d0f397473168d841ce282009ac69f541c9b06724af50c841c4f23ac55f1fb741c0561cc28a582041b85a5332bdbb2d41b154119d96ac5441a782dce1f9ad28419e5dae7953ad664192a1b698312f8c4185acd8adfcf9b24177d76b6e77184d4168b7575b9623d541580e94ec2ddd994145e1c5b9e860be41327e5c9bb394ef411cd6726bf370ce41048d71f75e89e340ea75cd5d01353940ce4647c71dcb5240ae164a62b0bd85408918278802049a40609a19e69f4bee402f4e115049ec253ff0000000000000402c48c6001f0abf4055ddb6bcd86967407295245a0e469d4080e91087459169,
  0x409a780ecf5299bf40c5d0942a0bb8be40e92273e8fe1b5e41075e3d1f9ce28a412296d77ff1255d413a20b00000000041508cf2ab3836d94163296687eb6f1f41747a16e34fa4a3418459a15db2b40b4192eb020840880d41a086f3fe8bdf2641ab3d148f7e06bd41b53cad6d8b258b41bf68f452fe128e41c613b17d13127641cd8bcfec649b0a41d2d96c4f1b81e941d6f4604c0ba20c41dab44865bfe12441ddb29ff748491141df96653c2dd2e441e0125c76fbd4f441df4c5eb509ea9c41dd2915befb130841d9fde93c0d6def41d62809c055515741d20da92174ecf141cc1a2f975b19de41c4dfb506ebc50241bd8fa1c18c9f7841b3ed6177560ce241a9890716aa06f5419f0a46d80e756d4191dae314bc5a794183630a02aa7b594173cd219e17b99a4162f2de383854ed4150e807e8ae7d7c413bf5aea32255de4125446936b65091410d7a5b139a1b4240f261fac945a70840d44925ef00782740b35778f64d0c1e408ec14cfb09f31f40633d170d8343764030f876ccdf6cd93ff0000000000000402f4e115049ec25405bab80805ed3e2407c8581b6afc7e840922dd0cdb46f49409a780ecf5299bf,
  0x40b2b7657e26738240de353ff305f78741010844afc0a68b411efb672a91e8f14138192f0899c99f41508cf2ab3836d941647af4a000000041772598c0cfec7d418821dc9288d3dc4197621e36d7648e41a52e29a0e747ce41b20442541ecc9e41bce4118d6ced2a41c5e6499fd9909741cf76e6fc1f2ccb41d576fb6f65e7ce41dbdb3b04212ce041e137483908b98941e44a08235f62f241e6d10fbe3567b941e87fd874bd48be41e920b02d36e11141e89f77aee68e7b41e70daaf776fae441e49e9cb849ca4941e19cfb9fb6dea941dcb9046057ac7f41d657036760a29c41d08f36f66ea9f441c75ebd00bc6adc41bf5aaf8a91afea41b3f63ac821b25341a8132b372f5bf4419b6f952c273c83418d75942f148493417db3b26d239668416c00d59212b22b4158907bac45f44a4143eca22187661a412da7de4fedbe3741140d0a37715a4c40f8516d074fac8e40d9ff429debceef40b7e82f0ee0be4140923c4b0551ee104065bf43aa6c8e684032236b5fbe77113ff00000000000004030f876ccdf6cd940609a19e69f4bee408390cad22e3397409e406ad7108c7440aed9c97aeadc1d40b2b7657e267382,
  0x40c83fb7f506787a40f327001b918462411520c2ca3fd4a04132c9ff155278f1414c908a11c582e74163296687eb6f1f41772598c0cfec7d418985c6400000004199f1a1e83951d141a87e7b660449a741b59a451004c97941c1e113cd7167d241cbdfc5e5c7a20a41d486705ad408f441dc9f56ba29030f41e2ef2bb801616f41e7cdf0d321735b41ec79709ac0b28a41f0382a5ed9d17441f19c64dead2de541f23c00e5777c5741f202647d76af3641f0f80485db141141ee80de1643d10641ea2571b2f5ec3241e55cf1297e023341e0a08ac24864e841d8a1fcf9e6828741d158980dff7a2041c7311a4aceff6941bd62ef029a34eb41b19bc6fa6ed0bb41a3e8cc249fdb7041952d1df972001241851d262bf996e24173a676f0c20f224160fb8971c49743414b15e7ea2dfffa4133c5b9f0535ad8411a28da20eb952740fef3d27d27d06540e016a0467c539640bcaa53d4d1d0ad409516aa9fe04d8b406820e96efcc87340332eee757704163ff00000000000004032236b5fbe771140633d170d834376408918278802049a40a62e343580b9f240bb6f8ce5fb53eb40c750debd633cfe40c83fb7f506787a,
  0x40dd12cb09aecfb5410676b29d39cfa041283aece3e6787341450ee02204bc89415f450aaf31cff841747a16e34fa4a3418821dc9288d3dc4199f1a1e83951d141a9b2295600000041b79f1f49cd888941c445226357857841d04f70fea9234c41d8b39fbfab69f841e1a77550b3f8d941e7df6c4a3a788841ee98f6ab427d6041f29d077fecdef341f585d4a52d671841f7ac812776c08541f8c9708ef728f341f8b6bfc4d07bfb41f77855473df8ae41f53abde60ca5bb41f249406ae4aa5141edfc3cda0f974541e762dac2d62bd541e155c07826cb8a41d865b98ca860d541d046ace19f5f3641c48d60fb96fa1641b8828f75fff21341ab8986251a4b01419d0f4a44df2d33418cb37a127e996d417a6a4f1a5457da41668915873912f94151b49edb9a01d941396a2fde13f6a241207dc5872a3b9b4103175d9aeb5cdb40e35cb1857fa44240c0c5f6ea689d324097e89694bc58f2406a6232dd9e99da40341fe68f0af33c3ff000000000000040332eee757704164065bf43aa6c8e68408ec14cfb09f31f40ae164a62b0bd8540c546578634eb1340d5edf5f1f2341f40dff2c523e0713f40dd12cb09aecfb5,
  0x40f040a5d8b1b0d841188e99280a685d4139e2db045626424155f95eb337e875416fda5c7e0a1c8c418459a15db2b40b4197621e36d7648e41a87e7b660449a741b79f1f49cd888941c520b5e600000041d1a060b504526041db8e4c4466533841e440afa85144ce41ec125ba3fe123941f263067932845341f6ce58a8879ce541fad28293fe317541fdf1ffcbffcfb241ffc3052107f342420002ff22e31e8641feb3779df5c58441fbfd5af850821741f84340d782479541f3fd7de6b50f8341ef4a244520df2a41e73dc8abdb31c941e05dc2730f011841d5d258996956cb41cb7f7ce596903d41c0570a4eaaa16241b244c7fc146c8541a3281c7deb174c4192c598cc81663041811d304fbde882416ce07afa4a89a14156655ca364ace2413fac32b77770cf412434b871c5b2d04106f1e1ea1c375d40e6c4860cddb49b40c33e00657199b8409aabcd4f2576a2406c833a3406f3844034f9e6bbc4ecb33ff000000000000040341fe68f0af33c406820e96efcc87340923c4b0551ee1040b35778f64d0c1e40ce4647c71dcb5240e1d6e581cd0cd240ef85e9b1ee979640f41794951fc9c040f040a5d8b1b0d8,
  0x41010bb96984d9a441292b96c775c3054149ea61bc40240f416579ab54ffb1b7417e5ee0e13fe2ec4192eb020840880d41a52e29a0e747ce41b59a451004c97941c445226357857841d1a060b504526041dc920d3fc0000041e5acf52264fc5441eee57265f1530041f4be3d9e3c153641fa4bf5725f443341ff87a28ccd4af64201e6df5100c946420345bd44c3bda24203af3489534fa94203154cc7975ea0420190398c6b34d441feb0aed97f04ab41f9726adb31293741f4034dc7fb818e41edd55ed441654a41e50d4063958e4341dc169a2a81caa841d1af6a8c8a9c0b41c4f982bb5dae8f41b75e8f0067607941a862ca4ebf727b4197bea71421f6b741857a5923c4a09f4171f3078cc3b300415b887417a24be4414337e435da4eff412828b0dbba2529410af8cb2cfdea9740ea40a1f472caef40c5b5477bf84e81409d5ad027a2c720406e8410841c900f4035bfa1d602241b3ff00000000000004034f9e6bbc4ecb3406a6232dd9e99da409516aa9fe04d8b40b7e82f0ee0be4140d44925ef00782740ea75cd5d01353940faba92d2cc32044104a9df5d1de13741076a09486d8bbd41010bb96984d9a4,
  0x4110d9d9fb82099141384dcea9b4be7541586d823283e2864173bfa97ba793da418b3b0a8aedb62641a086f3fe8bdf2641b20442541ecc9e41c1e113cd7167d241d04f70fea9234c41db8e4c4466533841e5acf52264fc5441efe485dc00000041f604fd5c96636541fc9cf42d86e58742018844de57060e42044be0de59285e420639757040190e42070a31670eb4fd4206a0929418dcd142050f082b60e03e420292f150d6206341ff0b83c548bc3841f89232a70dacb541f267652d68468241ea102aaa4031c641e16c5d68c195ef41d5f49cb3683b4241ca0577595f16d341bceeb5fe49467f41ae163185ecf088419d27238c13b336418a33ec02f2fb134175b9ea3f98c8ea41608197f7a4585c4146c9969812b788412c46f06ed97287410f1a6d47a8724f40edc39604e8371940c8244ce42e8e05409ff0c45fd55f2540703260b0b3a6914036732f8d0e2f763ff00000000000004035bfa1d602241b406c833a3406f3844097e89694bc58f240bcaa53d4d1d0ad40d9ff429debceef40f261fac945a70841048d71f75e89e341122a81242467e44118f781ccc112564119761574d5bb564110d9d9fb820991,
  0x411f867a26c2203f41463165aa27f73e4165c31177cd30e841812757da841df541970bc83fed510941ab3d148f7e06bd41bce4118d6ced2a41cbdfc5e5c7a20a41d8b39fbfab69f841e440afa85144ce41eee57265f1530041f604fd5c96636541fd6cbe8c80000042027b0d0b0012b84205dddadf9cd64b420868f4c34118584209bd24fe88fd7a4209a828f072cb2d42083085434c6e414205931eb103c5da420233a4bf2c7d3841fd0a3823ec0b0141f5e3c0eea0892f41ef26c3b4dfa42a41e4e5a27801a0cc41da63229319d0e741cf4b9531dba86141c162e11bb2ebc441b20ae550e3b40941a16c141b1399df418f2a6e587193694179ad7b223956e541635af29e74e787414a78063ed368da41303d942af2b52e4111a2458f33a69040f0a0189fedc35a40ca8411158cf9d740a134ade891e62d407112aa755a548a403716380ce703993ff00000000000004036732f8d0e2f76406e8410841c900f409aabcd4f2576a240c0c5f6ea689d3240e016a0467c539640f8516d074fac8e410d7a5b139a1b42411cd6726bf370ce4126a832b7ea8a82412c0672e7b493e64129fb644a5440ac411f867a26c2203f,
  0x412bfe357fdb05a2415339c5c4e86ad24172618a481c1964418c3bfcb4065ab241a277a305a9822d41b53cad6d8b258b41c5e6499fd9909741d486705ad408f441e1a77550b3f8d941ec125ba3fe123941f4be3d9e3c153641fc9cf42d86e58742027b0d0b0012b8420669e347000000420992b0bd6b635e420b7d7b0fcf8353420bdf3031f4141d420aabf7518b652c4208193d85d33cfe42048f1f926a8f9942008e76800135bf41f9283c540ff09041f203c8e6827f8641e849a836d1c67c41dec66cf0a2e01541d2498edd89b6e441c4554d75c253aa41b5161770a3992241a451bb2f0acb3641921c7faba12d5d417db2da45416dbe41663e94d44a451a414e2e69fa72e59241325808ffad8c264113b25f5368845840f254d5e4dd1e3640ccce1460e687cc40a2606185159a224071e2e87d9e97104037aa10d193c22c3ff0000000000000403716380ce7039940703260b0b3a691409d5ad027a2c72040c33e00657199b840e35cb1857fa44240fef3d27d27d06541140d0a37715a4c4125446936b6509141327e5c9bb394ef413a27660a7710a5413d68dd402cf56d4138fe4de66157ab412bfe357fdb05a2,
  0x4137a88d50a119cf415faf54c62d6243417d841fb49f9f9b4196129b54e39a5641ac180c5a0fb2a641bf68f452fe128e41cf76e6fc1f2ccb41dc9f56ba29030f41e7df6c4a3a788841f263067932845341fa4bf5725f443342018844de57060e4205dddadf9cd64b420992b0bd6b635e420c18da2a600000420d0ab22a2881d8420c4466d34dabcd4209ec498b1dcadf4206675b0dbd83f042023e8f0234b38b41fbfc4f5506fb3e41f432d7cadc90e041eb67ce1d27721641e172a5be9f59c841d4cec9b3a0e6ca41c72ef544b7343741b80eff3ff1a0d841a72ae2d5477e7141949b84aedbbca34180d6698ae189e8416919954f2aae464150eb850b314af54134680262a51aa44115b46c792b880f40f3f9e621ac92a340cefc56fe5c6f7e40a379c9ad5943074072a31cf2a8a56640382fd05f1298383ff00000000000004037aa10d193c22c407112aa755a548a409ff0c45fd55f2540c5b5477bf84e8140e6c4860cddb49b4103175d9aeb5cdb411a28da20eb9527412da7de4fedbe37413bf5aea32255de4145e1c5b9e860be414c21e94c835145414cff8f6e1616124146bf8511902c4b4137a88d50a119cf,
  0x414312f2c64cba9b4168e3e2133d9c1041869388d72f897e41a06d3aa3c6026341b453b49a05860241c613b17d13127641d576fb6f65e7ce41e2ef2bb801616f41ee98f6ab427d6041f6ce58a8879ce541ff87a28ccd4af642044be0de59285e420868f4c3411858420b7d7b0fcf8353420d0ab22a2881d8420cd148c9000000420ae155383e491342079449a217d0f4420373aee8844abf41fe2c27409ef2ba41f5fbf289b6302c41ee105e9cb68ed341e343274026bbbe41d7158a63b00df341c9cf1136028ef041bad6a61c42fd6641a9dcb910cde3494196fd1647d374b34182be8c65021690416bd88b68c3ca474152adf91b1ce181413662c2f5d901da41179f9d1a8656b640f589842e85d3d440d084ac8ae3d11740a47f63e4b3df08407353497475459a4038a85c24f706593ff000000000000040382fd05f1298384071e2e87d9e971040a134ade891e62d40c8244ce42e8e0540ea40a1f472caef4106f1e1ea1c375d41207dc5872a3b9b4133c5b9f0535ad84143eca22187661a4150e807e8ae7d7c41580e94ec2ddd99415c59f54abb1b8d415af9d84f69f6384153a66f1ca9e6ff414312f2c64cba9b,
  0x414d6520f79a501d4172aca89fd704f441907b0a147641ca41a7510f3ecfbaa941bc074bd58d7ddd41cd8bcfec649b0a41dbdb3b04212ce041e7cdf0d321735b41f29d077fecdef341fad28293fe31754201e6df5100c946420639757040190e4209bd24fe88fd7a420bdf3031f4141d420c4466d34dabcd420ae155383e49134207fba5d6700000420414e12bfe60eb41ff8e1ce7d24ed341f73fdc2055e94341f00c619e70476541e4ba316b6769b641d8ff82750bad5341cc15e7d152e62241bd4ea7a4349eec41ac4cae8761936541992c23735940ea418482c78d652b69416e6845ffcdce32415453cfd482527b41383de861802af541196b90e511ee1d40f6fe509e9130dd40d1780d61fbca2840a56fda1f375a524073f36f40b4a1154039147284a414473ff00000000000004038a85c24f706594072a31cf2a8a56640a2606185159a2240ca8411158cf9d740edc39604e83719410af8cb2cfdea97412434b871c5b2d041396a2fde13f6a2414b15e7ea2dfffa4158907bac45f44a4162f2de383854ed4168b7575b9623d5416ae33d6669c71b4167c17f89e41e414160269facd5a36b414d6520f79a501d,
  0x4155aedc62082005417ace39735d72504196ffd8152f638541af9c115310ec2441c2709d17701ccc41d2d96c4f1b81e941e137483908b98941ec79709ac0b28a41f585d4a52d671841fdf1ffcbffcfb2420345bd44c3bda242070a31670eb4fd4209a828f072cb2d420aabf7518b652c4209ec498b1dcadf42079449a217d0f4420414e12bfe60eb4200039b18c0000041f7e7d04aed0bee41f0afb105bd324f41e5c19ab2e4196a41da724bf4a4ea8e41cde6f4694837ae41bf5b0c71fba93241ae61e952fffd59419b14bebda74cdf418614c824ac243a41705b3eebc1e1f24155d2d3d989a2494139efaa85e85c42411b107b1b7cfb0740f8535e1888096840d2560e0f0806d240a649ff314303854074838f4cf9a2bc403974b2334f23463ff00000000000004039147284a41447407353497475459a40a379c9ad59430740ccce1460e687cc40f0a0189fedc35a410f1a6d47a8724f412828b0dbba2529413fac32b77770cf4151b49edb9a01d94160fb8971c49743416c00d59212b22b4173cd219e17b99a4177d76b6e77184d41781562886e6ac64173dc1b4bfea8d4416950fd5ebbcf854155aedc62082005,
  0x415eaa1a4c46ef4841826d89e1cea277419eb813835276f241b47d2052ee58e241c72e2ed683e05f41d6f4604c0ba20c41e44a08235f62f241f0382a5ed9d17441f7ac812776c08541ffc3052107f3424203af3489534fa94206a0929418dcd142083085434c6e414208193d85d33cfe4206675b0dbd83f0420373aee8844abf41ff8e1ce7d24ed341f7e7d04aed0bee41f0e75c9a20000041e64977e02fc7f541db596e590bf0a841cf2adf05b32cdb41c07202a3c3b37641b00351babfb1db419ca515d0953c07418767911d18d74a4171593ead67f317415721a8e735441f413b6f14ff6912db411c8742969ab19340f9843c0354777640d31cae99e009cf40a70ccbeb1ebf60407503aa58c681f74039c99fc141b4303ff0000000000000403974b2334f23464073f36f40b4a11540a47f63e4b3df0840cefc56fe5c6f7e40f254d5e4dd1e364111a2458f33a690412c46f06ed97287414337e435da4eff4156655ca364ace241668915873912f94173a676f0c20f22417db3b26d2396684183630a02aa7b594185acd8adfcf9b241846f80a7d3cbb0417f98c39d045d164172f4534ea8a71b415eaa1a4c46ef48,
  0x4164cf3e645957d541884be6f7693b4541a3a7c547f8504041b96cb674b1cc9641cbdda66c9a67ad41dab44865bfe12441e6d10fbe3567b941f19c64dead2de541f8c9708ef728f3420002ff22e31e864203154cc7975ea042050f082b60e03e4205931eb103c5da42048f1f926a8f9942023e8f0234b38b41fe2c27409ef2ba41f73fdc2055e94341f0afb105bd324f41e64977e02fc7f541dba7f44800000041cfd11d929aad3841c0ebb3f43fa76841b094afe7f7336f419dce4f3f0aa12e41887006d2591c41417226dc24bc88d54158381130f5e607413cb43a4cfd8267411dc99dc621b29940fa8cffaba223dc40d3ca2f085f4da340a7b75cbebb9c8c407573c0fa3b33db403a13a9cb9966503ff00000000000004039c99fc141b4304074838f4cf9a2bc40a56fda1f375a5240d084ac8ae3d11740f3f9e621ac92a34113b25f5368845841303d942af2b52e4146c9969812b788415b887417a24be4416ce07afa4a89a1417a6a4f1a5457da41851d262bf996e2418d75942f1484934191dae314bc5a794192a1b698312f8c419077dee8ad58e14187f6fe39a1c04f417b27a7c939605c4164cf3e645957d5,
  0x416b21e0426038f5418ebf3ce9138e2b41a81eb50110684141be3987a7d68a0741d00771e4e6071f41ddb29ff748491141e87fd874bd48be41f23c00e5777c5741f8b6bfc4d07bfb41feb3779df5c584420190398c6b34d4420292f150d62063420233a4bf2c7d3842008e76800135bf41fbfc4f5506fb3e41f5fbf289b6302c41f00c619e70476541e5c19ab2e4196a41db596e590bf0a841cfd11d929aad3841c114e9b400000041b0def1a04683ae419e85436eaddc2841892565f7bfe07a4172be2745b98b1c41590f29779fb5c0413db860064d7280411ed22ab133df0a40fb6a4bff96a83540d45d0f5ee731b040a848efd678df304075d3d3a72190b1403a532c32c23dd43ff0000000000000403a13a9cb996650407503aa58c681f740a649ff3143038540d1780d61fbca2840f589842e85d3d44115b46c792b880f41325808ffad8c26414a78063ed368da41608197f7a4585c4171f3078cc3b30041811d304fbde882418cb37a127e996d41952d1df9720012419b6f952c273c83419f0a46d80e756d419e5dae7953ad66419942d9bad2164541915beafed390da4182a2727dbe46a6416b21e0426038f5,
  0x4171018ee5803f7c4192b00ec31c2b5941ac674a1ac36cde41c138dde954ba4441d1a86eb6fa2e6d41df96653c2dd2e441e920b02d36e11141f202647d76af3641f77855473df8ae41fbfd5af850821741feb0aed97f04ab41ff0b83c548bc3841fd0a3823ec0b0141f9283c540ff09041f432d7cadc90e041ee105e9cb68ed341e4ba316b6769b641da724bf4a4ea8e41cf2adf05b32cdb41c0ebb3f43fa76841b0def1a04683ae419ec30780000000418981a11cee434d41731abb16cc14194159a19a9bc4f6e9413e7623a7dad943411f9c82f6bf170840fc1957f7c64d5c40d4d40fa0b8a60f40a8c0e38a22f1af407623e2bb73f8e8403a887293fd6f343ff0000000000000403a532c32c23dd4407573c0fa3b33db40a70ccbeb1ebf6040d2560e0f0806d240f6fe509e9130dd41179f9d1a8656b64134680262a51aa4414e2e69fa72e59241635af29e74e7874175b9ea3f98c8ea41857a5923c4a09f4192c598cc816630419d0f4a44df2d3341a3e8cc249fdb7041a8132b372f5bf441a9890716aa06f541a782dce1f9ad2841a278dd8075b74441980d23e93e4159418887136014f8e54171018ee5803f7c,
  0x41748296b73dcea94195d57c13e63e9341b00eb49b77108841c2d2cc163d447941d2a25da928755541e0125c76fbd4f441e89f77aee68e7b41f0f80485db141141f53abde60ca5bb41f84340d782479541f9726adb31293741f89232a70dacb541f5e3c0eea0892f41f203c8e6827f8641eb67ce1d27721641e343274026bbbe41d8ff82750bad5341cde6f4694837ae41c07202a3c3b37641b094afe7f7336f419e85436eaddc28418981a11cee434d417339e4b00000004159ebbfab78512b413ee997943793d3412012a5e6e0a7d440fc97f3bf77147940d52e2fd032480e40a91eb524114750407663ee7e18f454403ab3ba31acd8eb3ff0000000000000403a887293fd6f344075d3d3a72190b140a7b75cbebb9c8c40d31cae99e009cf40f8535e1888096841196b90e511ee1d413662c2f5d901da4150eb850b314af541663e94d44a451a4179ad7b223956e5418a33ec02f2fb134197bea71421f6b741a3281c7deb174c41ab8986251a4b0141b19bc6fa6ed0bb41b3f63ac821b25341b3ed6177560ce241b154119d96ac5441a9cbbc4657f2c5419fe85ea0476e79418efd764dcaed7741748296b73dcea9,
  0x4177cfb80982cbc8419887d5dc0200f841b170777f95376841c3bd07ccdb6c4f41d2d797e5bdcd4841df4c5eb509ea9c41e70daaf776fae441ee80de1643d10641f249406ae4aa5141f3fd7de6b50f8341f4034dc7fb818e41f267652d68468241ef26c3b4dfa42a41e849a836d1c67c41e172a5be9f59c841d7158a63b00df341cc15e7d152e62241bf5b0c71fba93241b00351babfb1db419dce4f3f0aa12e41892565f7bfe07a41731abb16cc14194159ebbfab78512b413f1058000000004120352102bb659c40fce48caa1143a340d56aafeefb093140a961ffebd430d2407693f7244fc1d3403ad5336963eefb3ff0000000000000403ab3ba31acd8eb407623e2bb73f8e840a848efd678df3040d3ca2f085f4da340f9843c03547776411b107b1b7cfb0741383de861802af54152adf91b1ce181416919954f2aae46417db2da45416dbe418f2a6e58719369419d27238c13b33641a862ca4ebf727b41b244c7fc146c8541b8828f75fff21341bd62ef029a34eb41bf5aaf8a91afea41bd8fa1c18c9f7841b85a5332bdbb2d41b138555edbad0e41a449265e43a3e84192ce8a5bdf67244177cfb80982cbc8,
  0x417a9f388d991a3b419a8308a48eb74941b232a9f5bc3cfc41c3dc838a5ea10341d241e1e99b1e3041dd2915befb130841e49e9cb849ca4941ea2571b2f5ec3241edfc3cda0f974541ef4a244520df2a41edd55ed441654a41ea102aaa4031c641e4e5a27801a0cc41dec66cf0a2e01541d4cec9b3a0e6ca41c9cf1136028ef041bd4ea7a4349eec41ae61e952fffd59419ca515d0953c0741887006d2591c414172be2745b98b1c4159a19a9bc4f6e9413ee997943793d34120352102bb659c40fcfe300000000040d5890ffe1e8f6540a98a7c6ea503af4076b3fcd420e6d5403aed02cdd310703ff0000000000000403ad5336963eefb407663ee7e18f45440a8c0e38a22f1af40d45d0f5ee731b040fa8cffaba223dc411c8742969ab1934139efaa85e85c42415453cfd482527b416bd88b68c3ca474180d6698ae189e841921c7faba12d5d41a16c141b1399df41ae163185ecf08841b75e8f0067607941c0570a4eaaa16241c48d60fb96fa1641c7311a4aceff6941c75ebd00bc6adc41c4dfb506ebc50241c0561cc28a582041b600c30be87b7341a8bdf26da159394195f0db03c58edb417a9f388d991a3b,
  0x417cac37b2056df7419b91cb82d2f46641b23f7f6a40f56b41c32dafca2df20841d0f397473168d841d9fde93c0d6def41e19cfb9fb6dea941e55cf1297e023341e762dac2d62bd541e73dc8abdb31c941e50d4063958e4341e16c5d68c195ef41da63229319d0e741d2498edd89b6e441c72ef544b7343741bad6a61c42fd6641ac4cae87619365419b14bebda74cdf418767911d18d74a417226dc24bc88d541590f29779fb5c0413e7623a7dad943412012a5e6e0a7d440fce48caa1143a340d5890ffe1e8f6540a99800000000004076c3ffa60a3026403afb41f432002d3ff0000000000000403aed02cdd31070407693f7244fc1d340a91eb52411475040d4d40fa0b8a60f40fb6a4bff96a835411dc99dc621b299413b6f14ff6912db4155d2d3d989a249416e6845ffcdce324182be8c6502169041949b84aedbbca341a451bb2f0acb3641b20ae550e3b40941bceeb5fe49467f41c4f982bb5dae8f41cb7f7ce596903d41d046ace19f5f3641d158980dff7a2041d08f36f66ea9f441cc1a2f975b19de41c4f23ac55f1fb741baedf1858a984e41acf7136393ceb241989d9a4717c7ee417cac37b2056df7,
  0x417dc14dc29d5ce2419b96a404233f0241b195915dafa8b141c1c5209b4abe5541ce282009ac69f541d62809c055515741dcb9046057ac7f41e0a08ac24864e841e155c07826cb8a41e05dc2730f011841dc169a2a81caa841d5f49cb3683b4241cf4b9531dba86141c4554d75c253aa41b80eff3ff1a0d841a9dcb910cde34941992c23735940ea418614c824ac243a4171593ead67f3174158381130f5e607413db860064d7280411f9c82f6bf170840fc97f3bf77147940d56aafeefb093140a98a7c6ea503af4076c3ffa60a3026403b0000000000003ff0000000000000403afb41f432002d4076b3fcd420e6d540a961ffebd430d240d52e2fd032480e40fc1957f7c64d5c411ed22ab133df0a413cb43a4cfd8267415721a8e735441f41705b3eebc1e1f2418482c78d652b694196fd1647d374b341a72ae2d5477e7141b5161770a3992241c162e11bb2ebc441ca0577595f16d341d1af6a8c8a9c0b41d5d258996956cb41d865b98ca860d541d8a1fcf9e6828741d657036760a29c41d20da92174ecf141c9b06724af50c841bf975669686ed141b0481e4d43d516419a910fb821f0d2417dc14dc29d5ce2,
  0x417dc14dc29d5ce2419a910fb821f0d241b0481e4d43d51641bf975669686ed141c9b06724af50c841d20da92174ecf141d657036760a29c41d8a1fcf9e6828741d865b98ca860d541d5d258996956cb41d1af6a8c8a9c0b41ca0577595f16d341c162e11bb2ebc441b5161770a3992241a72ae2d5477e714196fd1647d374b3418482c78d652b6941705b3eebc1e1f2415721a8e735441f413cb43a4cfd8267411ed22ab133df0a40fc1957f7c64d5c40d52e2fd032480e40a961ffebd430d24076b3fcd420e6d5403afb41f432002d3ff0000000000000403b0000000000004076c3ffa60a302640a98a7c6ea503af40d56aafeefb093140fc97f3bf771479411f9c82f6bf1708413db860064d72804158381130f5e6074171593ead67f317418614c824ac243a41992c23735940ea41a9dcb910cde34941b80eff3ff1a0d841c4554d75c253aa41cf4b9531dba86141d5f49cb3683b4241dc169a2a81caa841e05dc2730f011841e155c07826cb8a41e0a08ac24864e841dcb9046057ac7f41d62809c055515741ce282009ac69f541c1c5209b4abe5541b195915dafa8b1419b96a404233f02417dc14dc29d5ce2,
  0x417cac37b2056df741989d9a4717c7ee41acf7136393ceb241baedf1858a984e41c4f23ac55f1fb741cc1a2f975b19de41d08f36f66ea9f441d158980dff7a2041d046ace19f5f3641cb7f7ce596903d41c4f982bb5dae8f41bceeb5fe49467f41b20ae550e3b40941a451bb2f0acb3641949b84aedbbca34182be8c65021690416e6845ffcdce324155d2d3d989a249413b6f14ff6912db411dc99dc621b29940fb6a4bff96a83540d4d40fa0b8a60f40a91eb524114750407693f7244fc1d3403aed02cdd310703ff0000000000000403afb41f432002d4076c3ffa60a302640a998000000000040d5890ffe1e8f6540fce48caa1143a3412012a5e6e0a7d4413e7623a7dad94341590f29779fb5c0417226dc24bc88d5418767911d18d74a419b14bebda74cdf41ac4cae8761936541bad6a61c42fd6641c72ef544b7343741d2498edd89b6e441da63229319d0e741e16c5d68c195ef41e50d4063958e4341e73dc8abdb31c941e762dac2d62bd541e55cf1297e023341e19cfb9fb6dea941d9fde93c0d6def41d0f397473168d841c32dafca2df20841b23f7f6a40f56b419b91cb82d2f466417cac37b2056df7,
  0x417a9f388d991a3b4195f0db03c58edb41a8bdf26da1593941b600c30be87b7341c0561cc28a582041c4dfb506ebc50241c75ebd00bc6adc41c7311a4aceff6941c48d60fb96fa1641c0570a4eaaa16241b75e8f0067607941ae163185ecf08841a16c141b1399df41921c7faba12d5d4180d6698ae189e8416bd88b68c3ca47415453cfd482527b4139efaa85e85c42411c8742969ab19340fa8cffaba223dc40d45d0f5ee731b040a8c0e38a22f1af407663ee7e18f454403ad5336963eefb3ff0000000000000403aed02cdd310704076b3fcd420e6d540a98a7c6ea503af40d5890ffe1e8f6540fcfe30000000004120352102bb659c413ee997943793d34159a19a9bc4f6e94172be2745b98b1c41887006d2591c41419ca515d0953c0741ae61e952fffd5941bd4ea7a4349eec41c9cf1136028ef041d4cec9b3a0e6ca41dec66cf0a2e01541e4e5a27801a0cc41ea102aaa4031c641edd55ed441654a41ef4a244520df2a41edfc3cda0f974541ea2571b2f5ec3241e49e9cb849ca4941dd2915befb130841d241e1e99b1e3041c3dc838a5ea10341b232a9f5bc3cfc419a8308a48eb749417a9f388d991a3b,
  0x4177cfb80982cbc84192ce8a5bdf672441a449265e43a3e841b138555edbad0e41b85a5332bdbb2d41bd8fa1c18c9f7841bf5aaf8a91afea41bd62ef029a34eb41b8828f75fff21341b244c7fc146c8541a862ca4ebf727b419d27238c13b336418f2a6e58719369417db2da45416dbe416919954f2aae464152adf91b1ce18141383de861802af5411b107b1b7cfb0740f9843c0354777640d3ca2f085f4da340a848efd678df30407623e2bb73f8e8403ab3ba31acd8eb3ff0000000000000403ad5336963eefb407693f7244fc1d340a961ffebd430d240d56aafeefb093140fce48caa1143a34120352102bb659c413f1058000000004159ebbfab78512b41731abb16cc141941892565f7bfe07a419dce4f3f0aa12e41b00351babfb1db41bf5b0c71fba93241cc15e7d152e62241d7158a63b00df341e172a5be9f59c841e849a836d1c67c41ef26c3b4dfa42a41f267652d68468241f4034dc7fb818e41f3fd7de6b50f8341f249406ae4aa5141ee80de1643d10641e70daaf776fae441df4c5eb509ea9c41d2d797e5bdcd4841c3bd07ccdb6c4f41b170777f953768419887d5dc0200f84177cfb80982cbc8,
  0x41748296b73dcea9418efd764dcaed77419fe85ea0476e7941a9cbbc4657f2c541b154119d96ac5441b3ed6177560ce241b3f63ac821b25341b19bc6fa6ed0bb41ab8986251a4b0141a3281c7deb174c4197bea71421f6b7418a33ec02f2fb134179ad7b223956e541663e94d44a451a4150eb850b314af5413662c2f5d901da41196b90e511ee1d40f8535e1888096840d31cae99e009cf40a7b75cbebb9c8c4075d3d3a72190b1403a887293fd6f343ff0000000000000403ab3ba31acd8eb407663ee7e18f45440a91eb52411475040d52e2fd032480e40fc97f3bf771479412012a5e6e0a7d4413ee997943793d34159ebbfab78512b417339e4b0000000418981a11cee434d419e85436eaddc2841b094afe7f7336f41c07202a3c3b37641cde6f4694837ae41d8ff82750bad5341e343274026bbbe41eb67ce1d27721641f203c8e6827f8641f5e3c0eea0892f41f89232a70dacb541f9726adb31293741f84340d782479541f53abde60ca5bb41f0f80485db141141e89f77aee68e7b41e0125c76fbd4f441d2a25da928755541c2d2cc163d447941b00eb49b7710884195d57c13e63e9341748296b73dcea9,
  0x4171018ee5803f7c418887136014f8e541980d23e93e415941a278dd8075b74441a782dce1f9ad2841a9890716aa06f541a8132b372f5bf441a3e8cc249fdb70419d0f4a44df2d334192c598cc81663041857a5923c4a09f4175b9ea3f98c8ea41635af29e74e787414e2e69fa72e5924134680262a51aa441179f9d1a8656b640f6fe509e9130dd40d2560e0f0806d240a70ccbeb1ebf60407573c0fa3b33db403a532c32c23dd43ff0000000000000403a887293fd6f34407623e2bb73f8e840a8c0e38a22f1af40d4d40fa0b8a60f40fc1957f7c64d5c411f9c82f6bf1708413e7623a7dad9434159a19a9bc4f6e941731abb16cc1419418981a11cee434d419ec3078000000041b0def1a04683ae41c0ebb3f43fa76841cf2adf05b32cdb41da724bf4a4ea8e41e4ba316b6769b641ee105e9cb68ed341f432d7cadc90e041f9283c540ff09041fd0a3823ec0b0141ff0b83c548bc3841feb0aed97f04ab41fbfd5af850821741f77855473df8ae41f202647d76af3641e920b02d36e11141df96653c2dd2e441d1a86eb6fa2e6d41c138dde954ba4441ac674a1ac36cde4192b00ec31c2b594171018ee5803f7c,
  0x416b21e0426038f54182a2727dbe46a641915beafed390da419942d9bad21645419e5dae7953ad66419f0a46d80e756d419b6f952c273c8341952d1df9720012418cb37a127e996d41811d304fbde8824171f3078cc3b30041608197f7a4585c414a78063ed368da41325808ffad8c264115b46c792b880f40f589842e85d3d440d1780d61fbca2840a649ff31430385407503aa58c681f7403a13a9cb9966503ff0000000000000403a532c32c23dd44075d3d3a72190b140a848efd678df3040d45d0f5ee731b040fb6a4bff96a835411ed22ab133df0a413db860064d728041590f29779fb5c04172be2745b98b1c41892565f7bfe07a419e85436eaddc2841b0def1a04683ae41c114e9b400000041cfd11d929aad3841db596e590bf0a841e5c19ab2e4196a41f00c619e70476541f5fbf289b6302c41fbfc4f5506fb3e42008e76800135bf420233a4bf2c7d38420292f150d62063420190398c6b34d441feb3779df5c58441f8b6bfc4d07bfb41f23c00e5777c5741e87fd874bd48be41ddb29ff748491141d00771e4e6071f41be3987a7d68a0741a81eb501106841418ebf3ce9138e2b416b21e0426038f5,
  0x4164cf3e645957d5417b27a7c939605c4187f6fe39a1c04f419077dee8ad58e14192a1b698312f8c4191dae314bc5a79418d75942f14849341851d262bf996e2417a6a4f1a5457da416ce07afa4a89a1415b887417a24be44146c9969812b78841303d942af2b52e4113b25f5368845840f3f9e621ac92a340d084ac8ae3d11740a56fda1f375a524074838f4cf9a2bc4039c99fc141b4303ff0000000000000403a13a9cb996650407573c0fa3b33db40a7b75cbebb9c8c40d3ca2f085f4da340fa8cffaba223dc411dc99dc621b299413cb43a4cfd82674158381130f5e607417226dc24bc88d541887006d2591c41419dce4f3f0aa12e41b094afe7f7336f41c0ebb3f43fa76841cfd11d929aad3841dba7f44800000041e64977e02fc7f541f0afb105bd324f41f73fdc2055e94341fe2c27409ef2ba42023e8f0234b38b42048f1f926a8f994205931eb103c5da42050f082b60e03e4203154cc7975ea0420002ff22e31e8641f8c9708ef728f341f19c64dead2de541e6d10fbe3567b941dab44865bfe12441cbdda66c9a67ad41b96cb674b1cc9641a3a7c547f8504041884be6f7693b454164cf3e645957d5,
  0x415eaa1a4c46ef484172f4534ea8a71b417f98c39d045d1641846f80a7d3cbb04185acd8adfcf9b24183630a02aa7b59417db3b26d2396684173a676f0c20f2241668915873912f94156655ca364ace2414337e435da4eff412c46f06ed972874111a2458f33a69040f254d5e4dd1e3640cefc56fe5c6f7e40a47f63e4b3df084073f36f40b4a115403974b2334f23463ff00000000000004039c99fc141b430407503aa58c681f740a70ccbeb1ebf6040d31cae99e009cf40f9843c03547776411c8742969ab193413b6f14ff6912db415721a8e735441f4171593ead67f317418767911d18d74a419ca515d0953c0741b00351babfb1db41c07202a3c3b37641cf2adf05b32cdb41db596e590bf0a841e64977e02fc7f541f0e75c9a20000041f7e7d04aed0bee41ff8e1ce7d24ed3420373aee8844abf4206675b0dbd83f04208193d85d33cfe42083085434c6e414206a0929418dcd14203af3489534fa941ffc3052107f34241f7ac812776c08541f0382a5ed9d17441e44a08235f62f241d6f4604c0ba20c41c72e2ed683e05f41b47d2052ee58e2419eb813835276f241826d89e1cea277415eaa1a4c46ef48,
  0x4155aedc62082005416950fd5ebbcf854173dc1b4bfea8d441781562886e6ac64177d76b6e77184d4173cd219e17b99a416c00d59212b22b4160fb8971c497434151b49edb9a01d9413fac32b77770cf412828b0dbba2529410f1a6d47a8724f40f0a0189fedc35a40ccce1460e687cc40a379c9ad594307407353497475459a4039147284a414473ff0000000000000403974b2334f23464074838f4cf9a2bc40a649ff3143038540d2560e0f0806d240f8535e18880968411b107b1b7cfb074139efaa85e85c424155d2d3d989a24941705b3eebc1e1f2418614c824ac243a419b14bebda74cdf41ae61e952fffd5941bf5b0c71fba93241cde6f4694837ae41da724bf4a4ea8e41e5c19ab2e4196a41f0afb105bd324f41f7e7d04aed0bee4200039b18c00000420414e12bfe60eb42079449a217d0f44209ec498b1dcadf420aabf7518b652c4209a828f072cb2d42070a31670eb4fd420345bd44c3bda241fdf1ffcbffcfb241f585d4a52d671841ec79709ac0b28a41e137483908b98941d2d96c4f1b81e941c2709d17701ccc41af9c115310ec244196ffd8152f6385417ace39735d72504155aedc62082005,
  0x414d6520f79a501d4160269facd5a36b4167c17f89e41e41416ae33d6669c71b4168b7575b9623d54162f2de383854ed4158907bac45f44a414b15e7ea2dfffa41396a2fde13f6a2412434b871c5b2d0410af8cb2cfdea9740edc39604e8371940ca8411158cf9d740a2606185159a224072a31cf2a8a5664038a85c24f706593ff00000000000004039147284a414474073f36f40b4a11540a56fda1f375a5240d1780d61fbca2840f6fe509e9130dd41196b90e511ee1d41383de861802af5415453cfd482527b416e6845ffcdce32418482c78d652b6941992c23735940ea41ac4cae8761936541bd4ea7a4349eec41cc15e7d152e62241d8ff82750bad5341e4ba316b6769b641f00c619e70476541f73fdc2055e94341ff8e1ce7d24ed3420414e12bfe60eb4207fba5d6700000420ae155383e4913420c4466d34dabcd420bdf3031f4141d4209bd24fe88fd7a420639757040190e4201e6df5100c94641fad28293fe317541f29d077fecdef341e7cdf0d321735b41dbdb3b04212ce041cd8bcfec649b0a41bc074bd58d7ddd41a7510f3ecfbaa941907b0a147641ca4172aca89fd704f4414d6520f79a501d,
  0x414312f2c64cba9b4153a66f1ca9e6ff415af9d84f69f638415c59f54abb1b8d41580e94ec2ddd994150e807e8ae7d7c4143eca22187661a4133c5b9f0535ad841207dc5872a3b9b4106f1e1ea1c375d40ea40a1f472caef40c8244ce42e8e0540a134ade891e62d4071e2e87d9e971040382fd05f1298383ff00000000000004038a85c24f70659407353497475459a40a47f63e4b3df0840d084ac8ae3d11740f589842e85d3d441179f9d1a8656b6413662c2f5d901da4152adf91b1ce181416bd88b68c3ca474182be8c650216904196fd1647d374b341a9dcb910cde34941bad6a61c42fd6641c9cf1136028ef041d7158a63b00df341e343274026bbbe41ee105e9cb68ed341f5fbf289b6302c41fe2c27409ef2ba420373aee8844abf42079449a217d0f4420ae155383e4913420cd148c9000000420d0ab22a2881d8420b7d7b0fcf8353420868f4c341185842044be0de59285e41ff87a28ccd4af641f6ce58a8879ce541ee98f6ab427d6041e2ef2bb801616f41d576fb6f65e7ce41c613b17d13127641b453b49a05860241a06d3aa3c6026341869388d72f897e4168e3e2133d9c10414312f2c64cba9b,
  0x4137a88d50a119cf4146bf8511902c4b414cff8f6e161612414c21e94c8351454145e1c5b9e860be413bf5aea32255de412da7de4fedbe37411a28da20eb95274103175d9aeb5cdb40e6c4860cddb49b40c5b5477bf84e81409ff0c45fd55f25407112aa755a548a4037aa10d193c22c3ff000000000000040382fd05f1298384072a31cf2a8a56640a379c9ad59430740cefc56fe5c6f7e40f3f9e621ac92a34115b46c792b880f4134680262a51aa44150eb850b314af5416919954f2aae464180d6698ae189e841949b84aedbbca341a72ae2d5477e7141b80eff3ff1a0d841c72ef544b7343741d4cec9b3a0e6ca41e172a5be9f59c841eb67ce1d27721641f432d7cadc90e041fbfc4f5506fb3e42023e8f0234b38b4206675b0dbd83f04209ec498b1dcadf420c4466d34dabcd420d0ab22a2881d8420c18da2a600000420992b0bd6b635e4205dddadf9cd64b42018844de57060e41fa4bf5725f443341f263067932845341e7df6c4a3a788841dc9f56ba29030f41cf76e6fc1f2ccb41bf68f452fe128e41ac180c5a0fb2a64196129b54e39a56417d841fb49f9f9b415faf54c62d62434137a88d50a119cf,
  0x412bfe357fdb05a24138fe4de66157ab413d68dd402cf56d413a27660a7710a541327e5c9bb394ef4125446936b6509141140d0a37715a4c40fef3d27d27d06540e35cb1857fa44240c33e00657199b8409d5ad027a2c72040703260b0b3a691403716380ce703993ff00000000000004037aa10d193c22c4071e2e87d9e971040a2606185159a2240ccce1460e687cc40f254d5e4dd1e364113b25f5368845841325808ffad8c26414e2e69fa72e59241663e94d44a451a417db2da45416dbe41921c7faba12d5d41a451bb2f0acb3641b5161770a3992241c4554d75c253aa41d2498edd89b6e441dec66cf0a2e01541e849a836d1c67c41f203c8e6827f8641f9283c540ff09042008e76800135bf42048f1f926a8f994208193d85d33cfe420aabf7518b652c420bdf3031f4141d420b7d7b0fcf8353420992b0bd6b635e420669e34700000042027b0d0b0012b841fc9cf42d86e58741f4be3d9e3c153641ec125ba3fe123941e1a77550b3f8d941d486705ad408f441c5e6499fd9909741b53cad6d8b258b41a277a305a9822d418c3bfcb4065ab24172618a481c1964415339c5c4e86ad2412bfe357fdb05a2,
  0x411f867a26c2203f4129fb644a5440ac412c0672e7b493e64126a832b7ea8a82411cd6726bf370ce410d7a5b139a1b4240f8516d074fac8e40e016a0467c539640c0c5f6ea689d32409aabcd4f2576a2406e8410841c900f4036732f8d0e2f763ff0000000000000403716380ce70399407112aa755a548a40a134ade891e62d40ca8411158cf9d740f0a0189fedc35a4111a2458f33a69041303d942af2b52e414a78063ed368da41635af29e74e7874179ad7b223956e5418f2a6e5871936941a16c141b1399df41b20ae550e3b40941c162e11bb2ebc441cf4b9531dba86141da63229319d0e741e4e5a27801a0cc41ef26c3b4dfa42a41f5e3c0eea0892f41fd0a3823ec0b01420233a4bf2c7d384205931eb103c5da42083085434c6e414209a828f072cb2d4209bd24fe88fd7a420868f4c34118584205dddadf9cd64b42027b0d0b0012b841fd6cbe8c80000041f604fd5c96636541eee57265f1530041e440afa85144ce41d8b39fbfab69f841cbdfc5e5c7a20a41bce4118d6ced2a41ab3d148f7e06bd41970bc83fed510941812757da841df54165c31177cd30e841463165aa27f73e411f867a26c2203f,
  0x4110d9d9fb8209914119761574d5bb564118f781ccc1125641122a81242467e441048d71f75e89e340f261fac945a70840d9ff429debceef40bcaa53d4d1d0ad4097e89694bc58f2406c833a3406f3844035bfa1d602241b3ff00000000000004036732f8d0e2f7640703260b0b3a691409ff0c45fd55f2540c8244ce42e8e0540edc39604e83719410f1a6d47a8724f412c46f06ed972874146c9969812b78841608197f7a4585c4175b9ea3f98c8ea418a33ec02f2fb13419d27238c13b33641ae163185ecf08841bceeb5fe49467f41ca0577595f16d341d5f49cb3683b4241e16c5d68c195ef41ea102aaa4031c641f267652d68468241f89232a70dacb541ff0b83c548bc38420292f150d6206342050f082b60e03e4206a0929418dcd142070a31670eb4fd420639757040190e42044be0de59285e42018844de57060e41fc9cf42d86e58741f604fd5c96636541efe485dc00000041e5acf52264fc5441db8e4c4466533841d04f70fea9234c41c1e113cd7167d241b20442541ecc9e41a086f3fe8bdf26418b3b0a8aedb6264173bfa97ba793da41586d823283e28641384dcea9b4be754110d9d9fb820991,
  0x41010bb96984d9a441076a09486d8bbd4104a9df5d1de13740faba92d2cc320440ea75cd5d01353940d44925ef00782740b7e82f0ee0be41409516aa9fe04d8b406a6232dd9e99da4034f9e6bbc4ecb33ff00000000000004035bfa1d602241b406e8410841c900f409d5ad027a2c72040c5b5477bf84e8140ea40a1f472caef410af8cb2cfdea97412828b0dbba2529414337e435da4eff415b887417a24be44171f3078cc3b30041857a5923c4a09f4197bea71421f6b741a862ca4ebf727b41b75e8f0067607941c4f982bb5dae8f41d1af6a8c8a9c0b41dc169a2a81caa841e50d4063958e4341edd55ed441654a41f4034dc7fb818e41f9726adb31293741feb0aed97f04ab420190398c6b34d44203154cc7975ea04203af3489534fa9420345bd44c3bda24201e6df5100c94641ff87a28ccd4af641fa4bf5725f443341f4be3d9e3c153641eee57265f1530041e5acf52264fc5441dc920d3fc0000041d1a060b504526041c445226357857841b59a451004c97941a52e29a0e747ce4192eb020840880d417e5ee0e13fe2ec416579ab54ffb1b74149ea61bc40240f41292b96c775c30541010bb96984d9a4,
  0x40f040a5d8b1b0d840f41794951fc9c040ef85e9b1ee979640e1d6e581cd0cd240ce4647c71dcb5240b35778f64d0c1e40923c4b0551ee10406820e96efcc87340341fe68f0af33c3ff00000000000004034f9e6bbc4ecb3406c833a3406f384409aabcd4f2576a240c33e00657199b840e6c4860cddb49b4106f1e1ea1c375d412434b871c5b2d0413fac32b77770cf4156655ca364ace2416ce07afa4a89a141811d304fbde8824192c598cc81663041a3281c7deb174c41b244c7fc146c8541c0570a4eaaa16241cb7f7ce596903d41d5d258996956cb41e05dc2730f011841e73dc8abdb31c941ef4a244520df2a41f3fd7de6b50f8341f84340d782479541fbfd5af850821741feb3779df5c584420002ff22e31e8641ffc3052107f34241fdf1ffcbffcfb241fad28293fe317541f6ce58a8879ce541f263067932845341ec125ba3fe123941e440afa85144ce41db8e4c4466533841d1a060b504526041c520b5e600000041b79f1f49cd888941a87e7b660449a74197621e36d7648e418459a15db2b40b416fda5c7e0a1c8c4155f95eb337e8754139e2db0456264241188e99280a685d40f040a5d8b1b0d8,
  0x40dd12cb09aecfb540dff2c523e0713f40d5edf5f1f2341f40c546578634eb1340ae164a62b0bd85408ec14cfb09f31f4065bf43aa6c8e6840332eee757704163ff000000000000040341fe68f0af33c406a6232dd9e99da4097e89694bc58f240c0c5f6ea689d3240e35cb1857fa4424103175d9aeb5cdb41207dc5872a3b9b41396a2fde13f6a24151b49edb9a01d941668915873912f9417a6a4f1a5457da418cb37a127e996d419d0f4a44df2d3341ab8986251a4b0141b8828f75fff21341c48d60fb96fa1641d046ace19f5f3641d865b98ca860d541e155c07826cb8a41e762dac2d62bd541edfc3cda0f974541f249406ae4aa5141f53abde60ca5bb41f77855473df8ae41f8b6bfc4d07bfb41f8c9708ef728f341f7ac812776c08541f585d4a52d671841f29d077fecdef341ee98f6ab427d6041e7df6c4a3a788841e1a77550b3f8d941d8b39fbfab69f841d04f70fea9234c41c445226357857841b79f1f49cd888941a9b229560000004199f1a1e83951d1418821dc9288d3dc41747a16e34fa4a3415f450aaf31cff841450ee02204bc8941283aece3e67873410676b29d39cfa040dd12cb09aecfb5,
  0x40c83fb7f506787a40c750debd633cfe40bb6f8ce5fb53eb40a62e343580b9f2408918278802049a40633d170d8343764032236b5fbe77113ff000000000000040332eee75770416406820e96efcc873409516aa9fe04d8b40bcaa53d4d1d0ad40e016a0467c539640fef3d27d27d065411a28da20eb95274133c5b9f0535ad8414b15e7ea2dfffa4160fb8971c497434173a676f0c20f2241851d262bf996e241952d1df972001241a3e8cc249fdb7041b19bc6fa6ed0bb41bd62ef029a34eb41c7311a4aceff6941d158980dff7a2041d8a1fcf9e6828741e0a08ac24864e841e55cf1297e023341ea2571b2f5ec3241ee80de1643d10641f0f80485db141141f202647d76af3641f23c00e5777c5741f19c64dead2de541f0382a5ed9d17441ec79709ac0b28a41e7cdf0d321735b41e2ef2bb801616f41dc9f56ba29030f41d486705ad408f441cbdfc5e5c7a20a41c1e113cd7167d241b59a451004c97941a87e7b660449a74199f1a1e83951d1418985c64000000041772598c0cfec7d4163296687eb6f1f414c908a11c582e74132c9ff155278f1411520c2ca3fd4a040f327001b91846240c83fb7f506787a,
  0x40b2b7657e26738240aed9c97aeadc1d409e406ad7108c74408390cad22e339740609a19e69f4bee4030f876ccdf6cd93ff00000000000004032236b5fbe77114065bf43aa6c8e6840923c4b0551ee1040b7e82f0ee0be4140d9ff429debceef40f8516d074fac8e41140d0a37715a4c412da7de4fedbe374143eca22187661a4158907bac45f44a416c00d59212b22b417db3b26d239668418d75942f148493419b6f952c273c8341a8132b372f5bf441b3f63ac821b25341bf5aaf8a91afea41c75ebd00bc6adc41d08f36f66ea9f441d657036760a29c41dcb9046057ac7f41e19cfb9fb6dea941e49e9cb849ca4941e70daaf776fae441e89f77aee68e7b41e920b02d36e11141e87fd874bd48be41e6d10fbe3567b941e44a08235f62f241e137483908b98941dbdb3b04212ce041d576fb6f65e7ce41cf76e6fc1f2ccb41c5e6499fd9909741bce4118d6ced2a41b20442541ecc9e41a52e29a0e747ce4197621e36d7648e418821dc9288d3dc41772598c0cfec7d41647af4a000000041508cf2ab3836d94138192f0899c99f411efb672a91e8f141010844afc0a68b40de353ff305f78740b2b7657e267382,
  0x409a780ecf5299bf40922dd0cdb46f49407c8581b6afc7e8405bab80805ed3e2402f4e115049ec253ff00000000000004030f876ccdf6cd940633d170d834376408ec14cfb09f31f40b35778f64d0c1e40d44925ef00782740f261fac945a708410d7a5b139a1b424125446936b65091413bf5aea32255de4150e807e8ae7d7c4162f2de383854ed4173cd219e17b99a4183630a02aa7b594191dae314bc5a79419f0a46d80e756d41a9890716aa06f541b3ed6177560ce241bd8fa1c18c9f7841c4dfb506ebc50241cc1a2f975b19de41d20da92174ecf141d62809c055515741d9fde93c0d6def41dd2915befb130841df4c5eb509ea9c41e0125c76fbd4f441df96653c2dd2e441ddb29ff748491141dab44865bfe12441d6f4604c0ba20c41d2d96c4f1b81e941cd8bcfec649b0a41c613b17d13127641bf68f452fe128e41b53cad6d8b258b41ab3d148f7e06bd41a086f3fe8bdf264192eb020840880d418459a15db2b40b41747a16e34fa4a34163296687eb6f1f41508cf2ab3836d9413a20b000000000412296d77ff1255d41075e3d1f9ce28a40e92273e8fe1b5e40c5d0942a0bb8be409a780ecf5299bf,
  0x4080e91087459169407295245a0e469d4055ddb6bcd86967402c48c6001f0abf3ff0000000000000402f4e115049ec2540609a19e69f4bee408918278802049a40ae164a62b0bd8540ce4647c71dcb5240ea75cd5d01353941048d71f75e89e3411cd6726bf370ce41327e5c9bb394ef4145e1c5b9e860be41580e94ec2ddd994168b7575b9623d54177d76b6e77184d4185acd8adfcf9b24192a1b698312f8c419e5dae7953ad6641a782dce1f9ad2841b154119d96ac5441b85a5332bdbb2d41c0561cc28a582041c4f23ac55f1fb741c9b06724af50c841ce282009ac69f541d0f397473168d841d241e1e99b1e3041d2d797e5bdcd4841d2a25da928755541d1a86eb6fa2e6d41d00771e4e6071f41cbdda66c9a67ad41c72e2ed683e05f41c2709d17701ccc41bc074bd58d7ddd41b453b49a05860241ac180c5a0fb2a641a277a305a9822d41970bc83fed5109418b3b0a8aedb626417e5ee0e13fe2ec416fda5c7e0a1c8c415f450aaf31cff8414c908a11c582e74138192f0899c99f412296d77ff1255d4109dd200000000040efce55a762e83640d0bdbfe895b0b340ac745fa9e5dc204080e91087459169,
  0x406321c7074cae5b404f89233efeda984028bd171a07e38a3ff0000000000000402c48c6001f0abf405bab80805ed3e2408390cad22e339740a62e343580b9f240c546578634eb1340e1d6e581cd0cd240faba92d2cc320441122a81242467e44126a832b7ea8a82413a27660a7710a5414c21e94c835145415c59f54abb1b8d416ae33d6669c71b41781562886e6ac641846f80a7d3cbb0419077dee8ad58e1419942d9bad2164541a278dd8075b74441a9cbbc4657f2c541b138555edbad0e41b600c30be87b7341baedf1858a984e41bf975669686ed141c1c5209b4abe5541c32dafca2df20841c3dc838a5ea10341c3bd07ccdb6c4f41c2d2cc163d447941c138dde954ba4441be3987a7d68a0741b96cb674b1cc9641b47d2052ee58e241af9c115310ec2441a7510f3ecfbaa941a06d3aa3c602634196129b54e39a56418c3bfcb4065ab241812757da841df54173bfa97ba793da416579ab54ffb1b74155f95eb337e87541450ee02204bc894132c9ff155278f1411efb672a91e8f141075e3d1f9ce28a40efce55a762e83640d324000000000040b3bacdec97f54d40906cc25b7a11d9406321c7074cae5b,
  0x40428f8ac4cd992a402465655f122ff63ff00000000000004028bd171a07e38a4055ddb6bcd86967407c8581b6afc7e8409e406ad7108c7440bb6f8ce5fb53eb40d5edf5f1f2341f40ef85e9b1ee97964104a9df5d1de1374118f781ccc11256412c0672e7b493e6413d68dd402cf56d414cff8f6e161612415af9d84f69f6384167c17f89e41e414173dc1b4bfea8d4417f98c39d045d164187f6fe39a1c04f41915beafed390da41980d23e93e4159419fe85ea0476e7941a449265e43a3e841a8bdf26da1593941acf7136393ceb241b0481e4d43d51641b195915dafa8b141b23f7f6a40f56b41b232a9f5bc3cfc41b170777f95376841b00eb49b77108841ac674a1ac36cde41a81eb50110684141a3a7c547f85040419eb813835276f24196ffd8152f638541907b0a147641ca41869388d72f897e417d841fb49f9f9b4172618a481c19644165c31177cd30e841586d823283e2864149ea61bc40240f4139e2db0456264241283aece3e67873411520c2ca3fd4a041010844afc0a68b40e92273e8fe1b5e40d0bdbfe895b0b340b3bacdec97f54d4093ec0000000000407040ccc7c27e3840428f8ac4cd992a,
  0x401d1ed52076fbe93ff0000000000000402465655f122ff6404f89233efeda98407295245a0e469d40922dd0cdb46f4940aed9c97aeadc1d40c750debd633cfe40dff2c523e0713f40f41794951fc9c041076a09486d8bbd4119761574d5bb564129fb644a5440ac4138fe4de66157ab4146bf8511902c4b4153a66f1ca9e6ff4160269facd5a36b416950fd5ebbcf854172f4534ea8a71b417b27a7c939605c4182a2727dbe46a6418887136014f8e5418efd764dcaed774192ce8a5bdf67244195f0db03c58edb41989d9a4717c7ee419a910fb821f0d2419b96a404233f02419b91cb82d2f466419a8308a48eb749419887d5dc0200f84195d57c13e63e934192b00ec31c2b59418ebf3ce9138e2b41884be6f7693b4541826d89e1cea277417ace39735d72504172aca89fd704f44168e3e2133d9c10415faf54c62d6243415339c5c4e86ad241463165aa27f73e41384dcea9b4be7541292b96c775c30541188e99280a685d410676b29d39cfa040f327001b91846240de353ff305f78740c5d0942a0bb8be40ac745fa9e5dc2040906cc25b7a11d9407040ccc7c27e38404a000000000000401d1ed52076fbe9,
  0x3ff0000000000000401d1ed52076fbe940428f8ac4cd992a406321c7074cae5b4080e91087459169409a780ecf5299bf40b2b7657e26738240c83fb7f506787a40dd12cb09aecfb540f040a5d8b1b0d841010bb96984d9a44110d9d9fb820991411f867a26c2203f412bfe357fdb05a24137a88d50a119cf414312f2c64cba9b414d6520f79a501d4155aedc62082005415eaa1a4c46ef484164cf3e645957d5416b21e0426038f54171018ee5803f7c41748296b73dcea94177cfb80982cbc8417a9f388d991a3b417cac37b2056df7417dc14dc29d5ce2417dc14dc29d5ce2417cac37b2056df7417a9f388d991a3b4177cfb80982cbc841748296b73dcea94171018ee5803f7c416b21e0426038f54164cf3e645957d5415eaa1a4c46ef484155aedc62082005414d6520f79a501d414312f2c64cba9b4137a88d50a119cf412bfe357fdb05a2411f867a26c2203f4110d9d9fb82099141010bb96984d9a440f040a5d8b1b0d840dd12cb09aecfb540c83fb7f506787a40b2b7657e267382409a780ecf5299bf4080e91087459169406321c7074cae5b40428f8ac4cd992a401d1ed52076fbe93ff0000000000000]

end SF
