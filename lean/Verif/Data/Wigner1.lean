/-
Generated by tools/gen_tables.py from spherical_functions/Wigner_coefficients.npy: bytes 55440 to 129648 after the header.
-/
set_option autoImplicit false
namespace SF

/-- The coefficients for `2 ell = 27`: one number for each of the 28 values of `mp`, consisting of the doubles for the 28 values of `m`. -/
def wigner27 : List Nat := [
  0x3ff00000000000004014c8dc2e42397f4032bc2891041ea7404b0aa8901b445440608f3ec67711f34071c21582ef075f4081008b4910b180408d72d3d6b70ea3409747f768cc96ed40a0e9d0b37948b540a6b10e855617d240ac359ae6d572ab40b0496548a4008d40b17ea63bccbb2f40b17ea63bccbb2f40b0496548a4008d40ac359ae6d572ab40a6b10e855617d240a0e9d0b37948b5409747f768cc96ed408d72d3d6b70ea34081008b4910b1804071c21582ef075f40608f3ec67711f3404b0aa8901b44544032bc2891041ea74014c8dc2e42397f3ff0000000000000,
  0x4014c8dc2e42397f403a000000000000405688e1cd6c0e46406f3998f1b1886c40825319136a57174092cbeb2531ee4040a12da63d401ddf40ac563d79c67d2a40b5483b3ab276e340bd4b75c1492ffb40c28f4d64f097b840c5b731b63000bc40c7820115b1df8f40c7916a501c60e740c5e275013eec4440c2ce67448e4c7240bddbe45a82010340b5d5c476c0b27e40ad4b75c1492ffb40a1ebfbfb88cfe84093d5f7d53e246a4083a1e28f24b46d40711678ad7335af40597ebeb6d6bbf3403f3998f1b1886c401cd82b446159f33ff00000000000004014c8dc2e42397f,
  0x4032bc2891041ea7405688e1cd6c0e464072c000000000004088e5f26cbf54e1409bf3ebae1ead9f40ab5e93b064c6d340b7d27142b49a6340c2aa6a3e0abb1940ca8fcdc39442b440d143f2ec49d12440d49718beb7308240d695e954b2d49c40d6d1d44867425240d53e72717924f340d23586aa67d68740ccb0038e38ab2640c4b415e2f942e540bb4073930183f740b03ff3b1366a7c40a165ac32402bb04090811ff62f36f3407b39a603178bdf4062f50a50109b72404536948017480f4021520cd1372fea3ff0000000000000401cd82b446159f34032bc2891041ea7,
  0x404b0aa8901b4454406f3998f1b1886c4088e5f26cbf54e1409fa0000000000040b0f20bdc93651140bf9a7f857b627140ca21c7f0756c5640d365dfe233fa0f40da11f9fc77e74040dfe5f2a523635640e1d4e75335de2b40e24176a0529b7540e1209dbe18ae0740dd6fbbb7f2083940d720eeebf5067640d090118261025040c58402aaaa805c40b92c91dee2a31040aa44e5f1686fec40981b30992284fc40830ec1022a151c40692649159d478b404a4491e34f47d94023988e1409212e3ff00000000000004021520cd1372fea403f3998f1b1886c404b0aa8901b4454,
  0x40608f3ec67711f340825319136a5717409bf3ebae1ead9f40b0f20bdc93651140c14b800000000040cea476acba5be640d800f4cc1f8c0540e0d408871f5ac340e549476c9334ac40e86ac06fb9b79840e97aa63af513f340e838c89e9cbbce40e4fa094335bb4540e0861e7addf4e540d79b06f8aacb9040ce6d80c6c4181540c191458c5b2b6040b1fc391a8ee0e840a016246dbfa01c40889a71ba85afcd406f1ef8c94666db404ecd41d33eeffd402572969b8b5cd83ff00000000000004023988e1409212e404536948017480f40597ebeb6d6bbf340608f3ec67711f3,
  0x4071c21582ef075f4092cbeb2531ee4040ab5e93b064c6d340bf9a7f857b627140cea476acba5be640d9b7800000000040e306abca30c9f040e91b9e6c8a927b40edc637e2c6a57a40efe065ff5cced740eee31f5794aac040eb1ab673d2ac2b40e58457cfe4825d40ded136757a044240d3cfa30260b99840c6b2ffcd3fd57c40b6ef37ebd9a55f40a42026f4b8e7bb408e005fff66685140725aa9e44c4f1c4051698b311e50fa4026fa6ea162d0f03ff0000000000000402572969b8b5cd8404a4491e34f47d94062f50a50109b7240711678ad7335af4071c21582ef075f,
  0x4081008b4910b18040a12da63d401ddf40b7d27142b49a6340ca21c7f0756c5640d800f4cc1f8c0540e306abca30c9f040ea7f000000000040f063e4a0fa791740f22400aca6af6540f208c3cd0a261b40f0215c29e0309b40e9f34fc7694ed740e2ba65af08fb7e40d82402adfae16240cb96de7db1019540bba8f4b3be7f4040a7f449a46135154091845f7422f5134074e3ed3c47fdcf40532b9817efd0dd40283fab8b4d43153ff00000000000004026fa6ea162d0f0404ecd41d33eeffd40692649159d478b407b39a603178bdf4083a1e28f24b46d4081008b4910b180,
  0x408d72d3d6b70ea340ac563d79c67d2a40c2aa6a3e0abb1940d365dfe233fa0f40e0d408871f5ac340e91b9e6c8a927b40f063e4a0fa791740f2ed000000000040f37366c61feabe40f1d9698367751740ed44d86060b8a940e5674fa377fad940dbcdd57a39f90a40cfdb7faea331bd40bfdb7faea331bd40ab60542993aa614093c1d35bd1365240771dd662a795f34054ad1320e70bb140294c583ada5b523ff000000000000040283fab8b4d43154051698b311e50fa406f1ef8c94666db40830ec1022a151c4090811ff62f36f34093d5f7d53e246a408d72d3d6b70ea3,
  0x409747f768cc96ed40b5483b3ab276e340ca8fcdc39442b440da11f9fc77e74040e549476c9334ac40edc637e2c6a57a40f22400aca6af6540f37366c61feabe40f273e00000000040ef0b5cccb8d81440e7239d4057ffbd40de75324560e77640d195b6a2f1271d40c1a13dd420070f40ae38fc4712553f4095a492039ef5104078fdb3181aff8f4055ee274e918855402a2744ce9674f43ff000000000000040294c583ada5b5240532b9817efd0dd40725aa9e44c4f1c40889a71ba85afcd40981b30992284fc40a165ac32402bb040a1ebfbfb88cfe8409747f768cc96ed,
  0x40a0e9d0b37948b540bd4b75c1492ffb40d143f2ec49d12440dfe5f2a523635640e86ac06fb9b79840efe065ff5cced740f208c3cd0a261b40f1d9698367751740ef0b5cccb8d81440e7bd800000000040dfd9d266b97f4c40d2a221cf940a6640c2d39097acd61340b02da26bf7f01240971c9ee3623263407a7b2b07fb8cc44056eeee8953be07402ad5336963eefb3ff0000000000000402a2744ce9674f44054ad1320e70bb14074e3ed3c47fdcf408e005fff66685140a016246dbfa01c40aa44e5f1686fec40b03ff3b1366a7c40ad4b75c1492ffb40a0e9d0b37948b5,
  0x40a6b10e855617d240c28f4d64f097b840d49718beb7308240e1d4e75335de2b40e97aa63af513f340eee31f5794aac040f0215c29e0309b40ed44d86060b8a940e7239d4057ffbd40dfd9d266b97f4c40d2fe000000000040c371a008f2e79140b0d6bff41f6a5440981dfbefbea44c407b8ffb5b2304ea4057af78e6da9b30402b597ea47fdda23ff0000000000000402ad5336963eefb4055ee274e91885540771dd662a795f34091845f7422f51340a42026f4b8e7bb40b1fc391a8ee0e840b92c91dee2a31040bb4073930183f740b5d5c476c0b27e40a6b10e855617d2,
  0x40ac359ae6d572ab40c5b731b63000bc40d695e954b2d49c40e24176a0529b7540e838c89e9cbbce40eb1ab673d2ac2b40e9f34fc7694ed740e5674fa377fad940de75324560e77640d2a221cf940a6640c371a008f2e79140b11000000000004098a0aa397a7821407c37c86eeb06ec40582fd05f129838402bb67ae8584caa3ff0000000000000402b597ea47fdda24056eeee8953be074078fdb3181aff8f4093c1d35bd1365240a7f449a461351540b6ef37ebd9a55f40c191458c5b2b6040c58402aaaa805c40c4b415e2f942e540bddbe45a82010340ac359ae6d572ab,
  0x40b0496548a4008d40c7820115b1df8f40d6d1d44867425240e1209dbe18ae0740e4fa094335bb4540e58457cfe4825d40e2ba65af08fb7e40dbcdd57a39f90a40d195b6a2f1271d40c2d39097acd61340b0d6bff41f6a544098a0aa397a7821407c70000000000040586ffac31b9795402bedb0defaf6613ff0000000000000402bb67ae8584caa4057af78e6da9b30407a7b2b07fb8cc44095a492039ef51040ab60542993aa6140bba8f4b3be7f4040c6b2ffcd3fd57c40ce6d80c6c4181540d090118261025040ccb0038e38ab2640c2ce67448e4c7240b0496548a4008d,
  0x40b17ea63bccbb2f40c7916a501c60e740d53e72717924f340dd6fbbb7f2083940e0861e7addf4e540ded136757a044240d82402adfae16240cfdb7faea331bd40c1a13dd420070f40b02da26bf7f01240981dfbefbea44c407c37c86eeb06ec40586ffac31b9795402c0000000000003ff0000000000000402bedb0defaf66140582fd05f129838407b8ffb5b2304ea40971c9ee362326340ae38fc4712553f40bfdb7faea331bd40cb96de7db1019540d3cfa30260b99840d79b06f8aacb9040d720eeebf5067640d23586aa67d68740c5e275013eec4440b17ea63bccbb2f,
  0x40b17ea63bccbb2f40c5e275013eec4440d23586aa67d68740d720eeebf5067640d79b06f8aacb9040d3cfa30260b99840cb96de7db1019540bfdb7faea331bd40ae38fc4712553f40971c9ee3623263407b8ffb5b2304ea40582fd05f129838402bedb0defaf6613ff0000000000000402c00000000000040586ffac31b9795407c37c86eeb06ec40981dfbefbea44c40b02da26bf7f01240c1a13dd420070f40cfdb7faea331bd40d82402adfae16240ded136757a044240e0861e7addf4e540dd6fbbb7f2083940d53e72717924f340c7916a501c60e740b17ea63bccbb2f,
  0x40b0496548a4008d40c2ce67448e4c7240ccb0038e38ab2640d090118261025040ce6d80c6c4181540c6b2ffcd3fd57c40bba8f4b3be7f4040ab60542993aa614095a492039ef510407a7b2b07fb8cc44057af78e6da9b30402bb67ae8584caa3ff0000000000000402bedb0defaf66140586ffac31b9795407c7000000000004098a0aa397a782140b0d6bff41f6a5440c2d39097acd61340d195b6a2f1271d40dbcdd57a39f90a40e2ba65af08fb7e40e58457cfe4825d40e4fa094335bb4540e1209dbe18ae0740d6d1d44867425240c7820115b1df8f40b0496548a4008d,
  0x40ac359ae6d572ab40bddbe45a82010340c4b415e2f942e540c58402aaaa805c40c191458c5b2b6040b6ef37ebd9a55f40a7f449a46135154093c1d35bd136524078fdb3181aff8f4056eeee8953be07402b597ea47fdda23ff0000000000000402bb67ae8584caa40582fd05f129838407c37c86eeb06ec4098a0aa397a782140b110000000000040c371a008f2e79140d2a221cf940a6640de75324560e77640e5674fa377fad940e9f34fc7694ed740eb1ab673d2ac2b40e838c89e9cbbce40e24176a0529b7540d695e954b2d49c40c5b731b63000bc40ac359ae6d572ab,
  0x40a6b10e855617d240b5d5c476c0b27e40bb4073930183f740b92c91dee2a31040b1fc391a8ee0e840a42026f4b8e7bb4091845f7422f51340771dd662a795f34055ee274e918855402ad5336963eefb3ff0000000000000402b597ea47fdda24057af78e6da9b30407b8ffb5b2304ea40981dfbefbea44c40b0d6bff41f6a5440c371a008f2e79140d2fe000000000040dfd9d266b97f4c40e7239d4057ffbd40ed44d86060b8a940f0215c29e0309b40eee31f5794aac040e97aa63af513f340e1d4e75335de2b40d49718beb7308240c28f4d64f097b840a6b10e855617d2,
  0x40a0e9d0b37948b540ad4b75c1492ffb40b03ff3b1366a7c40aa44e5f1686fec40a016246dbfa01c408e005fff6668514074e3ed3c47fdcf4054ad1320e70bb1402a2744ce9674f43ff0000000000000402ad5336963eefb4056eeee8953be07407a7b2b07fb8cc440971c9ee362326340b02da26bf7f01240c2d39097acd61340d2a221cf940a6640dfd9d266b97f4c40e7bd800000000040ef0b5cccb8d81440f1d9698367751740f208c3cd0a261b40efe065ff5cced740e86ac06fb9b79840dfe5f2a523635640d143f2ec49d12440bd4b75c1492ffb40a0e9d0b37948b5,
  0x409747f768cc96ed40a1ebfbfb88cfe840a165ac32402bb040981b30992284fc40889a71ba85afcd40725aa9e44c4f1c40532b9817efd0dd40294c583ada5b523ff0000000000000402a2744ce9674f44055ee274e9188554078fdb3181aff8f4095a492039ef51040ae38fc4712553f40c1a13dd420070f40d195b6a2f1271d40de75324560e77640e7239d4057ffbd40ef0b5cccb8d81440f273e00000000040f37366c61feabe40f22400aca6af6540edc637e2c6a57a40e549476c9334ac40da11f9fc77e74040ca8fcdc39442b440b5483b3ab276e3409747f768cc96ed,
  0x408d72d3d6b70ea34093d5f7d53e246a4090811ff62f36f340830ec1022a151c406f1ef8c94666db4051698b311e50fa40283fab8b4d43153ff000000000000040294c583ada5b524054ad1320e70bb140771dd662a795f34093c1d35bd1365240ab60542993aa6140bfdb7faea331bd40cfdb7faea331bd40dbcdd57a39f90a40e5674fa377fad940ed44d86060b8a940f1d9698367751740f37366c61feabe40f2ed000000000040f063e4a0fa791740e91b9e6c8a927b40e0d408871f5ac340d365dfe233fa0f40c2aa6a3e0abb1940ac563d79c67d2a408d72d3d6b70ea3,
  0x4081008b4910b1804083a1e28f24b46d407b39a603178bdf40692649159d478b404ecd41d33eeffd4026fa6ea162d0f03ff000000000000040283fab8b4d431540532b9817efd0dd4074e3ed3c47fdcf4091845f7422f51340a7f449a461351540bba8f4b3be7f4040cb96de7db1019540d82402adfae16240e2ba65af08fb7e40e9f34fc7694ed740f0215c29e0309b40f208c3cd0a261b40f22400aca6af6540f063e4a0fa791740ea7f000000000040e306abca30c9f040d800f4cc1f8c0540ca21c7f0756c5640b7d27142b49a6340a12da63d401ddf4081008b4910b180,
  0x4071c21582ef075f40711678ad7335af4062f50a50109b72404a4491e34f47d9402572969b8b5cd83ff00000000000004026fa6ea162d0f04051698b311e50fa40725aa9e44c4f1c408e005fff66685140a42026f4b8e7bb40b6ef37ebd9a55f40c6b2ffcd3fd57c40d3cfa30260b99840ded136757a044240e58457cfe4825d40eb1ab673d2ac2b40eee31f5794aac040efe065ff5cced740edc637e2c6a57a40e91b9e6c8a927b40e306abca30c9f040d9b7800000000040cea476acba5be640bf9a7f857b627140ab5e93b064c6d34092cbeb2531ee404071c21582ef075f,
  0x40608f3ec67711f340597ebeb6d6bbf3404536948017480f4023988e1409212e3ff0000000000000402572969b8b5cd8404ecd41d33eeffd406f1ef8c94666db40889a71ba85afcd40a016246dbfa01c40b1fc391a8ee0e840c191458c5b2b6040ce6d80c6c4181540d79b06f8aacb9040e0861e7addf4e540e4fa094335bb4540e838c89e9cbbce40e97aa63af513f340e86ac06fb9b79840e549476c9334ac40e0d408871f5ac340d800f4cc1f8c0540cea476acba5be640c14b800000000040b0f20bdc936511409bf3ebae1ead9f40825319136a571740608f3ec67711f3,
  0x404b0aa8901b4454403f3998f1b1886c4021520cd1372fea3ff00000000000004023988e1409212e404a4491e34f47d940692649159d478b40830ec1022a151c40981b30992284fc40aa44e5f1686fec40b92c91dee2a31040c58402aaaa805c40d090118261025040d720eeebf5067640dd6fbbb7f2083940e1209dbe18ae0740e24176a0529b7540e1d4e75335de2b40dfe5f2a523635640da11f9fc77e74040d365dfe233fa0f40ca21c7f0756c5640bf9a7f857b627140b0f20bdc936511409fa000000000004088e5f26cbf54e1406f3998f1b1886c404b0aa8901b4454,
  0x4032bc2891041ea7401cd82b446159f33ff00000000000004021520cd1372fea404536948017480f4062f50a50109b72407b39a603178bdf4090811ff62f36f340a165ac32402bb040b03ff3b1366a7c40bb4073930183f740c4b415e2f942e540ccb0038e38ab2640d23586aa67d68740d53e72717924f340d6d1d44867425240d695e954b2d49c40d49718beb7308240d143f2ec49d12440ca8fcdc39442b440c2aa6a3e0abb1940b7d27142b49a6340ab5e93b064c6d3409bf3ebae1ead9f4088e5f26cbf54e14072c00000000000405688e1cd6c0e464032bc2891041ea7,
  0x4014c8dc2e42397f3ff0000000000000401cd82b446159f3403f3998f1b1886c40597ebeb6d6bbf340711678ad7335af4083a1e28f24b46d4093d5f7d53e246a40a1ebfbfb88cfe840ad4b75c1492ffb40b5d5c476c0b27e40bddbe45a82010340c2ce67448e4c7240c5e275013eec4440c7916a501c60e740c7820115b1df8f40c5b731b63000bc40c28f4d64f097b840bd4b75c1492ffb40b5483b3ab276e340ac563d79c67d2a40a12da63d401ddf4092cbeb2531ee4040825319136a5717406f3998f1b1886c405688e1cd6c0e46403a0000000000004014c8dc2e42397f,
  0x3ff00000000000004014c8dc2e42397f4032bc2891041ea7404b0aa8901b445440608f3ec67711f34071c21582ef075f4081008b4910b180408d72d3d6b70ea3409747f768cc96ed40a0e9d0b37948b540a6b10e855617d240ac359ae6d572ab40b0496548a4008d40b17ea63bccbb2f40b17ea63bccbb2f40b0496548a4008d40ac359ae6d572ab40a6b10e855617d240a0e9d0b37948b5409747f768cc96ed408d72d3d6b70ea34081008b4910b1804071c21582ef075f40608f3ec67711f3404b0aa8901b44544032bc2891041ea74014c8dc2e42397f3ff0000000000000]

/-- The coefficients for `2 ell = 28`: one number for each of the 29 values of `mp`, consisting of the doubles for the 29 values of `m`. -/
def wigner28 : List Nat := [
  0x3ff000000000000040152a7fa9d2f8e940337135779c8dca404c9e40c8fdbe804061e2e87d9e9710407397f14d255b8940832e54fb9d675f4091008b4910b180409b8bed69d4d8d340a48832438f09fd40ac4d2aaa8a814540b21a062ff2916440b58b978ca7de5040b7e6fffaa516a140b8bdc4434b919d40b7e6fffaa516a140b58b978ca7de5040b21a062ff2916440ac4d2aaa8a814540a48832438f09fd409b8bed69d4d8d34091008b4910b18040832e54fb9d675f407397f14d255b894061e2e87d9e9710404c9e40c8fdbe8040337135779c8dca40152a7fa9d2f8e93ff0000000000000,
  0x40152a7fa9d2f8e9403b0000000000004057e1ed286b20704070e6a95a110ab4408447fe6c14733f40954a9032b398f040a3efcf7287169540b0de67ecb9e9b140ba0771ef1e9a5e40c26e4e884ca22640c8116f62c23cdc40cd13dc31fc63af40d0496548a4008d40d0f06eff861f7540d05d649232282140cd5c7c214ee13240c86e17ecf600d340c2d09d89c16dad40babe09fbf4439f40b175f98e99713140a4d2c18c187b7e40967ddfe64d37974085bfcb08935e744072839ec7ea15af405b0aa8901b4454404039985676c298401d64d51e0db1c53ff000000000000040152a7fa9d2f8e9,
  0x40337135779c8dca4057e1ed286b20704074500000000000408b9968a01bc895409fbd3851b98d1240afdf013d472b3f40bc7cad2cb4c67e40c6f49b2d86b4b040d0d334804dda5140d692b8d5f738a940dbd6f41768e39440dfa7d9353ade9740e09f5f2187f98540e022cc0c50b77040dcf35aa28f19bc40d7f92f283d684f40d248e8a4e25f4640c99a95547724fa40c06053591085df40b3024acf21074b40a3d5f7d53e246a40925d48f138908d407d98ce84e3b6f4406427d84f3a298440461453b3496d444021a9dc8f6df1033ff0000000000000401d64d51e0db1c540337135779c8dca,
  0x404c9e40c8fdbe804070e6a95a110ab4408b9968a01bc89540a1f8000000000040b3c4000000000040c2f2154fa8016a40d020aa3ff64b5040d8b13fb71a5f7540e125412416889640e5b9a5a7b940b540e937bfa451912140eae1d9e3c5bd6840ea59903825f80c40e7c05e5f4480ce40e3ab0609a8213e40dddbe45a82010340d4b415e2f942e540ca1771994efb9940bdaaff9423b9cc40ae21fcbf6b263c409af39998d711fd4084cb282e670d04406acf3c426e340e404b62d946c44ef240240000000000003ff00000000000004021a9dc8f6df103404039985676c298404c9e40c8fdbe80,
  0x4061e2e87d9e9710408447fe6c14733f409fbd3851b98d1240b3c4000000000040c4c1000000000040d2f2154fa8016a40dea476acba5be640e6391fbe64891d40ed25bb8a264e9940f1615152fa9a2a40f2e9cfbb3d2cd840f2d14bb90a6afc40f1209dbe18ae0740ec80713f1f00f740e5a286a438f15e40dddbe45a82010340d2a213b2ad229a40c4df8e143f2fae40b4c47fb47f687540a2146472d9e3bd408af39998d711fd4070a2868b85a403405015f0f4a885a24025e8add236a58e3ff0000000000000402400000000000040461453b3496d44405b0aa8901b44544061e2e87d9e9710,
  0x407397f14d255b8940954a9032b398f040afdf013d472b3f40c2f2154fa8016a40d2f2154fa8016a40e06e200000000040e92ce26d01568240f13e6ba77d001d40f549476c9334ac40f7cc7aa8b414f340f82bedb13424cc40f654d70ef19f0540f2c31b3b90c5e440ec9ec7f8a87daa40e3bff596448bca40d888191e47472440cb3724b06cb9c740baad2a9a8a0b9240a6bfeec4e5c8484090811ff62f36f34073aec162048ca4405238fb24b5c35b40277ea35d632e433ff00000000000004025e8add236a58e404b62d946c44ef2406427d84f3a29844072839ec7ea15af407397f14d255b89,
  0x40832e54fb9d675f40a3efcf7287169540bc7cad2cb4c67e40d020aa3ff64b5040dea476acba5be640e92ce26d01568240f237500000000040f77c7ca443ccaa40fb2e19fc45b2c440fc5cc488f9e63040fabfc4d652e95540f6cfcc03fa12e240f1918b11b7950440e85cf86521941840de430d988e9bc040d0b4c795cde1e440c03794105ab0f040ab400c0962551b40935da9262bcf2840767aaa08b30a7440541b20cd3676d24028d1c0be7f20ab3ff000000000000040277ea35d632e43405015f0f4a885a2406acf3c426e340e407d98ce84e3b6f44085bfcb08935e7440832e54fb9d675f,
  0x4091008b4910b18040b0de67ecb9e9b140c6f49b2d86b4b040d8b13fb71a5f7540e6391fbe64891d40f13e6ba77d001d40f77c7ca443ccaa40fc63800000000040fea9cc136528a040fdb6294f8593dd40f9ddb51284de3840f4386d3dc2554e40ec50727ed027d640e1ab4df3ab333240d38233e0274a3a40c2d8dbae947ae040af5d0c9c3947b24095f57579831cee4078f7feb7e8e5f54055bcb04cb659094029ec474a2612633ff00000000000004028d1c0be7f20ab405238fb24b5c35b4070a2868b85a4034084cb282e670d0440925d48f138908d40967ddfe64d37974091008b4910b180,
  0x409b8bed69d4d8d340ba0771ef1e9a5e40d0d334804dda5140e125412416889640ed25bb8a264e9940f549476c9334ac40fb2e19fc45b2c440fea9cc136528a040fec1200000000040fb81efe45a624e40f5f3a248488a7f40ef33665c1a528840e3a91190c7ade540d5cfb0343e5d1240c5125afa644e8340b172f35cfeb0db4098328bc5e21119407b1b478d691cd740571dd662a795f3402ad5336963eefb3ff00000000000004029ec474a26126340541b20cd3676d24073aec162048ca4408af39998d711fd409af39998d711fd40a3d5f7d53e246a40a4d2c18c187b7e409b8bed69d4d8d3,
  0x40a48832438f09fd40c26e4e884ca22640d692b8d5f738a940e5b9a5a7b940b540f1615152fa9a2a40f7cc7aa8b414f340fc5cc488f9e63040fdb6294f8593dd40fb81efe45a624e40f68da00000000040f05ca0b8742b5540e4ee1c5712f0c340d77248d941897c40c6c291dad8814440b2d8dbae947ae0409a02efd589b84e407cdb6d5a2946c040583eae264fdbd1402b916ed68964ec3ff0000000000000402ad5336963eefb4055bcb04cb6590940767aaa08b30a744090811ff62f36f340a2146472d9e3bd40ae21fcbf6b263c40b3024acf21074b40b175f98e99713140a48832438f09fd,
  0x40ac4d2aaa8a814540c8116f62c23cdc40dbd6f41768e39440e937bfa451912140f2e9cfbb3d2cd840f82bedb13424cc40fabfc4d652e95540f9ddb51284de3840f5f3a248488a7f40f05ca0b8742b5540e55dc00000000040d84b7dc5acb63440c7d05223bae64840b3d072107be4f6409b58a3d51f6e74407e3170dc2a817740591f4896388268402c247a85fe81fa3ff0000000000000402b916ed68964ec40571dd662a795f34078f7feb7e8e5f540935da9262bcf2840a6bfeec4e5c84840b4c47fb47f687540bdaaff9423b9cc40c06053591085df40babe09fbf4439f40ac4d2aaa8a8145,
  0x40b21a062ff2916440cd13dc31fc63af40dfa7d9353ade9740eae1d9e3c5bd6840f2d14bb90a6afc40f654d70ef19f0540f6cfcc03fa12e240f4386d3dc2554e40ef33665c1a528840e4ee1c5712f0c340d84b7dc5acb63440c82c000000000040b44ef5bbbe2e34409c29a901f5ec10407f18389a2bad694059bfb076d236ea402c90d29d2d43cd3ff0000000000000402c247a85fe81fa40583eae264fdbd1407b1b478d691cd74095f57579831cee40ab400c0962551b40baad2a9a8a0b9240c4df8e143f2fae40ca1771994efb9940c99a95547724fa40c2d09d89c16dad40b21a062ff29164,
  0x40b58b978ca7de5040d0496548a4008d40e09f5f2187f98540ea59903825f80c40f1209dbe18ae0740f2c31b3b90c5e440f1918b11b7950440ec50727ed027d640e3a91190c7ade540d77248d941897c40c7d05223bae64840b44ef5bbbe2e34409c700000000000407f8c6f52ca7a62405a1fec66dc7a0c402cd82b446159f33ff0000000000000402c90d29d2d43cd40591f4896388268407cdb6d5a2946c04098328bc5e2111940af5d0c9c3947b240c03794105ab0f040cb3724b06cb9c740d2a213b2ad229a40d4b415e2f942e540d248e8a4e25f4640c86e17ecf600d340b58b978ca7de50,
  0x40b7e6fffaa516a140d0f06eff861f7540e022cc0c50b77040e7c05e5f4480ce40ec80713f1f00f740ec9ec7f8a87daa40e85cf86521941840e1ab4df3ab333240d5cfb0343e5d1240c6c291dad8814440b3d072107be4f6409c29a901f5ec10407f8c6f52ca7a62405a400000000000402cfb95bb9dcc0c3ff0000000000000402cd82b446159f34059bfb076d236ea407e3170dc2a8177409a02efd589b84e40b172f35cfeb0db40c2d8dbae947ae040d0b4c795cde1e440d888191e47472440dddbe45a82010340dddbe45a82010340d7f92f283d684f40cd5c7c214ee13240b7e6fffaa516a1,
  0x40b8bdc4434b919d40d05d649232282140dcf35aa28f19bc40e3ab0609a8213e40e5a286a438f15e40e3bff596448bca40de430d988e9bc040d38233e0274a3a40c5125afa644e8340b2d8dbae947ae0409b58a3d51f6e74407f18389a2bad69405a1fec66dc7a0c402cfb95bb9dcc0c3ff0000000000000402cfb95bb9dcc0c405a1fec66dc7a0c407f18389a2bad69409b58a3d51f6e7440b2d8dbae947ae040c5125afa644e8340d38233e0274a3a40de430d988e9bc040e3bff596448bca40e5a286a438f15e40e3ab0609a8213e40dcf35aa28f19bc40d05d649232282140b8bdc4434b919d,
  0x40b7e6fffaa516a140cd5c7c214ee13240d7f92f283d684f40dddbe45a82010340dddbe45a82010340d888191e47472440d0b4c795cde1e440c2d8dbae947ae040b172f35cfeb0db409a02efd589b84e407e3170dc2a81774059bfb076d236ea402cd82b446159f33ff0000000000000402cfb95bb9dcc0c405a400000000000407f8c6f52ca7a62409c29a901f5ec1040b3d072107be4f640c6c291dad8814440d5cfb0343e5d1240e1ab4df3ab333240e85cf86521941840ec9ec7f8a87daa40ec80713f1f00f740e7c05e5f4480ce40e022cc0c50b77040d0f06eff861f7540b7e6fffaa516a1,
  0x40b58b978ca7de5040c86e17ecf600d340d248e8a4e25f4640d4b415e2f942e540d2a213b2ad229a40cb3724b06cb9c740c03794105ab0f040af5d0c9c3947b24098328bc5e21119407cdb6d5a2946c040591f4896388268402c90d29d2d43cd3ff0000000000000402cd82b446159f3405a1fec66dc7a0c407f8c6f52ca7a62409c70000000000040b44ef5bbbe2e3440c7d05223bae64840d77248d941897c40e3a91190c7ade540ec50727ed027d640f1918b11b7950440f2c31b3b90c5e440f1209dbe18ae0740ea59903825f80c40e09f5f2187f98540d0496548a4008d40b58b978ca7de50,
  0x40b21a062ff2916440c2d09d89c16dad40c99a95547724fa40ca1771994efb9940c4df8e143f2fae40baad2a9a8a0b9240ab400c0962551b4095f57579831cee407b1b478d691cd740583eae264fdbd1402c247a85fe81fa3ff0000000000000402c90d29d2d43cd4059bfb076d236ea407f18389a2bad69409c29a901f5ec1040b44ef5bbbe2e3440c82c000000000040d84b7dc5acb63440e4ee1c5712f0c340ef33665c1a528840f4386d3dc2554e40f6cfcc03fa12e240f654d70ef19f0540f2d14bb90a6afc40eae1d9e3c5bd6840dfa7d9353ade9740cd13dc31fc63af40b21a062ff29164,
  0x40ac4d2aaa8a814540babe09fbf4439f40c06053591085df40bdaaff9423b9cc40b4c47fb47f687540a6bfeec4e5c84840935da9262bcf284078f7feb7e8e5f540571dd662a795f3402b916ed68964ec3ff0000000000000402c247a85fe81fa40591f4896388268407e3170dc2a8177409b58a3d51f6e7440b3d072107be4f640c7d05223bae64840d84b7dc5acb63440e55dc00000000040f05ca0b8742b5540f5f3a248488a7f40f9ddb51284de3840fabfc4d652e95540f82bedb13424cc40f2e9cfbb3d2cd840e937bfa451912140dbd6f41768e39440c8116f62c23cdc40ac4d2aaa8a8145,
  0x40a48832438f09fd40b175f98e99713140b3024acf21074b40ae21fcbf6b263c40a2146472d9e3bd4090811ff62f36f340767aaa08b30a744055bcb04cb65909402ad5336963eefb3ff0000000000000402b916ed68964ec40583eae264fdbd1407cdb6d5a2946c0409a02efd589b84e40b2d8dbae947ae040c6c291dad8814440d77248d941897c40e4ee1c5712f0c340f05ca0b8742b5540f68da00000000040fb81efe45a624e40fdb6294f8593dd40fc5cc488f9e63040f7cc7aa8b414f340f1615152fa9a2a40e5b9a5a7b940b540d692b8d5f738a940c26e4e884ca22640a48832438f09fd,
  0x409b8bed69d4d8d340a4d2c18c187b7e40a3d5f7d53e246a409af39998d711fd408af39998d711fd4073aec162048ca440541b20cd3676d24029ec474a2612633ff0000000000000402ad5336963eefb40571dd662a795f3407b1b478d691cd74098328bc5e2111940b172f35cfeb0db40c5125afa644e8340d5cfb0343e5d1240e3a91190c7ade540ef33665c1a528840f5f3a248488a7f40fb81efe45a624e40fec1200000000040fea9cc136528a040fb2e19fc45b2c440f549476c9334ac40ed25bb8a264e9940e125412416889640d0d334804dda5140ba0771ef1e9a5e409b8bed69d4d8d3,
  0x4091008b4910b18040967ddfe64d379740925d48f138908d4084cb282e670d044070a2868b85a403405238fb24b5c35b4028d1c0be7f20ab3ff00000000000004029ec474a2612634055bcb04cb659094078f7feb7e8e5f54095f57579831cee40af5d0c9c3947b240c2d8dbae947ae040d38233e0274a3a40e1ab4df3ab333240ec50727ed027d640f4386d3dc2554e40f9ddb51284de3840fdb6294f8593dd40fea9cc136528a040fc63800000000040f77c7ca443ccaa40f13e6ba77d001d40e6391fbe64891d40d8b13fb71a5f7540c6f49b2d86b4b040b0de67ecb9e9b14091008b4910b180,
  0x40832e54fb9d675f4085bfcb08935e74407d98ce84e3b6f4406acf3c426e340e405015f0f4a885a240277ea35d632e433ff00000000000004028d1c0be7f20ab40541b20cd3676d240767aaa08b30a7440935da9262bcf2840ab400c0962551b40c03794105ab0f040d0b4c795cde1e440de430d988e9bc040e85cf86521941840f1918b11b7950440f6cfcc03fa12e240fabfc4d652e95540fc5cc488f9e63040fb2e19fc45b2c440f77c7ca443ccaa40f237500000000040e92ce26d01568240dea476acba5be640d020aa3ff64b5040bc7cad2cb4c67e40a3efcf7287169540832e54fb9d675f,
  0x407397f14d255b894072839ec7ea15af406427d84f3a2984404b62d946c44ef24025e8add236a58e3ff000000000000040277ea35d632e43405238fb24b5c35b4073aec162048ca44090811ff62f36f340a6bfeec4e5c84840baad2a9a8a0b9240cb3724b06cb9c740d888191e47472440e3bff596448bca40ec9ec7f8a87daa40f2c31b3b90c5e440f654d70ef19f0540f82bedb13424cc40f7cc7aa8b414f340f549476c9334ac40f13e6ba77d001d40e92ce26d01568240e06e200000000040d2f2154fa8016a40c2f2154fa8016a40afdf013d472b3f40954a9032b398f0407397f14d255b89,
  0x4061e2e87d9e9710405b0aa8901b445440461453b3496d4440240000000000003ff00000000000004025e8add236a58e405015f0f4a885a24070a2868b85a403408af39998d711fd40a2146472d9e3bd40b4c47fb47f687540c4df8e143f2fae40d2a213b2ad229a40dddbe45a82010340e5a286a438f15e40ec80713f1f00f740f1209dbe18ae0740f2d14bb90a6afc40f2e9cfbb3d2cd840f1615152fa9a2a40ed25bb8a264e9940e6391fbe64891d40dea476acba5be640d2f2154fa8016a40c4c1000000000040b3c40000000000409fbd3851b98d12408447fe6c14733f4061e2e87d9e9710,
  0x404c9e40c8fdbe80404039985676c2984021a9dc8f6df1033ff00000000000004024000000000000404b62d946c44ef2406acf3c426e340e4084cb282e670d04409af39998d711fd40ae21fcbf6b263c40bdaaff9423b9cc40ca1771994efb9940d4b415e2f942e540dddbe45a82010340e3ab0609a8213e40e7c05e5f4480ce40ea59903825f80c40eae1d9e3c5bd6840e937bfa451912140e5b9a5a7b940b540e125412416889640d8b13fb71a5f7540d020aa3ff64b5040c2f2154fa8016a40b3c4000000000040a1f80000000000408b9968a01bc8954070e6a95a110ab4404c9e40c8fdbe80,
  0x40337135779c8dca401d64d51e0db1c53ff00000000000004021a9dc8f6df10340461453b3496d44406427d84f3a2984407d98ce84e3b6f440925d48f138908d40a3d5f7d53e246a40b3024acf21074b40c06053591085df40c99a95547724fa40d248e8a4e25f4640d7f92f283d684f40dcf35aa28f19bc40e022cc0c50b77040e09f5f2187f98540dfa7d9353ade9740dbd6f41768e39440d692b8d5f738a940d0d334804dda5140c6f49b2d86b4b040bc7cad2cb4c67e40afdf013d472b3f409fbd3851b98d12408b9968a01bc89540745000000000004057e1ed286b207040337135779c8dca,
  0x40152a7fa9d2f8e93ff0000000000000401d64d51e0db1c5404039985676c298405b0aa8901b44544072839ec7ea15af4085bfcb08935e7440967ddfe64d379740a4d2c18c187b7e40b175f98e99713140babe09fbf4439f40c2d09d89c16dad40c86e17ecf600d340cd5c7c214ee13240d05d649232282140d0f06eff861f7540d0496548a4008d40cd13dc31fc63af40c8116f62c23cdc40c26e4e884ca22640ba0771ef1e9a5e40b0de67ecb9e9b140a3efcf7287169540954a9032b398f0408447fe6c14733f4070e6a95a110ab44057e1ed286b2070403b00000000000040152a7fa9d2f8e9,
  0x3ff000000000000040152a7fa9d2f8e940337135779c8dca404c9e40c8fdbe804061e2e87d9e9710407397f14d255b8940832e54fb9d675f4091008b4910b180409b8bed69d4d8d340a48832438f09fd40ac4d2aaa8a814540b21a062ff2916440b58b978ca7de5040b7e6fffaa516a140b8bdc4434b919d40b7e6fffaa516a140b58b978ca7de5040b21a062ff2916440ac4d2aaa8a814540a48832438f09fd409b8bed69d4d8d34091008b4910b18040832e54fb9d675f407397f14d255b894061e2e87d9e9710404c9e40c8fdbe8040337135779c8dca40152a7fa9d2f8e93ff0000000000000]

/-- The coefficients for `2 ell = 29`: one number for each of the 30 values of `mp`, consisting of the doubles for the 30 values of `m`. -/
def wigner29 : List Nat := [
  0x3ff000000000000040158a68a4a8d9f340342641cf569571404e3962b701e02a406343a290dde647407589bc4eb2520c408589bc4eb2520c4093853f4b4456a340a02f7f9f1f990c40a8b94c6d12ded640b17b7d6b38a35140b6f9f234096fd140bc23e221c4a74240c016fa56232cd440c1335f60d1fafc40c1335f60d1fafc40c016fa56232cd440bc23e221c4a74240b6f9f234096fd140b17b7d6b38a35140a8b94c6d12ded640a02f7f9f1f990c4093853f4b4456a3408589bc4eb2520c407589bc4eb2520c406343a290dde647404e3962b701e02a40342641cf56957140158a68a4a8d9f33ff0000000000000,
  0x40158a68a4a8d9f3403c000000000000405941957eaff56540723d96a29b869040865ba29d063cd44097ff3ffcffe7ff40a6ff47fd1fe8ff40b3efcf7287169540bf8eff6dfc61ec40c6f49b2d86b4b040ced73cc1abd56840d3331ff78ff78e40d635579340683c40d7e6fffaa516a140d7f4a4a81f3b2540d65bcce12e373440d36baffba6226340cf5a5d849729be40c7775ff5aff5ad40c03b63587562d840b4a8f20f5fa29e40a80b6d479bb85240995fc234abee324087ff3ffcffe7ff4073ff5ffd7febff405c9e40c8fdbe804040d663a9caa399401deeea11683f493ff000000000000040158a68a4a8d9f3,
  0x40342641cf569571405941957eaff5654075f00000000000408e78000000000040a1ed1e188efc2740b2705385c4fd4c40c0e6f73a9f3d8540cbf94420b54b8740d51601e7e8641d40dd244c4c7a7bd240e28bb460c5cdfc40e5cee5257d4ac340e7bde2e7ec26f140e7f4a4a81f3b2540e6688ffafac53740e36baffba6226340df246fa75bcce440d70b1fff3807ae40cf5bb13aed0c2140c385957356f3c640b6161ee1094afa40a67ddfe64d3797409458318c26c291408008a1abf9354d406560d78ff6f1bc4046f2120af475f540220000000000003ff0000000000000401deeea11683f4940342641cf569571,
  0x404e3962b701e02a40723d96a29b8690408e78000000000040a450000000000040b6e7df5844ecdd40c68949a37efcb240d3b8206f0f1d1c40df14f65d3b377a40e641e5913c69ad40ed244c4c7a7bd240f183f177d7428b40f36292cbfd97ca40f3c8e7c144cb1e40f2a1d566512e0140f02f12a70a71fd40e9e4eaa4dd832f40e3080b580d6efd40d99a95547724fa40cf5bb13aed0c2140c15a4bf4bf119440b12da63d401ddf409dfd2a8866f4c940869ae1b82b1112406c811f6a9e97a6404c811f6a9e97a6402465655f122ff63ff000000000000040220000000000004040d663a9caa399404e3962b701e02a,
  0x406343a290dde64740865ba29d063cd440a1ed1e188efc2740b6e7df5844ecdd40c8b5000000000040d7341d5542cac840e3561871b7a8fc40ecf452441169bc40f3a485cf8e530940f84a1c4875417f40fb7afd2b1ef79540fc834e2eee22f940fb292ae4f4090a40f7c05e5f4480ce40f30b23ffddf90140ebee34cc9ae4ac40e2a96eb89140a140d698916645a49040c89970a0f59ba940b7d27142b49a6340a436b332a14d7e408d6814acfefd104071bb9a7f6de1374050c54021de755d40265c55827df1d13ff0000000000000402465655f122ff64046f2120af475f5405c9e40c8fdbe80406343a290dde647,
  0x407589bc4eb2520c4097ff3ffcffe7ff40b2705385c4fd4c40c68949a37efcb240d7341d5542cac840e4c1000000000040f06e200000000040f74ecdb7f819ed40fdde0029913e184101615152fa9a2a41026f36cbc409f54101da168b17858e40ff94d52ffbce5040f97e22ee915f8a40f2bc81110d648c40e8fb56c16730ba40de0b84992b552c40d02b19932ffe6440becda46373e16e40a991890799cffd4092146472d9e3bd40750aa7f6895f9d40530869ed317c7840280000000000003ff000000000000040265c55827df1d1404c811f6a9e97a6406560d78ff6f1bc4073ff5ffd7febff407589bc4eb2520c,
  0x408589bc4eb2520c40a6ff47fd1fe8ff40c0e6f73a9f3d8540d3b8206f0f1d1c40e3561871b7a8fc40f06e200000000040f8a530000000004100827c624fbd084103e955710b7ebb4105b9a5a7b940b5410581bfedba0b9d410356edc1597b5a40ff94d52ffbce5040f75e4ab005423e40ef3a2c71c0fce940e2bc81110d648c40d407adbb7238c840c2dcf32bb7fe1f40aecda46373e16e40954e9cdbaad7fe40781b30992284fc40550aa7f6895f9d4029608d3c41fb4b3ff000000000000040280000000000004050c54021de755d406c811f6a9e97a6408008a1abf9354d4087ff3ffcffe7ff408589bc4eb2520c,
  0x4093853f4b4456a340b3efcf7287169540cbf94420b54b8740df14f65d3b377a40ecf452441169bc40f74ecdb7f819ed4100827c624fbd084104d18000000000410789e485c1e9534107f877fe7e3199410608e157af7eb741024a410f9f85f540fb60ea37fea40f40f26ab4d55286f440e62643242c84d240d7a0479e0d5a7940c619a5ccc96ebf40b1d6e510cafcda409846c1b2a942fd407ade23a8116e304056cc4b7270baaa402a887293fd6f343ff00000000000004029608d3c41fb4b40530869ed317c784071bb9a7f6de13740869ae1b82b1112409458318c26c29140995fc234abee324093853f4b4456a3,
  0x40a02f7f9f1f990c40bf8eff6dfc61ec40d51601e7e8641d40e641e5913c69ad40f3a485cf8e530940fdde0029913e184103e955710b7ebb410789e485c1e9534108d7100000000041077d32d3d3bc184103ee5e3fce8d9b40fe54a3dca37ff640f4a32b1c5d8ed640e8fceb27626f5540dab697f6863cf440c8eeaff727f49f40b3fd88ec4ebf77409ae4da5a4000cd407d47474caed13d40584d82d583b13d402b7ed6159fadc73ff0000000000000402a887293fd6f3440550aa7f6895f9d40750aa7f6895f9d408d6814acfefd10409dfd2a8866f4c940a67ddfe64d379740a80b6d479bb85240a02f7f9f1f990c,
  0x40a8b94c6d12ded640c6f49b2d86b4b040dd244c4c7a7bd240ed244c4c7a7bd240f84a1c4875417f4101615152fa9a2a4105b9a5a7b940b54107f877fe7e319941077d32d3d3bc18410480c00000000040ffe5238706347040f60ff1d0d7e7ae40eb054a8a6308b240dd14eaf05326c340cb341535ee9d4040b5c3442b254a9a409d14eaf05326c3407f4cca2ec8700240598e6a5b547377402c48c6001f0abf3ff0000000000000402b7ed6159fadc74056cc4b7270baaa40781b30992284fc4092146472d9e3bd40a436b332a14d7e40b12da63d401ddf40b6161ee1094afa40b4a8f20f5fa29e40a8b94c6d12ded6,
  0x40b17b7d6b38a35140ced73cc1abd56840e28bb460c5cdfc40f183f177d7428b40fb7afd2b1ef79541026f36cbc409f5410581bfedba0b9d410608e157af7eb74103ee5e3fce8d9b40ffe5238706347040f68da00000000040ec14a8ec7e171440de9205873a2f3d40ccca17b07cbfbc40b715386282558b409ec6f5d8adc7644080737b404748fe405a8f13dc93da45402ce9e5ec2bda7f3ff0000000000000402c48c6001f0abf40584d82d583b13d407ade23a8116e3040954e9cdbaad7fe40a991890799cffd40b7d27142b49a6340c15a4bf4bf119440c385957356f3c640c03b63587562d840b17b7d6b38a351,
  0x40b6f9f234096fd140d3331ff78ff78e40e5cee5257d4ac340f36292cbfd97ca40fc834e2eee22f94101da168b17858e410356edc1597b5a41024a410f9f85f540fe54a3dca37ff640f60ff1d0d7e7ae40ec14a8ec7e171440df14000000000040cd9ab8a4c4cae040b7e5997abf5784409feefc7a20afb8408107fe1f005db7405b4f8ad56cf64e402d64d51e0db1c53ff0000000000000402ce9e5ec2bda7f40598e6a5b547377407d47474caed13d409846c1b2a942fd40aecda46373e16e40becda46373e16e40c89970a0f59ba940cf5bb13aed0c2140cf5bb13aed0c2140c7775ff5aff5ad40b6f9f234096fd1,
  0x40bc23e221c4a74240d635579340683c40e7bde2e7ec26f140f3c8e7c144cb1e40fb292ae4f4090a40ff94d52ffbce5040ff94d52ffbce5040fb60ea37fea40f40f4a32b1c5d8ed640eb054a8a6308b240de9205873a2f3d40cd9ab8a4c4cae040b82c000000000040a0427fcecc7dc9408161e61cb0517a405bcfd6944d4f29402dbb6d5ce3a42e3ff0000000000000402d64d51e0db1c5405a8f13dc93da45407f4cca2ec87002409ae4da5a4000cd40b1d6e510cafcda40c2dcf32bb7fe1f40d02b19932ffe6440d698916645a49040d99a95547724fa40d70b1fff3807ae40cf5a5d849729be40bc23e221c4a742,
  0x40c016fa56232cd440d7e6fffaa516a140e7f4a4a81f3b2540f2a1d566512e0140f7c05e5f4480ce40f97e22ee915f8a40f75e4ab005423e40f26ab4d55286f440e8fceb27626f5540dd14eaf05326c340ccca17b07cbfbc40b7e5997abf578440a0427fcecc7dc94081800000000000405c0ffb7051bb54402deeea11683f493ff0000000000000402dbb6d5ce3a42e405b4f8ad56cf64e4080737b404748fe409d14eaf05326c340b3fd88ec4ebf7740c619a5ccc96ebf40d407adbb7238c840de0b84992b552c40e2a96eb89140a140e3080b580d6efd40df246fa75bcce440d36baffba6226340c016fa56232cd4,
  0x40c1335f60d1fafc40d7f4a4a81f3b2540e6688ffafac53740f02f12a70a71fd40f30b23ffddf90140f2bc81110d648c40ef3a2c71c0fce940e62643242c84d240dab697f6863cf440cb341535ee9d4040b715386282558b409feefc7a20afb8408161e61cb0517a405c0ffb7051bb54402e0000000000003ff0000000000000402deeea11683f49405bcfd6944d4f29408107fe1f005db7409ec6f5d8adc76440b5c3442b254a9a40c8eeaff727f49f40d7a0479e0d5a7940e2bc81110d648c40e8fb56c16730ba40ebee34cc9ae4ac40e9e4eaa4dd832f40e36baffba6226340d65bcce12e373440c1335f60d1fafc,
  0x40c1335f60d1fafc40d65bcce12e373440e36baffba6226340e9e4eaa4dd832f40ebee34cc9ae4ac40e8fb56c16730ba40e2bc81110d648c40d7a0479e0d5a7940c8eeaff727f49f40b5c3442b254a9a409ec6f5d8adc764408107fe1f005db7405bcfd6944d4f29402deeea11683f493ff0000000000000402e000000000000405c0ffb7051bb54408161e61cb0517a409feefc7a20afb840b715386282558b40cb341535ee9d4040dab697f6863cf440e62643242c84d240ef3a2c71c0fce940f2bc81110d648c40f30b23ffddf90140f02f12a70a71fd40e6688ffafac53740d7f4a4a81f3b2540c1335f60d1fafc,
  0x40c016fa56232cd440d36baffba6226340df246fa75bcce440e3080b580d6efd40e2a96eb89140a140de0b84992b552c40d407adbb7238c840c619a5ccc96ebf40b3fd88ec4ebf77409d14eaf05326c34080737b404748fe405b4f8ad56cf64e402dbb6d5ce3a42e3ff0000000000000402deeea11683f49405c0ffb7051bb54408180000000000040a0427fcecc7dc940b7e5997abf578440ccca17b07cbfbc40dd14eaf05326c340e8fceb27626f5540f26ab4d55286f440f75e4ab005423e40f97e22ee915f8a40f7c05e5f4480ce40f2a1d566512e0140e7f4a4a81f3b2540d7e6fffaa516a140c016fa56232cd4,
  0x40bc23e221c4a74240cf5a5d849729be40d70b1fff3807ae40d99a95547724fa40d698916645a49040d02b19932ffe6440c2dcf32bb7fe1f40b1d6e510cafcda409ae4da5a4000cd407f4cca2ec87002405a8f13dc93da45402d64d51e0db1c53ff0000000000000402dbb6d5ce3a42e405bcfd6944d4f29408161e61cb0517a40a0427fcecc7dc940b82c000000000040cd9ab8a4c4cae040de9205873a2f3d40eb054a8a6308b240f4a32b1c5d8ed640fb60ea37fea40f40ff94d52ffbce5040ff94d52ffbce5040fb292ae4f4090a40f3c8e7c144cb1e40e7bde2e7ec26f140d635579340683c40bc23e221c4a742,
  0x40b6f9f234096fd140c7775ff5aff5ad40cf5bb13aed0c2140cf5bb13aed0c2140c89970a0f59ba940becda46373e16e40aecda46373e16e409846c1b2a942fd407d47474caed13d40598e6a5b547377402ce9e5ec2bda7f3ff0000000000000402d64d51e0db1c5405b4f8ad56cf64e408107fe1f005db7409feefc7a20afb840b7e5997abf578440cd9ab8a4c4cae040df14000000000040ec14a8ec7e171440f60ff1d0d7e7ae40fe54a3dca37ff641024a410f9f85f5410356edc1597b5a4101da168b17858e40fc834e2eee22f940f36292cbfd97ca40e5cee5257d4ac340d3331ff78ff78e40b6f9f234096fd1,
  0x40b17b7d6b38a35140c03b63587562d840c385957356f3c640c15a4bf4bf119440b7d27142b49a6340a991890799cffd40954e9cdbaad7fe407ade23a8116e3040584d82d583b13d402c48c6001f0abf3ff0000000000000402ce9e5ec2bda7f405a8f13dc93da454080737b404748fe409ec6f5d8adc76440b715386282558b40ccca17b07cbfbc40de9205873a2f3d40ec14a8ec7e171440f68da00000000040ffe523870634704103ee5e3fce8d9b410608e157af7eb7410581bfedba0b9d41026f36cbc409f540fb7afd2b1ef79540f183f177d7428b40e28bb460c5cdfc40ced73cc1abd56840b17b7d6b38a351,
  0x40a8b94c6d12ded640b4a8f20f5fa29e40b6161ee1094afa40b12da63d401ddf40a436b332a14d7e4092146472d9e3bd40781b30992284fc4056cc4b7270baaa402b7ed6159fadc73ff0000000000000402c48c6001f0abf40598e6a5b547377407f4cca2ec87002409d14eaf05326c340b5c3442b254a9a40cb341535ee9d4040dd14eaf05326c340eb054a8a6308b240f60ff1d0d7e7ae40ffe52387063470410480c00000000041077d32d3d3bc184107f877fe7e31994105b9a5a7b940b54101615152fa9a2a40f84a1c4875417f40ed244c4c7a7bd240dd244c4c7a7bd240c6f49b2d86b4b040a8b94c6d12ded6,
  0x40a02f7f9f1f990c40a80b6d479bb85240a67ddfe64d3797409dfd2a8866f4c9408d6814acfefd1040750aa7f6895f9d40550aa7f6895f9d402a887293fd6f343ff0000000000000402b7ed6159fadc740584d82d583b13d407d47474caed13d409ae4da5a4000cd40b3fd88ec4ebf7740c8eeaff727f49f40dab697f6863cf440e8fceb27626f5540f4a32b1c5d8ed640fe54a3dca37ff64103ee5e3fce8d9b41077d32d3d3bc184108d71000000000410789e485c1e9534103e955710b7ebb40fdde0029913e1840f3a485cf8e530940e641e5913c69ad40d51601e7e8641d40bf8eff6dfc61ec40a02f7f9f1f990c,
  0x4093853f4b4456a340995fc234abee32409458318c26c29140869ae1b82b11124071bb9a7f6de13740530869ed317c784029608d3c41fb4b3ff0000000000000402a887293fd6f344056cc4b7270baaa407ade23a8116e30409846c1b2a942fd40b1d6e510cafcda40c619a5ccc96ebf40d7a0479e0d5a7940e62643242c84d240f26ab4d55286f440fb60ea37fea40f41024a410f9f85f5410608e157af7eb74107f877fe7e3199410789e485c1e9534104d180000000004100827c624fbd0840f74ecdb7f819ed40ecf452441169bc40df14f65d3b377a40cbf94420b54b8740b3efcf728716954093853f4b4456a3,
  0x408589bc4eb2520c4087ff3ffcffe7ff408008a1abf9354d406c811f6a9e97a64050c54021de755d40280000000000003ff00000000000004029608d3c41fb4b40550aa7f6895f9d40781b30992284fc40954e9cdbaad7fe40aecda46373e16e40c2dcf32bb7fe1f40d407adbb7238c840e2bc81110d648c40ef3a2c71c0fce940f75e4ab005423e40ff94d52ffbce50410356edc1597b5a410581bfedba0b9d4105b9a5a7b940b54103e955710b7ebb4100827c624fbd0840f8a5300000000040f06e200000000040e3561871b7a8fc40d3b8206f0f1d1c40c0e6f73a9f3d8540a6ff47fd1fe8ff408589bc4eb2520c,
  0x407589bc4eb2520c4073ff5ffd7febff406560d78ff6f1bc404c811f6a9e97a640265c55827df1d13ff0000000000000402800000000000040530869ed317c7840750aa7f6895f9d4092146472d9e3bd40a991890799cffd40becda46373e16e40d02b19932ffe6440de0b84992b552c40e8fb56c16730ba40f2bc81110d648c40f97e22ee915f8a40ff94d52ffbce504101da168b17858e41026f36cbc409f54101615152fa9a2a40fdde0029913e1840f74ecdb7f819ed40f06e200000000040e4c1000000000040d7341d5542cac840c68949a37efcb240b2705385c4fd4c4097ff3ffcffe7ff407589bc4eb2520c,
  0x406343a290dde647405c9e40c8fdbe804046f2120af475f5402465655f122ff63ff000000000000040265c55827df1d14050c54021de755d4071bb9a7f6de137408d6814acfefd1040a436b332a14d7e40b7d27142b49a6340c89970a0f59ba940d698916645a49040e2a96eb89140a140ebee34cc9ae4ac40f30b23ffddf90140f7c05e5f4480ce40fb292ae4f4090a40fc834e2eee22f940fb7afd2b1ef79540f84a1c4875417f40f3a485cf8e530940ecf452441169bc40e3561871b7a8fc40d7341d5542cac840c8b5000000000040b6e7df5844ecdd40a1ed1e188efc2740865ba29d063cd4406343a290dde647,
  0x404e3962b701e02a4040d663a9caa39940220000000000003ff0000000000000402465655f122ff6404c811f6a9e97a6406c811f6a9e97a640869ae1b82b1112409dfd2a8866f4c940b12da63d401ddf40c15a4bf4bf119440cf5bb13aed0c2140d99a95547724fa40e3080b580d6efd40e9e4eaa4dd832f40f02f12a70a71fd40f2a1d566512e0140f3c8e7c144cb1e40f36292cbfd97ca40f183f177d7428b40ed244c4c7a7bd240e641e5913c69ad40df14f65d3b377a40d3b8206f0f1d1c40c68949a37efcb240b6e7df5844ecdd40a4500000000000408e78000000000040723d96a29b8690404e3962b701e02a,
  0x40342641cf569571401deeea11683f493ff000000000000040220000000000004046f2120af475f5406560d78ff6f1bc408008a1abf9354d409458318c26c29140a67ddfe64d379740b6161ee1094afa40c385957356f3c640cf5bb13aed0c2140d70b1fff3807ae40df246fa75bcce440e36baffba6226340e6688ffafac53740e7f4a4a81f3b2540e7bde2e7ec26f140e5cee5257d4ac340e28bb460c5cdfc40dd244c4c7a7bd240d51601e7e8641d40cbf94420b54b8740c0e6f73a9f3d8540b2705385c4fd4c40a1ed1e188efc27408e7800000000004075f00000000000405941957eaff56540342641cf569571,
  0x40158a68a4a8d9f33ff0000000000000401deeea11683f494040d663a9caa399405c9e40c8fdbe804073ff5ffd7febff4087ff3ffcffe7ff40995fc234abee3240a80b6d479bb85240b4a8f20f5fa29e40c03b63587562d840c7775ff5aff5ad40cf5a5d849729be40d36baffba6226340d65bcce12e373440d7f4a4a81f3b2540d7e6fffaa516a140d635579340683c40d3331ff78ff78e40ced73cc1abd56840c6f49b2d86b4b040bf8eff6dfc61ec40b3efcf7287169540a6ff47fd1fe8ff4097ff3ffcffe7ff40865ba29d063cd440723d96a29b8690405941957eaff565403c00000000000040158a68a4a8d9f3,
  0x3ff000000000000040158a68a4a8d9f340342641cf569571404e3962b701e02a406343a290dde647407589bc4eb2520c408589bc4eb2520c4093853f4b4456a340a02f7f9f1f990c40a8b94c6d12ded640b17b7d6b38a35140b6f9f234096fd140bc23e221c4a74240c016fa56232cd440c1335f60d1fafc40c1335f60d1fafc40c016fa56232cd440bc23e221c4a74240b6f9f234096fd140b17b7d6b38a35140a8b94c6d12ded640a02f7f9f1f990c4093853f4b4456a3408589bc4eb2520c407589bc4eb2520c406343a290dde647404e3962b701e02a40342641cf56957140158a68a4a8d9f33ff0000000000000]

/-- The coefficients for `2 ell = 30`: one number for each of the 31 values of `mp`, consisting of the doubles for the 31 values of `m`. -/
def wigner30 : List Nat := [
  0x3ff00000000000004015e8add236a58e4034db4da6bac4aa404fdbeba917c3f54064b16d0091eb1d407797fea4ca0c664088148b35155fd940964b422f6f19a840a2e6905796f29040ad8cf56cc9d32e40b5695554ab4a1540bcdf0741a20dca40c22a16317ed43140c55fbdff9a19b740c78d90f383c83540c8534f2867111a40c78d90f383c83540c55fbdff9a19b740c22a16317ed43140bcdf0741a20dca40b5695554ab4a1540ad8cf56cc9d32e40a2e6905796f29040964b422f6f19a84088148b35155fd9407797fea4ca0c664064b16d0091eb1d404fdbeba917c3f54034db4da6bac4aa4015e8add236a58e3ff0000000000000,
  0x4015e8add236a58e403d000000000000405aa7bb926a0be14073a1945190ac9140888ea034b18622409aec2b625ee68f40aa60eb5bbf0f7040b7677d2cb69dcd40c2faaec4e47c6a40cc531f56774bd540d38bbff5c4864940d909b3c13e6f9e40ddd8df43c63f2c40e095bec657982940e1335f60d1fafc40e0a78c1298c2cb40de19e6e96f773940d95d7e2049bb8a40d3e5ea2d2ed4c840ccfdc2a9dc813e40c38bbff5c4864940b8473f6eaf659240ab9b2cc14c57e0409c7dfc8f7a2447408a60eb5bbf0f70407589bc4eb2520c405e3962b701e02a4041732e8164279e401e768d399dc46f3ff00000000000004015e8add236a58e,
  0x4034db4da6bac4aa405aa7bb926a0be14077a000000000004090c14a752d4de540a427370df2a08040b535eac8cc5f8e40c3ea88fb3f462740d0e6f73a9f3d8540da2ac046514da340e2989857ea422440e861bbb039dbdd40ed96b755529f4140f0a801ae704e2d40f16bf3036ccf5a40f0f06eff861f7540ee9da2e8a6479240e9b0ec9d25050b40e3fbd2fc66392440dcbd8064353b9940d3089fda11380940c719388c00eb3d40b980d0ed990a4040a95fc234abee324096727bf0c34a9f408151823ea6534440669fe95eb7dd644047cfcf9f0d58064022548eb9151e853ff0000000000000401e768d399dc46f4034db4da6bac4aa,
  0x404fdbeba917c3f54073a1945190ac914090c14a752d4de540a6da000000000040ba62ff86ba12ff40ca9d343f607f2c40d7e740edf5606f40e35d29793deb7740ec8cefc719d40d40f34685f90b656140f7f142a208c5c040fb70fd2bd1f02c40fd13dc31fc63af40fc834e2eee22f940f9e002ffffd37a40f5b683f9eb534d40f0d19b8cccafdc40e7fc010355de2b40df5bb13aed0c2140d2b0d27b5ea52b40c4297b7af9e9e540b37a7736f3436a40a09c78e38cb33b40887deda06eb26c406e3bc476d73e46404d9f64731022b34024c8dc2e42397f3ff00000000000004022548eb9151e854041732e8164279e404fdbeba917c3f5,
  0x4064b16d0091eb1d40888ea034b1862240a427370df2a08040ba62ff86ba12ff40cd33000000000040dc2b9c0c5ebbdf40e826aad2d244ce40f2a2080781c22a40fa19604d0882534100b16c2ced4f424103953370d16c4841051fd6c9b06a634104fc24b07b785d410334a1c6238bb741002f12a70a71fd40f9126bbea30b0b40f1cd6151584a3040e71438b8516ff540db282f7afa234c40ccc6b737347abc40bb294b4f995abf40a67ddfe64d3797408ff7e2f8b1019f4072da97ceee8dd34051748e8b5cd9fc4026cdb2bbb212eb3ff00000000000004024c8dc2e42397f4047cfcf9f0d5806405e3962b701e02a4064b16d0091eb1d,
  0x407797fea4ca0c66409aec2b625ee68f40b535eac8cc5f8e40ca9d343f607f2c40dc2b9c0c5ebbdf40e9f1400000000040f52e8ed3b83e5540ff0cd43f94e9fe410499f5878683644108e3aacd4e5e69410b7afd2b1ef795410bca7b9ce6e1284109c45a9b16cb2d4105e5d2a999b8a5410108755551fe5040f830429fe3bebb40ef3a2c71c0fce940e237aaf45b507840d30df9dc1975fa40c1aab9d7b9144940ac9621833f1faa4093b9fd7720c9a340766e31d803d33e4053d7d7af35c95b40287eb1990b697a3ff00000000000004026cdb2bbb212eb404d9f64731022b340669fe95eb7dd64407589bc4eb2520c407797fea4ca0c66,
  0x4088148b35155fd940aa60eb5bbf0f7040c3ea88fb3f462740d7e740edf5606f40e826aad2d244ce40f52e8ed3b83e5541006e20000000004106d12c2f8fcaa7410c987cff786ffd411041f4a12344354110d408871f5ac3410fc48803a5c754410b59aba9b853b84105748ff16f524540fe98a893c2404140f3bff596448bca40e6f27e6ed1b03140d7cc97101cd3ba40c5c7fdb4568f2040b14f592bfe64b04097573a96f4cd244079c54789553a304055fa2dc67adf4d4029ec474a2612633ff000000000000040287eb1990b697a4051748e8b5cd9fc406e3bc476d73e46408151823ea65344408a60eb5bbf0f704088148b35155fd9,
  0x40964b422f6f19a840b7677d2cb69dcd40d0e6f73a9f3d8540e35d29793deb7740f2a2080781c22a40ff0cd43f94e9fe4106d12c2f8fcaa7410ded28000000004111a64daf44b4a84112d0871533af3f41122d353288642d410fdcb3090d585f410952498ec9ae5a4102355d3aa8f46740f79b06f8aacb9040eb6d5cf7538ee940dc53a1f7335aad40c9b4bfda57efa140b42a5d54c10c96409ab5b80b00a3d3407ccffb8eb6e94b4057dbe4d7336f1d402b211b1c70d0233ff00000000000004029ec474a2612634053d7d7af35c95b4072da97ceee8dd340887deda06eb26c4096727bf0c34a9f409c7dfc8f7a244740964b422f6f19a8,
  0x40a2e6905796f29040c2faaec4e47c6a40da2ac046514da340ec8cefc719d40d40fa19604d088253410499f587868364410c987cff786ffd4111a64daf44b4a8411384680000000041136b1b9a9cd06741116b81e4a380bf410c2fd697cae1b6410488afa9fefb0b40fad8ce786d8f2e40ef52f638e2078c40e02cf95caa015a40cd3c5d46284b5040b6bdabe17deebd409dbb7dc6a7a56b407f81554e1c4c7440597d2d0524285b402c247a85fe81fa3ff0000000000000402b211b1c70d0234055fa2dc67adf4d40766e31d803d33e408ff7e2f8b1019f40a09c78e38cb33b40a95fc234abee3240ab9b2cc14c57e040a2e6905796f290,
  0x40ad8cf56cc9d32e40cc531f56774bd540e2989857ea422440f34685f90b65614100b16c2ced4f424108e3aacd4e5e69411041f4a12344354112d0871533af3f41136b1b9a9cd0674111f0a800000000410db6294f8593dd410608e157af7eb740fd2f87459a533340f12bdca0781a0140e1cf0ff9aed34d40d01801c951eb9640b8eeaff727f49f40a029481e8f27894080e766ac5e042b405ade23a8116e30402cfb95bb9dcc0c3ff0000000000000402c247a85fe81fa4057dbe4d7336f1d4079c54789553a304093b9fd7720c9a340a67ddfe64d379740b37a7736f3436a40b980d0ed990a4040b8473f6eaf659240ad8cf56cc9d32e,
  0x40b5695554ab4a1540d38bbff5c4864940e861bbb039dbdd40f7f142a208c5c04103953370d16c48410b7afd2b1ef7954110d408871f5ac341122d353288642d41116b81e4a380bf410db6294f8593dd41068da00000000040fe69278441bde540f220428e6b514040e2f57e1835b46040d13479049d7d6a40baa7613b13a9f440a13479049d7d6a4081d7fe34e7405a405bfedb67be13b2402daa2fefaae1d73ff0000000000000402cfb95bb9dcc0c40597d2d0524285b407ccffb8eb6e94b4097573a96f4cd2440ac9621833f1faa40bb294b4f995abf40c4297b7af9e9e540c719388c00eb3d40c38bbff5c4864940b5695554ab4a15,
  0x40bcdf0741a20dca40d909b3c13e6f9e40ed96b755529f4140fb70fd2bd1f02c41051fd6c9b06a63410bca7b9ce6e128410fc48803a5c754410fdcb3090d585f410c2fd697cae1b6410608e157af7eb740fe69278441bde540f273e00000000040e38d8a4c8d34c140d1e51d1634791a40bbd6c9abab3c2c40a1f8525cc2208e40828f311d1cd2c8405cdf6068aab67c402e3307cc56cf5b3ff0000000000000402daa2fefaae1d7405ade23a8116e30407f81554e1c4c74409ab5b80b00a3d340b14f592bfe64b040c1aab9d7b9144940ccc6b737347abc40d2b0d27b5ea52b40d3089fda11380940ccfdc2a9dc813e40bcdf0741a20dca,
  0x40c22a16317ed43140ddd8df43c63f2c40f0a801ae704e2d40fd13dc31fc63af4104fc24b07b785d4109c45a9b16cb2d410b59aba9b853b8410952498ec9ae5a410488afa9fefb0b40fd2f87459a533340f220428e6b514040e38d8a4c8d34c140d221000000000040bc71665d945ce240a26fd49c0102a340830a9eb7596cfe405d7fba9334d105402e98180e9b47f13ff0000000000000402e3307cc56cf5b405bfedb67be13b24080e766ac5e042b409dbb7dc6a7a56b40b42a5d54c10c9640c5c7fdb4568f2040d30df9dc1975fa40db282f7afa234c40df5bb13aed0c2140dcbd8064353b9940d3e5ea2d2ed4c840c22a16317ed431,
  0x40c55fbdff9a19b740e095bec657982940f16bf3036ccf5a40fc834e2eee22f9410334a1c6238bb74105e5d2a999b8a54105748ff16f52454102355d3aa8f46740fad8ce786d8f2e40f12bdca0781a0140e2f57e1835b46040d1e51d1634791a40bc71665d945ce240a2980000000000408348b834fd9bcf405ddfeedca22e34402edac054c8f94c3ff0000000000000402e98180e9b47f1405cdf6068aab67c4081d7fe34e7405a40a029481e8f278940b6bdabe17deebd40c9b4bfda57efa140d7cc97101cd3ba40e237aaf45b507840e71438b8516ff540e7fc010355de2b40e3fbd2fc66392440d95d7e2049bb8a40c55fbdff9a19b7,
  0x40c78d90f383c83540e1335f60d1fafc40f0f06eff861f7540f9e002ffffd37a41002f12a70a71fd410108755551fe5040fe98a893c2404140f79b06f8aacb9040ef52f638e2078c40e1cf0ff9aed34d40d13479049d7d6a40bbd6c9abab3c2c40a26fd49c0102a3408348b834fd9bcf405e000000000000402efbdeb14f4ed93ff0000000000000402edac054c8f94c405d7fba9334d10540828f311d1cd2c840a13479049d7d6a40b8eeaff727f49f40cd3c5d46284b5040dc53a1f7335aad40e6f27e6ed1b03140ef3a2c71c0fce940f1cd6151584a3040f0d19b8cccafdc40e9b0ec9d25050b40de19e6e96f773940c78d90f383c835,
  0x40c8534f2867111a40e0a78c1298c2cb40ee9da2e8a6479240f5b683f9eb534d40f9126bbea30b0b40f830429fe3bebb40f3bff596448bca40eb6d5cf7538ee940e02cf95caa015a40d01801c951eb9640baa7613b13a9f440a1f8525cc2208e40830a9eb7596cfe405ddfeedca22e34402efbdeb14f4ed93ff0000000000000402efbdeb14f4ed9405ddfeedca22e3440830a9eb7596cfe40a1f8525cc2208e40baa7613b13a9f440d01801c951eb9640e02cf95caa015a40eb6d5cf7538ee940f3bff596448bca40f830429fe3bebb40f9126bbea30b0b40f5b683f9eb534d40ee9da2e8a6479240e0a78c1298c2cb40c8534f2867111a,
  0x40c78d90f383c83540de19e6e96f773940e9b0ec9d25050b40f0d19b8cccafdc40f1cd6151584a3040ef3a2c71c0fce940e6f27e6ed1b03140dc53a1f7335aad40cd3c5d46284b5040b8eeaff727f49f40a13479049d7d6a40828f311d1cd2c8405d7fba9334d105402edac054c8f94c3ff0000000000000402efbdeb14f4ed9405e000000000000408348b834fd9bcf40a26fd49c0102a340bbd6c9abab3c2c40d13479049d7d6a40e1cf0ff9aed34d40ef52f638e2078c40f79b06f8aacb9040fe98a893c24041410108755551fe5041002f12a70a71fd40f9e002ffffd37a40f0f06eff861f7540e1335f60d1fafc40c78d90f383c835,
  0x40c55fbdff9a19b740d95d7e2049bb8a40e3fbd2fc66392440e7fc010355de2b40e71438b8516ff540e237aaf45b507840d7cc97101cd3ba40c9b4bfda57efa140b6bdabe17deebd40a029481e8f27894081d7fe34e7405a405cdf6068aab67c402e98180e9b47f13ff0000000000000402edac054c8f94c405ddfeedca22e34408348b834fd9bcf40a298000000000040bc71665d945ce240d1e51d1634791a40e2f57e1835b46040f12bdca0781a0140fad8ce786d8f2e4102355d3aa8f4674105748ff16f52454105e5d2a999b8a5410334a1c6238bb740fc834e2eee22f940f16bf3036ccf5a40e095bec657982940c55fbdff9a19b7,
  0x40c22a16317ed43140d3e5ea2d2ed4c840dcbd8064353b9940df5bb13aed0c2140db282f7afa234c40d30df9dc1975fa40c5c7fdb4568f2040b42a5d54c10c96409dbb7dc6a7a56b4080e766ac5e042b405bfedb67be13b2402e3307cc56cf5b3ff0000000000000402e98180e9b47f1405d7fba9334d10540830a9eb7596cfe40a26fd49c0102a340bc71665d945ce240d221000000000040e38d8a4c8d34c140f220428e6b514040fd2f87459a5333410488afa9fefb0b410952498ec9ae5a410b59aba9b853b84109c45a9b16cb2d4104fc24b07b785d40fd13dc31fc63af40f0a801ae704e2d40ddd8df43c63f2c40c22a16317ed431,
  0x40bcdf0741a20dca40ccfdc2a9dc813e40d3089fda11380940d2b0d27b5ea52b40ccc6b737347abc40c1aab9d7b9144940b14f592bfe64b0409ab5b80b00a3d3407f81554e1c4c74405ade23a8116e30402daa2fefaae1d73ff0000000000000402e3307cc56cf5b405cdf6068aab67c40828f311d1cd2c840a1f8525cc2208e40bbd6c9abab3c2c40d1e51d1634791a40e38d8a4c8d34c140f273e00000000040fe69278441bde5410608e157af7eb7410c2fd697cae1b6410fdcb3090d585f410fc48803a5c754410bca7b9ce6e12841051fd6c9b06a6340fb70fd2bd1f02c40ed96b755529f4140d909b3c13e6f9e40bcdf0741a20dca,
  0x40b5695554ab4a1540c38bbff5c4864940c719388c00eb3d40c4297b7af9e9e540bb294b4f995abf40ac9621833f1faa4097573a96f4cd24407ccffb8eb6e94b40597d2d0524285b402cfb95bb9dcc0c3ff0000000000000402daa2fefaae1d7405bfedb67be13b24081d7fe34e7405a40a13479049d7d6a40baa7613b13a9f440d13479049d7d6a40e2f57e1835b46040f220428e6b514040fe69278441bde541068da000000000410db6294f8593dd41116b81e4a380bf41122d353288642d4110d408871f5ac3410b7afd2b1ef7954103953370d16c4840f7f142a208c5c040e861bbb039dbdd40d38bbff5c4864940b5695554ab4a15,
  0x40ad8cf56cc9d32e40b8473f6eaf659240b980d0ed990a4040b37a7736f3436a40a67ddfe64d37974093b9fd7720c9a34079c54789553a304057dbe4d7336f1d402c247a85fe81fa3ff0000000000000402cfb95bb9dcc0c405ade23a8116e304080e766ac5e042b40a029481e8f278940b8eeaff727f49f40d01801c951eb9640e1cf0ff9aed34d40f12bdca0781a0140fd2f87459a5333410608e157af7eb7410db6294f8593dd4111f0a80000000041136b1b9a9cd0674112d0871533af3f411041f4a12344354108e3aacd4e5e694100b16c2ced4f4240f34685f90b656140e2989857ea422440cc531f56774bd540ad8cf56cc9d32e,
  0x40a2e6905796f29040ab9b2cc14c57e040a95fc234abee3240a09c78e38cb33b408ff7e2f8b1019f40766e31d803d33e4055fa2dc67adf4d402b211b1c70d0233ff0000000000000402c247a85fe81fa40597d2d0524285b407f81554e1c4c74409dbb7dc6a7a56b40b6bdabe17deebd40cd3c5d46284b5040e02cf95caa015a40ef52f638e2078c40fad8ce786d8f2e410488afa9fefb0b410c2fd697cae1b641116b81e4a380bf41136b1b9a9cd06741138468000000004111a64daf44b4a8410c987cff786ffd410499f58786836440fa19604d08825340ec8cefc719d40d40da2ac046514da340c2faaec4e47c6a40a2e6905796f290,
  0x40964b422f6f19a8409c7dfc8f7a24474096727bf0c34a9f40887deda06eb26c4072da97ceee8dd34053d7d7af35c95b4029ec474a2612633ff0000000000000402b211b1c70d0234057dbe4d7336f1d407ccffb8eb6e94b409ab5b80b00a3d340b42a5d54c10c9640c9b4bfda57efa140dc53a1f7335aad40eb6d5cf7538ee940f79b06f8aacb904102355d3aa8f467410952498ec9ae5a410fdcb3090d585f41122d353288642d4112d0871533af3f4111a64daf44b4a8410ded28000000004106d12c2f8fcaa740ff0cd43f94e9fe40f2a2080781c22a40e35d29793deb7740d0e6f73a9f3d8540b7677d2cb69dcd40964b422f6f19a8,
  0x4088148b35155fd9408a60eb5bbf0f70408151823ea65344406e3bc476d73e464051748e8b5cd9fc40287eb1990b697a3ff00000000000004029ec474a2612634055fa2dc67adf4d4079c54789553a304097573a96f4cd2440b14f592bfe64b040c5c7fdb4568f2040d7cc97101cd3ba40e6f27e6ed1b03140f3bff596448bca40fe98a893c240414105748ff16f5245410b59aba9b853b8410fc48803a5c7544110d408871f5ac3411041f4a1234435410c987cff786ffd4106d12c2f8fcaa741006e200000000040f52e8ed3b83e5540e826aad2d244ce40d7e740edf5606f40c3ea88fb3f462740aa60eb5bbf0f704088148b35155fd9,
  0x407797fea4ca0c66407589bc4eb2520c40669fe95eb7dd64404d9f64731022b34026cdb2bbb212eb3ff000000000000040287eb1990b697a4053d7d7af35c95b40766e31d803d33e4093b9fd7720c9a340ac9621833f1faa40c1aab9d7b9144940d30df9dc1975fa40e237aaf45b507840ef3a2c71c0fce940f830429fe3bebb410108755551fe504105e5d2a999b8a54109c45a9b16cb2d410bca7b9ce6e128410b7afd2b1ef7954108e3aacd4e5e69410499f58786836440ff0cd43f94e9fe40f52e8ed3b83e5540e9f1400000000040dc2b9c0c5ebbdf40ca9d343f607f2c40b535eac8cc5f8e409aec2b625ee68f407797fea4ca0c66,
  0x4064b16d0091eb1d405e3962b701e02a4047cfcf9f0d58064024c8dc2e42397f3ff00000000000004026cdb2bbb212eb4051748e8b5cd9fc4072da97ceee8dd3408ff7e2f8b1019f40a67ddfe64d379740bb294b4f995abf40ccc6b737347abc40db282f7afa234c40e71438b8516ff540f1cd6151584a3040f9126bbea30b0b41002f12a70a71fd410334a1c6238bb74104fc24b07b785d41051fd6c9b06a634103953370d16c484100b16c2ced4f4240fa19604d08825340f2a2080781c22a40e826aad2d244ce40dc2b9c0c5ebbdf40cd33000000000040ba62ff86ba12ff40a427370df2a08040888ea034b186224064b16d0091eb1d,
  0x404fdbeba917c3f54041732e8164279e4022548eb9151e853ff00000000000004024c8dc2e42397f404d9f64731022b3406e3bc476d73e4640887deda06eb26c40a09c78e38cb33b40b37a7736f3436a40c4297b7af9e9e540d2b0d27b5ea52b40df5bb13aed0c2140e7fc010355de2b40f0d19b8cccafdc40f5b683f9eb534d40f9e002ffffd37a40fc834e2eee22f940fd13dc31fc63af40fb70fd2bd1f02c40f7f142a208c5c040f34685f90b656140ec8cefc719d40d40e35d29793deb7740d7e740edf5606f40ca9d343f607f2c40ba62ff86ba12ff40a6da00000000004090c14a752d4de54073a1945190ac91404fdbeba917c3f5,
  0x4034db4da6bac4aa401e768d399dc46f3ff00000000000004022548eb9151e854047cfcf9f0d580640669fe95eb7dd64408151823ea653444096727bf0c34a9f40a95fc234abee3240b980d0ed990a4040c719388c00eb3d40d3089fda11380940dcbd8064353b9940e3fbd2fc66392440e9b0ec9d25050b40ee9da2e8a6479240f0f06eff861f7540f16bf3036ccf5a40f0a801ae704e2d40ed96b755529f4140e861bbb039dbdd40e2989857ea422440da2ac046514da340d0e6f73a9f3d8540c3ea88fb3f462740b535eac8cc5f8e40a427370df2a0804090c14a752d4de54077a00000000000405aa7bb926a0be14034db4da6bac4aa,
  0x4015e8add236a58e3ff0000000000000401e768d399dc46f4041732e8164279e405e3962b701e02a407589bc4eb2520c408a60eb5bbf0f70409c7dfc8f7a244740ab9b2cc14c57e040b8473f6eaf659240c38bbff5c4864940ccfdc2a9dc813e40d3e5ea2d2ed4c840d95d7e2049bb8a40de19e6e96f773940e0a78c1298c2cb40e1335f60d1fafc40e095bec657982940ddd8df43c63f2c40d909b3c13e6f9e40d38bbff5c4864940cc531f56774bd540c2faaec4e47c6a40b7677d2cb69dcd40aa60eb5bbf0f70409aec2b625ee68f40888ea034b186224073a1945190ac91405aa7bb926a0be1403d0000000000004015e8add236a58e,
  0x3ff00000000000004015e8add236a58e4034db4da6bac4aa404fdbeba917c3f54064b16d0091eb1d407797fea4ca0c664088148b35155fd940964b422f6f19a840a2e6905796f29040ad8cf56cc9d32e40b5695554ab4a1540bcdf0741a20dca40c22a16317ed43140c55fbdff9a19b740c78d90f383c83540c8534f2867111a40c78d90f383c83540c55fbdff9a19b740c22a16317ed43140bcdf0741a20dca40b5695554ab4a1540ad8cf56cc9d32e40a2e6905796f29040964b422f6f19a84088148b35155fd9407797fea4ca0c664064b16d0091eb1d404fdbeba917c3f54034db4da6bac4aa4015e8add236a58e3ff0000000000000]

/-- The coefficients for `2 ell = 31`: one number for each of the 32 values of `mp`, consisting of the doubles for the 32 values of `m`. -/
def wigner31 : List Nat := [
  0x3ff0000000000000401645640568c1c3403590590a698c4b4050c2dd5df1942e40662c47cd080ada4079c33dee8d4db8408ad08ba17d26b740995662c004963b40a5f15ff4f8ab1d40b189ff498cd06440ba03bdfb0f673e40c1f8e0c74ee03e40c733b5402d177e40cc0cc1c00f58b840cfce3681fcae6e40d0ee0616e9feab40d0ee0616e9feab40cfce3681fcae6e40cc0cc1c00f58b840c733b5402d177e40c1f8e0c74ee03e40ba03bdfb0f673e40b189ff498cd06440a5f15ff4f8ab1d40995662c004963b408ad08ba17d26b74079c33dee8d4db840662c47cd080ada4050c2dd5df1942e403590590a698c4b401645640568c1c33ff0000000000000,
  0x401645640568c1c3403e000000000000405c1441d0afdf75407512a266284e81408ae18ed6ac0d56409e1383411584d440ae19ae025ab7d040bb4def84ecbe3140c6a93bf764c01040d15359a59fb3af40d887a7fdc0b3c740e023b5e01c0d4440e3cb50829e7e4340e6aba8b45c59a240e8472274e2cfa640e8534f2867111a40e6ce1a35e0a00840e3fe589c7e8ce340e05f88107b961140d900d17c924ea640d1c0e1a9b874fe40c75c9ffddc18ee40bc59d883626bd940af87484d11bd4f409fdaecc5bedde4408ce573d94cd96b407722b3bbe92b19405fdbeba917c3f540420ff8e9d967dc401efbdeb14f4ed93ff0000000000000401645640568c1c3,
  0x403590590a698c4b405c1441d0afdf75407960000000000040925cffc1441f9a40a68ea270d0239f40b8448481cd1a4340c750cb399f79d340d444c81a247e6d40e017260ebd8c7d40e77c50268e383c40efab005624d15840f3cb50829e7e4340f6ffaff8f4c61a40f8e09e2983643e40f912f6a1fe02d140f78d90f383c83540f49bded5134f2e40f0c70aac6450f140e95d7e2049bb8a40e1c0e1a9b874fe40d6eb6ab230c81840cb24dbb78d45b940bd47def0e681f440ac7dfc8f7a24474098acc714b1fe164082a708fae5fb0f4067e4f0bed1d2f74048ad8c842be9b44022a79e3a2cd2e53ff0000000000000401efbdeb14f4ed9403590590a698c4b,
  0x4050c2dd5df1942e407512a266284e8140925cffc1441f9a40a998000000000040be3ad294ebf0c040cf389f2102a88740dcbf19fc67e33e40e7e740edf5606f40f21d001e1db39a40f92de0504deb6441002084b7430de1410319754fb3b5904104f56c871a86234105564ccc8f5ef1410429636ad44e0e4101ad0fbc1548ad40fcb93991a2961a40f595b8bdaa114e40ede9ee2dd80f2540e3089fda11380940d61d7a5c4958f840c747f768cc96ed40b5f97df24d4fc340a253fc1254b1af408a744be7fc567d406ffefffbffdffe404ebda87f068e4d40252a7fa9d2f8e93ff00000000000004022a79e3a2cd2e540420ff8e9d967dc4050c2dd5df1942e,
  0x40662c47cd080ada408ae18ed6ac0d5640a68ea270d0239f40be3ad294ebf0c040d123800000000040e0f69523c3138340ede1112972b88b40f7b7423d08e84741011d8db7ea604a41069a3dd2f4728a410b6df326411759410eae2d29a2ea20410fafc22e889f95410e3e15203e7515410aabdfffb336ad4105b683f9eb534d410048e2fb707e7a40f66f72a2620b5c40ec44106615909140e02fc70f0d850940d0b7acd1bbd78c40becc4b65568efc40a8eab555530cd8409151823ea653444073ff5ffd7febff405223dc474df22a40273ce704fb7b233ff000000000000040252a7fa9d2f8e94048ad8c842be9b4405fdbeba917c3f540662c47cd080ada,
  0x4079c33dee8d4db8409e1383411584d440b8448481cd1a4340cf389f2102a88740e0f69523c3138340f00f400000000040fb006ea200e5584104694ebc09d20a410bfcfa4be6688c41118200de64bbc4411411009823132041151fd6c9b06a634114741e1bc1f16b411238539baecfa4410dd772ea41ed6a41066ccf66663fd040fed59d2ccc97be40f34f2c3d39b7bd40e5e507f750fdd240d64a3bc24fca1040c424b37371891d40afcedd46c18163409571eb042818364077d935fcd374154054a74489a6c65d4028fae0c15ad3893ff000000000000040273ce704fb7b23404ebda87f068e4d4067e4f0bed1d2f7407722b3bbe92b194079c33dee8d4db8,
  0x408ad08ba17d26b740ae19ae025ab7d040c750cb399f79d340dcbf19fc67e33e40ede1112972b88b40fb006ea200e55841059e6000000000410f0cd43f94e9fe41142aea7b605d714117d4682a39b2a84119b4a12c52ee9241195e9ac5dcc8c24116ed261fd3bd064112f6c8f8701876410cabbebd715f0b4103bff596448bca40f8aff2fbd5aebc40ebd3dec6ee096d40dc0c2faff9b00340c8fc19b223c6dd40b35a65e65ac0c74099778259e19de3407b78b9381997214056e9b2675a6626402a751f9447b7243ff00000000000004028fae0c15ad389405223dc474df22a406ffefffbffdffe4082a708fae5fb0f408ce573d94cd96b408ad08ba17d26b7,
  0x40995662c004963b40bb4def84ecbe3140d444c81a247e6d40e7e740edf5606f40f7b7423d08e8474104694ebc09d20a410f0cd43f94e9fe41151fe0000000004119eac184f275e0411cd25bd03d62a9411d25bb8a264e99411ad93e51bc5d64411687a84d28964b411133d8d810d2a04107d72888c76f3640fddbe45a82010340f0cbb072e9209140e0d41c9cc9033540cdaecb7edbc5c940b6a9ff34aeb648409d425885754d34407ecd41d33eeffd4058eb7cb456380d402bb67ae8584caa3ff0000000000000402a751f9447b7244054a74489a6c65d4073ff5ffd7febff408a744be7fc567d4098acc714b1fe16409fdaecc5bedde440995662c004963b,
  0x40a5f15ff4f8ab1d40c6a93bf764c01040e017260ebd8c7d40f21d001e1db39a41011d8db7ea604a410bfcfa4be6688c41142aea7b605d714119eac184f275e0411ded2800000000411f334eba708858411d730eec76ded54119306fe1cdb493411382f017186b09410b500bd7fd6e9b410134933c1d5a3840f364da7eb2bed640e364da7eb2bed640d100c1b0ddc29240b9b4bfda57efa140a05b3b07d686f74080e48d9ba37f9f405aacd53ecea14e402cc665b03286213ff0000000000000402bb67ae8584caa4056e9b2675a66264077d935fcd37415409151823ea6534440a253fc1254b1af40ac7dfc8f7a244740af87484d11bd4f40a5f15ff4f8ab1d,
  0x40b189ff498cd06440d15359a59fb3af40e77c50268e383c40f92de0504deb6441069a3dd2f4728a41118200de64bbc44117d4682a39b2a8411cd25bd03d62a9411f334eba708858411e5c3000000000411a9c0293b986294115025e47d03056410dd5c9b7874bb04102fbcedf9eb99740f5868121cc13f940e5914c7b8d572240d2df22ec1bac3e40bc5ce662be98d040a1ddefe186545240823085b5f14de8405c2dda7470ad1c402daa2fefaae1d73ff0000000000000402cc665b03286214058eb7cb456380d407b78b938199721409571eb0428183640a8eab555530cd840b5f97df24d4fc340bd47def0e681f440bc59d883626bd940b189ff498cd064,
  0x40ba03bdfb0f673e40d887a7fdc0b3c740efab005624d15841002084b7430de1410b6df32641175941141100982313204119b4a12c52ee92411d25bb8a264e99411d730eec76ded5411a9c0293b986294115873000000000410f2968cad7407a41041d654561671f40f709aae237cd1340e7384a45228a4740d45b7141d3ce5540be8929e2bdb58040a31f4c38ef44b3408345ff10ea14fa405d6e9fc396fea8402e65b9edeba38d3ff0000000000000402daa2fefaae1d7405aacd53ecea14e407ecd41d33eeffd4099778259e19de340afcedd46c1816340becc4b65568efc40c747f768cc96ed40cb24dbb78d45b940c75c9ffddc18ee40ba03bdfb0f673e,
  0x40c1f8e0c74ee03e40e023b5e01c0d4440f3cb50829e7e43410319754fb3b590410eae2d29a2ea2041151fd6c9b06a6341195e9ac5dcc8c2411ad93e51bc5d644119306fe1cdb4934115025e47d03056410f2968cad7407a410480c00000000040f7d27f142b8e0b40e8409bc943062840d5637a623a083440c012a720927f1640a41750e8b71edc4084216420369e4f405e6f31ed8148fb402efbdeb14f4ed93ff0000000000000402e65b9edeba38d405c2dda7470ad1c4080e48d9ba37f9f409d425885754d3440b35a65e65ac0c740c424b37371891d40d0b7acd1bbd78c40d61d7a5c4958f840d6eb6ab230c81840d1c0e1a9b874fe40c1f8e0c74ee03e,
  0x40c733b5402d177e40e3cb50829e7e4340f6ffaff8f4c61a4104f56c871a8623410fafc22e889f954114741e1bc1f16b4116ed261fd3bd06411687a84d28964b411382f017186b09410dd5c9b7874bb041041d654561671f40f7d27f142b8e0b40e89a800000000040d5eab2067c01b840c091497d5752d740a4bffe7534605d4084bffe7534605d405f2f9964682378402f6eb62d27730c3ff0000000000000402efbdeb14f4ed9405d6e9fc396fea840823085b5f14de840a05b3b07d686f740b6a9ff34aeb64840c8fc19b223c6dd40d64a3bc24fca1040e02fc70f0d850940e3089fda11380940e1c0e1a9b874fe40d900d17c924ea640c733b5402d177e,
  0x40cc0cc1c00f58b840e6aba8b45c59a240f8e09e2983643e4105564ccc8f5ef1410e3e15203e7515411238539baecfa44112f6c8f8701876411133d8d810d2a0410b500bd7fd6e9b4102fbcedf9eb99740f709aae237cd1340e8409bc943062840d5eab2067c01b840c0bc000000000040a515552a2925f040851fe7c35a9dfa405fafdba507ecf8402fbfbf7ebc755e3ff0000000000000402f6eb62d27730c405e6f31ed8148fb408345ff10ea14fa40a1ddefe186545240b9b4bfda57efa140cdaecb7edbc5c940dc0c2faff9b00340e5e507f750fdd240ec44106615909140ede9ee2dd80f2540e95d7e2049bb8a40e05f88107b961140cc0cc1c00f58b8,
  0x40cfce3681fcae6e40e8472274e2cfa640f912f6a1fe02d1410429636ad44e0e410aabdfffb336ad410dd772ea41ed6a410cabbebd715f0b4107d72888c76f36410134933c1d5a3840f5868121cc13f940e7384a45228a4740d5637a623a083440c091497d5752d740a515552a2925f04085400000000000405feffbfdfebf1f402feffbfdfebf1f3ff0000000000000402fbfbf7ebc755e405f2f99646823784084216420369e4f40a31f4c38ef44b340bc5ce662be98d040d100c1b0ddc29240e0d41c9cc9033540ebd3dec6ee096d40f34f2c3d39b7bd40f66f72a2620b5c40f595b8bdaa114e40f0c70aac6450f140e3fe589c7e8ce340cfce3681fcae6e,
  0x40d0ee0616e9feab40e8534f2867111a40f78d90f383c8354101ad0fbc1548ad4105b683f9eb534d41066ccf66663fd04103bff596448bca40fddbe45a82010340f364da7eb2bed640e5914c7b8d572240d45b7141d3ce5540c012a720927f1640a4bffe7534605d40851fe7c35a9dfa405feffbfdfebf1f40300000000000003ff0000000000000402feffbfdfebf1f405fafdba507ecf84084bffe7534605d40a41750e8b71edc40be8929e2bdb58040d2df22ec1bac3e40e364da7eb2bed640f0cbb072e9209140f8aff2fbd5aebc40fed59d2ccc97be410048e2fb707e7a40fcb93991a2961a40f49bded5134f2e40e6ce1a35e0a00840d0ee0616e9feab,
  0x40d0ee0616e9feab40e6ce1a35e0a00840f49bded5134f2e40fcb93991a2961a410048e2fb707e7a40fed59d2ccc97be40f8aff2fbd5aebc40f0cbb072e9209140e364da7eb2bed640d2df22ec1bac3e40be8929e2bdb58040a41750e8b71edc4084bffe7534605d405fafdba507ecf8402feffbfdfebf1f3ff00000000000004030000000000000405feffbfdfebf1f40851fe7c35a9dfa40a4bffe7534605d40c012a720927f1640d45b7141d3ce5540e5914c7b8d572240f364da7eb2bed640fddbe45a8201034103bff596448bca41066ccf66663fd04105b683f9eb534d4101ad0fbc1548ad40f78d90f383c83540e8534f2867111a40d0ee0616e9feab,
  0x40cfce3681fcae6e40e3fe589c7e8ce340f0c70aac6450f140f595b8bdaa114e40f66f72a2620b5c40f34f2c3d39b7bd40ebd3dec6ee096d40e0d41c9cc9033540d100c1b0ddc29240bc5ce662be98d040a31f4c38ef44b34084216420369e4f405f2f9964682378402fbfbf7ebc755e3ff0000000000000402feffbfdfebf1f405feffbfdfebf1f408540000000000040a515552a2925f040c091497d5752d740d5637a623a083440e7384a45228a4740f5868121cc13f9410134933c1d5a384107d72888c76f36410cabbebd715f0b410dd772ea41ed6a410aabdfffb336ad410429636ad44e0e40f912f6a1fe02d140e8472274e2cfa640cfce3681fcae6e,
  0x40cc0cc1c00f58b840e05f88107b961140e95d7e2049bb8a40ede9ee2dd80f2540ec44106615909140e5e507f750fdd240dc0c2faff9b00340cdaecb7edbc5c940b9b4bfda57efa140a1ddefe1865452408345ff10ea14fa405e6f31ed8148fb402f6eb62d27730c3ff0000000000000402fbfbf7ebc755e405fafdba507ecf840851fe7c35a9dfa40a515552a2925f040c0bc000000000040d5eab2067c01b840e8409bc943062840f709aae237cd134102fbcedf9eb997410b500bd7fd6e9b411133d8d810d2a04112f6c8f8701876411238539baecfa4410e3e15203e75154105564ccc8f5ef140f8e09e2983643e40e6aba8b45c59a240cc0cc1c00f58b8,
  0x40c733b5402d177e40d900d17c924ea640e1c0e1a9b874fe40e3089fda11380940e02fc70f0d850940d64a3bc24fca1040c8fc19b223c6dd40b6a9ff34aeb64840a05b3b07d686f740823085b5f14de8405d6e9fc396fea8402efbdeb14f4ed93ff0000000000000402f6eb62d27730c405f2f99646823784084bffe7534605d40a4bffe7534605d40c091497d5752d740d5eab2067c01b840e89a800000000040f7d27f142b8e0b41041d654561671f410dd5c9b7874bb0411382f017186b09411687a84d28964b4116ed261fd3bd064114741e1bc1f16b410fafc22e889f954104f56c871a862340f6ffaff8f4c61a40e3cb50829e7e4340c733b5402d177e,
  0x40c1f8e0c74ee03e40d1c0e1a9b874fe40d6eb6ab230c81840d61d7a5c4958f840d0b7acd1bbd78c40c424b37371891d40b35a65e65ac0c7409d425885754d344080e48d9ba37f9f405c2dda7470ad1c402e65b9edeba38d3ff0000000000000402efbdeb14f4ed9405e6f31ed8148fb4084216420369e4f40a41750e8b71edc40c012a720927f1640d5637a623a083440e8409bc943062840f7d27f142b8e0b410480c000000000410f2968cad7407a4115025e47d030564119306fe1cdb493411ad93e51bc5d6441195e9ac5dcc8c241151fd6c9b06a63410eae2d29a2ea20410319754fb3b59040f3cb50829e7e4340e023b5e01c0d4440c1f8e0c74ee03e,
  0x40ba03bdfb0f673e40c75c9ffddc18ee40cb24dbb78d45b940c747f768cc96ed40becc4b65568efc40afcedd46c181634099778259e19de3407ecd41d33eeffd405aacd53ecea14e402daa2fefaae1d73ff0000000000000402e65b9edeba38d405d6e9fc396fea8408345ff10ea14fa40a31f4c38ef44b340be8929e2bdb58040d45b7141d3ce5540e7384a45228a4740f709aae237cd1341041d654561671f410f2968cad7407a4115873000000000411a9c0293b98629411d730eec76ded5411d25bb8a264e994119b4a12c52ee924114110098231320410b6df32641175941002084b7430de140efab005624d15840d887a7fdc0b3c740ba03bdfb0f673e,
  0x40b189ff498cd06440bc59d883626bd940bd47def0e681f440b5f97df24d4fc340a8eab555530cd8409571eb04281836407b78b9381997214058eb7cb456380d402cc665b03286213ff0000000000000402daa2fefaae1d7405c2dda7470ad1c40823085b5f14de840a1ddefe186545240bc5ce662be98d040d2df22ec1bac3e40e5914c7b8d572240f5868121cc13f94102fbcedf9eb997410dd5c9b7874bb04115025e47d03056411a9c0293b98629411e5c3000000000411f334eba708858411cd25bd03d62a94117d4682a39b2a841118200de64bbc441069a3dd2f4728a40f92de0504deb6440e77c50268e383c40d15359a59fb3af40b189ff498cd064,
  0x40a5f15ff4f8ab1d40af87484d11bd4f40ac7dfc8f7a244740a253fc1254b1af409151823ea653444077d935fcd374154056e9b2675a6626402bb67ae8584caa3ff0000000000000402cc665b0328621405aacd53ecea14e4080e48d9ba37f9f40a05b3b07d686f740b9b4bfda57efa140d100c1b0ddc29240e364da7eb2bed640f364da7eb2bed6410134933c1d5a38410b500bd7fd6e9b411382f017186b094119306fe1cdb493411d730eec76ded5411f334eba708858411ded28000000004119eac184f275e041142aea7b605d71410bfcfa4be6688c41011d8db7ea604a40f21d001e1db39a40e017260ebd8c7d40c6a93bf764c01040a5f15ff4f8ab1d,
  0x40995662c004963b409fdaecc5bedde44098acc714b1fe16408a744be7fc567d4073ff5ffd7febff4054a74489a6c65d402a751f9447b7243ff0000000000000402bb67ae8584caa4058eb7cb456380d407ecd41d33eeffd409d425885754d3440b6a9ff34aeb64840cdaecb7edbc5c940e0d41c9cc9033540f0cbb072e9209140fddbe45a8201034107d72888c76f36411133d8d810d2a0411687a84d28964b411ad93e51bc5d64411d25bb8a264e99411cd25bd03d62a94119eac184f275e041151fe000000000410f0cd43f94e9fe4104694ebc09d20a40f7b7423d08e84740e7e740edf5606f40d444c81a247e6d40bb4def84ecbe3140995662c004963b,
  0x408ad08ba17d26b7408ce573d94cd96b4082a708fae5fb0f406ffefffbffdffe405223dc474df22a4028fae0c15ad3893ff0000000000000402a751f9447b7244056e9b2675a6626407b78b9381997214099778259e19de340b35a65e65ac0c740c8fc19b223c6dd40dc0c2faff9b00340ebd3dec6ee096d40f8aff2fbd5aebc4103bff596448bca410cabbebd715f0b4112f6c8f87018764116ed261fd3bd0641195e9ac5dcc8c24119b4a12c52ee924117d4682a39b2a841142aea7b605d71410f0cd43f94e9fe41059e600000000040fb006ea200e55840ede1112972b88b40dcbf19fc67e33e40c750cb399f79d340ae19ae025ab7d0408ad08ba17d26b7,
  0x4079c33dee8d4db8407722b3bbe92b194067e4f0bed1d2f7404ebda87f068e4d40273ce704fb7b233ff00000000000004028fae0c15ad3894054a74489a6c65d4077d935fcd37415409571eb0428183640afcedd46c1816340c424b37371891d40d64a3bc24fca1040e5e507f750fdd240f34f2c3d39b7bd40fed59d2ccc97be41066ccf66663fd0410dd772ea41ed6a411238539baecfa44114741e1bc1f16b41151fd6c9b06a63411411009823132041118200de64bbc4410bfcfa4be6688c4104694ebc09d20a40fb006ea200e55840f00f400000000040e0f69523c3138340cf389f2102a88740b8448481cd1a43409e1383411584d44079c33dee8d4db8,
  0x40662c47cd080ada405fdbeba917c3f54048ad8c842be9b440252a7fa9d2f8e93ff000000000000040273ce704fb7b23405223dc474df22a4073ff5ffd7febff409151823ea6534440a8eab555530cd840becc4b65568efc40d0b7acd1bbd78c40e02fc70f0d850940ec44106615909140f66f72a2620b5c410048e2fb707e7a4105b683f9eb534d410aabdfffb336ad410e3e15203e7515410fafc22e889f95410eae2d29a2ea20410b6df32641175941069a3dd2f4728a41011d8db7ea604a40f7b7423d08e84740ede1112972b88b40e0f69523c3138340d123800000000040be3ad294ebf0c040a68ea270d0239f408ae18ed6ac0d5640662c47cd080ada,
  0x4050c2dd5df1942e40420ff8e9d967dc4022a79e3a2cd2e53ff000000000000040252a7fa9d2f8e9404ebda87f068e4d406ffefffbffdffe408a744be7fc567d40a253fc1254b1af40b5f97df24d4fc340c747f768cc96ed40d61d7a5c4958f840e3089fda11380940ede9ee2dd80f2540f595b8bdaa114e40fcb93991a2961a4101ad0fbc1548ad410429636ad44e0e4105564ccc8f5ef14104f56c871a8623410319754fb3b59041002084b7430de140f92de0504deb6440f21d001e1db39a40e7e740edf5606f40dcbf19fc67e33e40cf389f2102a88740be3ad294ebf0c040a998000000000040925cffc1441f9a407512a266284e814050c2dd5df1942e,
  0x403590590a698c4b401efbdeb14f4ed93ff00000000000004022a79e3a2cd2e54048ad8c842be9b44067e4f0bed1d2f74082a708fae5fb0f4098acc714b1fe1640ac7dfc8f7a244740bd47def0e681f440cb24dbb78d45b940d6eb6ab230c81840e1c0e1a9b874fe40e95d7e2049bb8a40f0c70aac6450f140f49bded5134f2e40f78d90f383c83540f912f6a1fe02d140f8e09e2983643e40f6ffaff8f4c61a40f3cb50829e7e4340efab005624d15840e77c50268e383c40e017260ebd8c7d40d444c81a247e6d40c750cb399f79d340b8448481cd1a4340a68ea270d0239f40925cffc1441f9a4079600000000000405c1441d0afdf75403590590a698c4b,
  0x401645640568c1c33ff0000000000000401efbdeb14f4ed940420ff8e9d967dc405fdbeba917c3f5407722b3bbe92b19408ce573d94cd96b409fdaecc5bedde440af87484d11bd4f40bc59d883626bd940c75c9ffddc18ee40d1c0e1a9b874fe40d900d17c924ea640e05f88107b961140e3fe589c7e8ce340e6ce1a35e0a00840e8534f2867111a40e8472274e2cfa640e6aba8b45c59a240e3cb50829e7e4340e023b5e01c0d4440d887a7fdc0b3c740d15359a59fb3af40c6a93bf764c01040bb4def84ecbe3140ae19ae025ab7d0409e1383411584d4408ae18ed6ac0d56407512a266284e81405c1441d0afdf75403e000000000000401645640568c1c3,
  0x3ff0000000000000401645640568c1c3403590590a698c4b4050c2dd5df1942e40662c47cd080ada4079c33dee8d4db8408ad08ba17d26b740995662c004963b40a5f15ff4f8ab1d40b189ff498cd06440ba03bdfb0f673e40c1f8e0c74ee03e40c733b5402d177e40cc0cc1c00f58b840cfce3681fcae6e40d0ee0616e9feab40d0ee0616e9feab40cfce3681fcae6e40cc0cc1c00f58b840c733b5402d177e40c1f8e0c74ee03e40ba03bdfb0f673e40b189ff498cd06440a5f15ff4f8ab1d40995662c004963b408ad08ba17d26b74079c33dee8d4db840662c47cd080ada4050c2dd5df1942e403590590a698c4b401645640568c1c33ff0000000000000]

/-- The coefficients for `2 ell = 32`: one number for each of the 33 values of `mp`, consisting of the doubles for the 33 values of `m`. -/
def wigner32 : List Nat := [
  0x3ff00000000000004016a09e667f3bcc403645640568c1c340519b58598f7c9e4067b432f68127d4407c0bfd6ed063fd408dbf878693987b409caa81fbeb120540a95662c004963b40b4b01c9db2f9ce40bf5ff38185296640c62f7278d40d6440cd5933cf29ce4740d2337d85509f6540d5342456a8744940d73a3b48cf76d240d7f13c37570bcd40d73a3b48cf76d240d5342456a8744940d2337d85509f6540cd5933cf29ce4740c62f7278d40d6440bf5ff38185296640b4b01c9db2f9ce40a95662c004963b409caa81fbeb1205408dbf878693987b407c0bfd6ed063fd4067b432f68127d440519b58598f7c9e403645640568c1c34016a09e667f3bcc3ff0000000000000,
  0x4016a09e667f3bcc403f000000000000405d870c2cd47a20407690c0dfb47826408d55036466c35140a0bbbc3bb305c540b1174e6f86fcee40bfabfb7005bbc940cadfd9dc2c60e540d507514ac3a3fc40de813d6623926940e496f7ccff632b40e9f0cba1e3bca740ee910c60805b5540f0de0f7b77698b40f17368d2abb3de40f0ee0616e9feab40eecba9ec3e103c40ea3cfba39d4ed840e4e9fafea8aa4840df20f45bde159540d591f7690b8c7640cbbb4f170910bd40c07507f7ba805640b1ea913d72eb4340a1bc7853366929408f8d7d1caa707d4078ca46457aff114060c2dd5df1942e4042acc2ee19c489401f7efbeb8d4f113ff00000000000004016a09e667f3bcc,
  0x403645640568c1c3405d870c2cd47a20407b30000000000040940f89f6ab266a40a9251ba8ec739f40bba0743b47b6e640cb21ce4b733c9140d82249e18ebe3c40e3a004278a28b340ed60808bd665ce40f456d0dcdaee8940fa2622d218158340ff4c20b18e0b864101780504ad4de241023559d7aa1bbc4101bae47e7a7c16410020296ac4db4c40fb6095870ff45040f5a8dffede6df640efdf796fd4e7ee40e5be51ff6560ee40db64e786c3e5c740cfb284ab4e8b0440c0b871a393533e40afdaecc5bedde4409b07aee824fe0640840935e11224d940692fd2432c3acd40498b48cc1ce73c4022f9422c23c47d3ff0000000000000401f7efbeb8d4f11403645640568c1c3,
  0x40519b58598f7c9e407690c0dfb4782640940f89f6ab266a40ac8c000000000040c13a7331b20c5140d233636159d3b240e128e9cfcf281b40ed415c77e4454040f6c15b1c8360b7410041d5d4f7f0124105707740fd7248410a2f6d4eae7563410db0f8c3edbd65410f4dab194f277b410eb597af137117410c089e881853384107cc0ce960d8b64102c200aa1f55cd40fb65c61227eeee40f27a766fa22cf840e6eb6ab230c81840d9fd06786f8d8740cabac339c0f8df40b8acc714b1fe1640a425a09ac33e5b408c7dfc8f7a24474070e5547dd7c8f7404fdbeba917c3f540258a68a4a8d9f33ff00000000000004022f9422c23c47d4042acc2ee19c48940519b58598f7c9e,
  0x4067b432f68127d4408d55036466c35140a9251ba8ec739f40c13a7331b20c5140d3fec00000000040e4475c2997fe8540f252867857464e40fde1112972b88b41062f247cf100bf410e30558786d6014112e91df18da7514115e194006d515941176eb9f070bbb14117406746967f4c4115627aa3329a3a411238539baecfa4410cb93991a2961a4104e641c92a66a640fbfb5683e42ddd40f1281fd2120d9e40e326fbd6c0013c40d34dbe3cafffe740c15f5786f05ee940ab7dfa1b7f0a874092b4bc9df81385407529d6533045314052d32968a245d64027aa10d193c22c3ff000000000000040258a68a4a8d9f340498b48cc1ce73c4060c2dd5df1942e4067b432f68127d4,
  0x407c0bfd6ed063fd40a0bbbc3bb305c540bba0743b47b6e640d233636159d3b240e4475c2997fe8540f3b5a000000000410108a39e1ab1cd410a83dfa63898f04112bfc060940ea741183d0d7f4ba96c411cc4aede9baed7411f7022caa7c935411fafc22e889f95411d7a0c72103c2d41194d7db02a93d8411404b2b71ce60a410d2187f979339541036df8c0c939a040f7a62023d0c9c340ea19a3fc60cd7540d9e60b4b48d4dc40c6d72638e1767140b19e6d8c02416e40973c2d1adb9f2840794b8dd4eee02b405576b096be4ee0402974b2334f23463ff00000000000004027aa10d193c22c404fdbeba917c3f540692fd2432c3acd4078ca46457aff11407c0bfd6ed063fd,
  0x408dbf878693987b40b1174e6f86fcee40cb21ce4b733c9140e128e9cfcf281b40f252867857464e410108a39e1ab1cd410c1ab0000000004114d50ea432baf3411bfcfa4be6688c412123a286161ded4123364e2682faf64123c291f8944eb84122abe648d5a7ea4120361d70dc03574119d7f4f14e6d804112df9c990b35f741092d1bdb32b95440fe87d7ac46d74c40f0b8e9c950dd7140e067ac9175008d40cc7cad2cb4c67e40b588bec790faa4409baf7425ea800d407d355362b9359d4057d935fcd37415402afb41f432002d3ff0000000000000402974b2334f23464052d32968a245d64070e5547dd7c8f740840935e11224d9408f8d7d1caa707d408dbf878693987b,
  0x409caa81fbeb120540bfabfb7005bbc940d82249e18ebe3c40ed415c77e4454040fde1112972b88b410a83dfa63898f04114d50ea432baf3411d56f0000000004122abee6d4e7df9412598f69974b7904126c91acc3cf5434125f87e1819967f41236056102814bf411f3e4d40964f974116fce35e1bd825410ec724be92f4cd4102a96eb89140a140f45e239c3b9a7940e3d5288d6d5b1b40d1063530aaabc340b956d469753f6f409feca32456d91840806adb2e118ce74059fb1339d2c7df402c48c6001f0abf3ff0000000000000402afb41f432002d405576b096be4ee0407529d653304531408c7dfc8f7a2447409b07aee824fe0640a1bc7853366929409caa81fbeb1205,
  0x40a95662c004963b40cadfd9dc2c60e540e3a004278a28b340f6c15b1c8360b741062f247cf100bf4112bfc060940ea7411bfcfa4be6688c4122abee6d4e7df9412671de0000000041286f4ed17dae4f41282af11a828bf24125bff6abae8d054121cfbbca7d6781411a82c8bad306124111e15e669593684105c3655498790840f7c0adc9842b3740e70b1fff3807ae40d3a22161952e6940bce41fb49d0dc040a1eae19c72339140820f244c468165405bdc7bc29f9393402d64d51e0db1c53ff0000000000000402c48c6001f0abf4057d935fcd3741540794b8dd4eee02b4092b4bc9df8138540a425a09ac33e5b40afdaecc5bedde440b1ea913d72eb4340a95662c004963b,
  0x40b4b01c9db2f9ce40d507514ac3a3fc40ed60808bd665ce410041d5d4f7f012410e30558786d60141183d0d7f4ba96c412123a286161ded412598f69974b79041286f4ed17dae4f4128f04c000000004127058d8fb4c49341233d133c72183e411d16038336ba814113d79a95a55d564108550288676f7340faa789d87cb0b540e9dbcdfe43a91d40d5f362760c554a40c007d17afee00340a3a86cc3cf6b874083819058f8de23405d7d8f15df9fa9402e54dd4ce75f1d3ff0000000000000402d64d51e0db1c54059fb1339d2c7df407d355362b9359d40973c2d1adb9f2840ab7dfa1b7f0a8740b8acc714b1fe1640c0b871a393533e40c07507f7ba805640b4b01c9db2f9ce,
  0x40bf5ff38185296640de813d6623926940f456d0dcdaee894105707740fd72484112e91df18da751411cc4aede9baed74123364e2682faf64126c91acc3cf54341282af11a828bf24127058d8fb4c4934123bbec00000000411e71ff00e30382411518bb4de6b5e2410a2ac87e4c7ca340fce11e139b6e8840ec1ee4909b99bb40d7def5392c315e40c15e5ffef6b1c640a523f48d842f724084bd4096d3359c405ede6161f38143402f1cd9cceef2393ff0000000000000402e54dd4ce75f1d405bdc7bc29f939340806adb2e118ce7409baf7425ea800d40b19e6d8c02416e40c15f5786f05ee940cabac339c0f8df40cfb284ab4e8b0440cbbb4f170910bd40bf5ff381852966,
  0x40c62f7278d40d6440e496f7ccff632b40fa2622d2181583410a2f6d4eae75634115e194006d5159411f7022caa7c9354123c291f8944eb84125f87e1819967f4125bff6abae8d0541233d133c72183e411e71ff00e303824115873000000000410b1f718f9244cf40fe470dbc36e1b640edb3f622bcc79b40d94eac4a88556b40c269ed5187f4b540a65479e7693c504085be4c706f6ba2405ffefffbffdffe402fbfbf7ebc755e3ff0000000000000402f1cd9cceef239405d7d8f15df9fa940820f244c468165409feca32456d91840b588bec790faa440c6d72638e1767140d34dbe3cafffe740d9fd06786f8d8740db64e786c3e5c740d591f7690b8c7640c62f7278d40d64,
  0x40cd5933cf29ce4740e9f0cba1e3bca740ff4c20b18e0b86410db0f8c3edbd6541176eb9f070bbb1411fafc22e889f954122abe648d5a7ea41236056102814bf4121cfbbca7d6781411d16038336ba81411518bb4de6b5e2410b1f718f9244cf40fec1200000000040ee8453e7f4760f40da32104cf0c61a40c3216a9d3d0b4340a732fd6464077a408681aa9ade679a40606fb9ea007c4c40301fe03f61bad03ff0000000000000402fbfbf7ebc755e405ede6161f381434083819058f8de2340a1eae19c72339140b956d469753f6f40cc7cad2cb4c67e40d9e60b4b48d4dc40e326fbd6c0013c40e6eb6ab230c81840e5be51ff6560ee40df20f45bde159540cd5933cf29ce47,
  0x40d2337d85509f6540ee910c60805b554101780504ad4de2410f4dab194f277b4117406746967f4c411d7a0c72103c2d4120361d70dc0357411f3e4d40964f97411a82c8bad306124113d79a95a55d56410a2ac87e4c7ca340fe470dbc36e1b640ee8453e7f4760f40da7f000000000040c37eb57ee7c46b40a7ba7f5cd21e4d40870520d1d13b8d4060bfe16eb26fbd40304f3bd03c0a643ff000000000000040301fe03f61bad0405ffefffbffdffe4084bd4096d3359c40a3a86cc3cf6b8740bce41fb49d0dc040d1063530aaabc340e067ac9175008d40ea19a3fc60cd7540f1281fd2120d9e40f27a766fa22cf840efdf796fd4e7ee40e4e9fafea8aa4840d2337d85509f65,
  0x40d5342456a8744940f0de0f7b77698b41023559d7aa1bbc410eb597af1371174115627aa3329a3a41194d7db02a93d84119d7f4f14e6d804116fce35e1bd8254111e15e669593684108550288676f7340fce11e139b6e8840edb3f622bcc79b40da32104cf0c61a40c37eb57ee7c46b40a7e8000000000040874738af5a0fe74060eff87159f1ee40306e825da8fc2b3ff000000000000040304f3bd03c0a6440606fb9ea007c4c4085be4c706f6ba240a523f48d842f7240c007d17afee00340d3a22161952e6940e3d5288d6d5b1b40f0b8e9c950dd7140f7a62023d0c9c340fbfb5683e42ddd40fb65c61227eeee40f5a8dffede6df640ea3cfba39d4ed840d5342456a87449,
  0x40d73a3b48cf76d240f17368d2abb3de4101bae47e7a7c16410c089e88185338411238539baecfa4411404b2b71ce60a4112df9c990b35f7410ec724be92f4cd4105c3655498790840faa789d87cb0b540ec1ee4909b99bb40d94eac4a88556b40c3216a9d3d0b4340a7ba7f5cd21e4d40874738af5a0fe7406100000000000040307e0f66afed063ff000000000000040306e825da8fc2b4060bfe16eb26fbd408681aa9ade679a40a65479e7693c5040c15e5ffef6b1c640d5f362760c554a40e70b1fff3807ae40f45e239c3b9a7940fe87d7ac46d74c41036df8c0c939a04104e641c92a66a64102c200aa1f55cd40fb6095870ff45040eecba9ec3e103c40d73a3b48cf76d2,
  0x40d7f13c37570bcd40f0ee0616e9feab410020296ac4db4c4107cc0ce960d8b6410cb93991a2961a410d2187f979339541092d1bdb32b9544102a96eb89140a140f7c0adc9842b3740e9dbcdfe43a91d40d7def5392c315e40c269ed5187f4b540a732fd6464077a40870520d1d13b8d4060eff87159f1ee40307e0f66afed063ff000000000000040307e0f66afed064060eff87159f1ee40870520d1d13b8d40a732fd6464077a40c269ed5187f4b540d7def5392c315e40e9dbcdfe43a91d40f7c0adc9842b374102a96eb89140a141092d1bdb32b954410d2187f9793395410cb93991a2961a4107cc0ce960d8b6410020296ac4db4c40f0ee0616e9feab40d7f13c37570bcd,
  0x40d73a3b48cf76d240eecba9ec3e103c40fb6095870ff4504102c200aa1f55cd4104e641c92a66a641036df8c0c939a040fe87d7ac46d74c40f45e239c3b9a7940e70b1fff3807ae40d5f362760c554a40c15e5ffef6b1c640a65479e7693c50408681aa9ade679a4060bfe16eb26fbd40306e825da8fc2b3ff000000000000040307e0f66afed06406100000000000040874738af5a0fe740a7ba7f5cd21e4d40c3216a9d3d0b4340d94eac4a88556b40ec1ee4909b99bb40faa789d87cb0b54105c36554987908410ec724be92f4cd4112df9c990b35f7411404b2b71ce60a411238539baecfa4410c089e881853384101bae47e7a7c1640f17368d2abb3de40d73a3b48cf76d2,
  0x40d5342456a8744940ea3cfba39d4ed840f5a8dffede6df640fb65c61227eeee40fbfb5683e42ddd40f7a62023d0c9c340f0b8e9c950dd7140e3d5288d6d5b1b40d3a22161952e6940c007d17afee00340a523f48d842f724085be4c706f6ba240606fb9ea007c4c40304f3bd03c0a643ff000000000000040306e825da8fc2b4060eff87159f1ee40874738af5a0fe740a7e8000000000040c37eb57ee7c46b40da32104cf0c61a40edb3f622bcc79b40fce11e139b6e884108550288676f734111e15e669593684116fce35e1bd8254119d7f4f14e6d8041194d7db02a93d84115627aa3329a3a410eb597af13711741023559d7aa1bbc40f0de0f7b77698b40d5342456a87449,
  0x40d2337d85509f6540e4e9fafea8aa4840efdf796fd4e7ee40f27a766fa22cf840f1281fd2120d9e40ea19a3fc60cd7540e067ac9175008d40d1063530aaabc340bce41fb49d0dc040a3a86cc3cf6b874084bd4096d3359c405ffefffbffdffe40301fe03f61bad03ff000000000000040304f3bd03c0a644060bfe16eb26fbd40870520d1d13b8d40a7ba7f5cd21e4d40c37eb57ee7c46b40da7f000000000040ee8453e7f4760f40fe470dbc36e1b6410a2ac87e4c7ca34113d79a95a55d56411a82c8bad30612411f3e4d40964f974120361d70dc0357411d7a0c72103c2d4117406746967f4c410f4dab194f277b4101780504ad4de240ee910c60805b5540d2337d85509f65,
  0x40cd5933cf29ce4740df20f45bde159540e5be51ff6560ee40e6eb6ab230c81840e326fbd6c0013c40d9e60b4b48d4dc40cc7cad2cb4c67e40b956d469753f6f40a1eae19c7233914083819058f8de23405ede6161f38143402fbfbf7ebc755e3ff000000000000040301fe03f61bad040606fb9ea007c4c408681aa9ade679a40a732fd6464077a40c3216a9d3d0b4340da32104cf0c61a40ee8453e7f4760f40fec12000000000410b1f718f9244cf411518bb4de6b5e2411d16038336ba814121cfbbca7d678141236056102814bf4122abe648d5a7ea411fafc22e889f9541176eb9f070bbb1410db0f8c3edbd6540ff4c20b18e0b8640e9f0cba1e3bca740cd5933cf29ce47,
  0x40c62f7278d40d6440d591f7690b8c7640db64e786c3e5c740d9fd06786f8d8740d34dbe3cafffe740c6d72638e1767140b588bec790faa4409feca32456d91840820f244c468165405d7d8f15df9fa9402f1cd9cceef2393ff0000000000000402fbfbf7ebc755e405ffefffbffdffe4085be4c706f6ba240a65479e7693c5040c269ed5187f4b540d94eac4a88556b40edb3f622bcc79b40fe470dbc36e1b6410b1f718f9244cf4115873000000000411e71ff00e3038241233d133c72183e4125bff6abae8d054125f87e1819967f4123c291f8944eb8411f7022caa7c9354115e194006d5159410a2f6d4eae756340fa2622d218158340e496f7ccff632b40c62f7278d40d64,
  0x40bf5ff38185296640cbbb4f170910bd40cfb284ab4e8b0440cabac339c0f8df40c15f5786f05ee940b19e6d8c02416e409baf7425ea800d40806adb2e118ce7405bdc7bc29f9393402e54dd4ce75f1d3ff0000000000000402f1cd9cceef239405ede6161f381434084bd4096d3359c40a523f48d842f7240c15e5ffef6b1c640d7def5392c315e40ec1ee4909b99bb40fce11e139b6e88410a2ac87e4c7ca3411518bb4de6b5e2411e71ff00e303824123bbec000000004127058d8fb4c49341282af11a828bf24126c91acc3cf5434123364e2682faf6411cc4aede9baed74112e91df18da7514105707740fd724840f456d0dcdaee8940de813d6623926940bf5ff381852966,
  0x40b4b01c9db2f9ce40c07507f7ba805640c0b871a393533e40b8acc714b1fe1640ab7dfa1b7f0a8740973c2d1adb9f28407d355362b9359d4059fb1339d2c7df402d64d51e0db1c53ff0000000000000402e54dd4ce75f1d405d7d8f15df9fa94083819058f8de2340a3a86cc3cf6b8740c007d17afee00340d5f362760c554a40e9dbcdfe43a91d40faa789d87cb0b54108550288676f734113d79a95a55d56411d16038336ba8141233d133c72183e4127058d8fb4c4934128f04c0000000041286f4ed17dae4f412598f69974b790412123a286161ded41183d0d7f4ba96c410e30558786d601410041d5d4f7f01240ed60808bd665ce40d507514ac3a3fc40b4b01c9db2f9ce,
  0x40a95662c004963b40b1ea913d72eb4340afdaecc5bedde440a425a09ac33e5b4092b4bc9df8138540794b8dd4eee02b4057d935fcd37415402c48c6001f0abf3ff0000000000000402d64d51e0db1c5405bdc7bc29f939340820f244c46816540a1eae19c72339140bce41fb49d0dc040d3a22161952e6940e70b1fff3807ae40f7c0adc9842b374105c365549879084111e15e66959368411a82c8bad306124121cfbbca7d67814125bff6abae8d0541282af11a828bf241286f4ed17dae4f412671de000000004122abee6d4e7df9411bfcfa4be6688c4112bfc060940ea741062f247cf100bf40f6c15b1c8360b740e3a004278a28b340cadfd9dc2c60e540a95662c004963b,
  0x409caa81fbeb120540a1bc7853366929409b07aee824fe06408c7dfc8f7a2447407529d653304531405576b096be4ee0402afb41f432002d3ff0000000000000402c48c6001f0abf4059fb1339d2c7df40806adb2e118ce7409feca32456d91840b956d469753f6f40d1063530aaabc340e3d5288d6d5b1b40f45e239c3b9a794102a96eb89140a1410ec724be92f4cd4116fce35e1bd825411f3e4d40964f9741236056102814bf4125f87e1819967f4126c91acc3cf543412598f69974b7904122abee6d4e7df9411d56f0000000004114d50ea432baf3410a83dfa63898f040fde1112972b88b40ed415c77e4454040d82249e18ebe3c40bfabfb7005bbc9409caa81fbeb1205,
  0x408dbf878693987b408f8d7d1caa707d40840935e11224d94070e5547dd7c8f74052d32968a245d6402974b2334f23463ff0000000000000402afb41f432002d4057d935fcd37415407d355362b9359d409baf7425ea800d40b588bec790faa440cc7cad2cb4c67e40e067ac9175008d40f0b8e9c950dd7140fe87d7ac46d74c41092d1bdb32b9544112df9c990b35f74119d7f4f14e6d804120361d70dc03574122abe648d5a7ea4123c291f8944eb84123364e2682faf6412123a286161ded411bfcfa4be6688c4114d50ea432baf3410c1ab000000000410108a39e1ab1cd40f252867857464e40e128e9cfcf281b40cb21ce4b733c9140b1174e6f86fcee408dbf878693987b,
  0x407c0bfd6ed063fd4078ca46457aff1140692fd2432c3acd404fdbeba917c3f54027aa10d193c22c3ff0000000000000402974b2334f2346405576b096be4ee040794b8dd4eee02b40973c2d1adb9f2840b19e6d8c02416e40c6d72638e1767140d9e60b4b48d4dc40ea19a3fc60cd7540f7a62023d0c9c341036df8c0c939a0410d2187f9793395411404b2b71ce60a41194d7db02a93d8411d7a0c72103c2d411fafc22e889f95411f7022caa7c935411cc4aede9baed741183d0d7f4ba96c4112bfc060940ea7410a83dfa63898f0410108a39e1ab1cd40f3b5a00000000040e4475c2997fe8540d233636159d3b240bba0743b47b6e640a0bbbc3bb305c5407c0bfd6ed063fd,
  0x4067b432f68127d44060c2dd5df1942e40498b48cc1ce73c40258a68a4a8d9f33ff00000000000004027aa10d193c22c4052d32968a245d6407529d6533045314092b4bc9df8138540ab7dfa1b7f0a8740c15f5786f05ee940d34dbe3cafffe740e326fbd6c0013c40f1281fd2120d9e40fbfb5683e42ddd4104e641c92a66a6410cb93991a2961a411238539baecfa44115627aa3329a3a4117406746967f4c41176eb9f070bbb14115e194006d51594112e91df18da751410e30558786d60141062f247cf100bf40fde1112972b88b40f252867857464e40e4475c2997fe8540d3fec00000000040c13a7331b20c5140a9251ba8ec739f408d55036466c3514067b432f68127d4,
  0x40519b58598f7c9e4042acc2ee19c4894022f9422c23c47d3ff000000000000040258a68a4a8d9f3404fdbeba917c3f54070e5547dd7c8f7408c7dfc8f7a244740a425a09ac33e5b40b8acc714b1fe1640cabac339c0f8df40d9fd06786f8d8740e6eb6ab230c81840f27a766fa22cf840fb65c61227eeee4102c200aa1f55cd4107cc0ce960d8b6410c089e88185338410eb597af137117410f4dab194f277b410db0f8c3edbd65410a2f6d4eae75634105707740fd7248410041d5d4f7f01240f6c15b1c8360b740ed415c77e4454040e128e9cfcf281b40d233636159d3b240c13a7331b20c5140ac8c000000000040940f89f6ab266a407690c0dfb4782640519b58598f7c9e,
  0x403645640568c1c3401f7efbeb8d4f113ff00000000000004022f9422c23c47d40498b48cc1ce73c40692fd2432c3acd40840935e11224d9409b07aee824fe0640afdaecc5bedde440c0b871a393533e40cfb284ab4e8b0440db64e786c3e5c740e5be51ff6560ee40efdf796fd4e7ee40f5a8dffede6df640fb6095870ff450410020296ac4db4c4101bae47e7a7c1641023559d7aa1bbc4101780504ad4de240ff4c20b18e0b8640fa2622d218158340f456d0dcdaee8940ed60808bd665ce40e3a004278a28b340d82249e18ebe3c40cb21ce4b733c9140bba0743b47b6e640a9251ba8ec739f40940f89f6ab266a407b300000000000405d870c2cd47a20403645640568c1c3,
  0x4016a09e667f3bcc3ff0000000000000401f7efbeb8d4f114042acc2ee19c4894060c2dd5df1942e4078ca46457aff11408f8d7d1caa707d40a1bc785336692940b1ea913d72eb4340c07507f7ba805640cbbb4f170910bd40d591f7690b8c7640df20f45bde159540e4e9fafea8aa4840ea3cfba39d4ed840eecba9ec3e103c40f0ee0616e9feab40f17368d2abb3de40f0de0f7b77698b40ee910c60805b5540e9f0cba1e3bca740e496f7ccff632b40de813d6623926940d507514ac3a3fc40cadfd9dc2c60e540bfabfb7005bbc940b1174e6f86fcee40a0bbbc3bb305c5408d55036466c351407690c0dfb47826405d870c2cd47a20403f0000000000004016a09e667f3bcc,
  0x3ff00000000000004016a09e667f3bcc403645640568c1c340519b58598f7c9e4067b432f68127d4407c0bfd6ed063fd408dbf878693987b409caa81fbeb120540a95662c004963b40b4b01c9db2f9ce40bf5ff38185296640c62f7278d40d6440cd5933cf29ce4740d2337d85509f6540d5342456a8744940d73a3b48cf76d240d7f13c37570bcd40d73a3b48cf76d240d5342456a8744940d2337d85509f6540cd5933cf29ce4740c62f7278d40d6440bf5ff38185296640b4b01c9db2f9ce40a95662c004963b409caa81fbeb1205408dbf878693987b407c0bfd6ed063fd4067b432f68127d440519b58598f7c9e403645640568c1c34016a09e667f3bcc3ff0000000000000]

/-- The coefficients for `2 ell = 33`: one number for each of the 34 values of `mp`, consisting of the doubles for the 34 values of `m`. -/
def wigner33 : List Nat := [
  0x3ff00000000000004016fa6ea162d0f04036fa6ea162d0f040527757ebaf93684069492e7d33fb7e407e72be2b01d76f409071a46b7c148d40a025c9615b8c1540ad1c4a3392966940b8423dd5a4d2ad40c2ca6eb29e3b0f40cb2bdfafd7968940d26526184f48a240d761394318308a40dbf1b5e848f80e40df733c518e829c40e0adcffe87f50e40e0adcffe87f50e40df733c518e829c40dbf1b5e848f80e40d761394318308a40d26526184f48a240cb2bdfafd7968940c2ca6eb29e3b0f40b8423dd5a4d2ad40ad1c4a3392966940a025c9615b8c15409071a46b7c148d407e72be2b01d76f4069492e7d33fb7e40527757ebaf93684036fa6ea162d0f04016fa6ea162d0f03ff0000000000000,
  0x4016fa6ea162d0f04040000000000000405f00000000000040781befbd9d4690408fe990225411e040a28d1df1c83e3740b3526e72e9fa4a40c24566370ac91640cfabfb7005bbc940d95662c004963b40e2cefc4fbfd67440ea03bdfb0f673e40f0cfba321c4b1c40f45977f26e4cf540f71b2e3884150940f8a2ee56980cfd40f8addefd5c6e3f40f73a3b48cf76d240f487c69d7eb57d40f1068dd8cd1cf940ea744f218f640b40e3368ba6fbc38e40da03bdfb0f673e40d05af1a9856c9140c300ca100370ac40b4451bccd0782f40a3ad330032fff040912cd3f45e33d0407a8073ebb058e040619b58598f7c9e4043498c97b1054040200000000000003ff00000000000004016fa6ea162d0f0,
  0x4036fa6ea162d0f0405f000000000000407d1000000000004095d95143d687f240abec5e1e098fa440bf4e228801e8fc40cf65f37abc36b840dc8c6fb600da3340e7c0fc94044cd740f23616fa034bfa40f9dc9aeda7c6df41011274acc21bc0410503a8bea35de441082a3e6fe2fb634109fe93ff9497aa410a2d1d3c018dcd4108addefd5c6e3f4105c69794427f654101f6cdc9cedece40fbaaa6804d4f1440f3d73b592b8b0840ea6b00059a2ce440e04256bce9a08640d2664fdeb61a2340c300ca100370ac40b1bc7853366929409d83cc804c7fe940857808f175c0c4406a8073ebb058e0404a690486573aee4023498c97b105403ff000000000000040200000000000004036fa6ea162d0f0,
  0x40527757ebaf936840781befbd9d46904095d95143d687f240afb8000000000040c38b7210677ff140d519ad0dacc7bb40e4595ab8966d6d40f1c318e7e42dce40fc538af53df0154104c5cc4d71b00f410c288299cbb5da4111b3f3960a8f654114b3863ba8665d41168d5a3c3c2a8f4116e9679715cde04115b6fc41c29cf84113317ecd6c26ae410f9cd0d9df4ec44108375bd35fef0d4101369eab1a280340f6a19c1fb3d81240eb64e786c3e5c740de590f4a5b3ef740ce86fc509526df40bb965f436f85a540a611e5cf8c6aea408e9aff97718a004071cf4c5649044f40507d17041f3dfe4025e8add236a58e3ff00000000000004023498c97b105404043498c97b1054040527757ebaf9368,
  0x4069492e7d33fb7e408fe990225411e040abec5e1e098fa440c38b7210677ff140d731c00000000040e813ca8db90db240f64a8fd2941f9d4102a58cc3ff994c410c71b1e3a438e54113e92fb8f2f4a04119b4707a5b9914411eb4770309b56e41210200e842a6aa41217fc6dc36b72e4120bb7c64d5ed06411dbbf447dc54154118878ab71548d14112c200aa1f55cd410a870ea480cd87410148f14f9890b940f4a8d1696ed49040e681b05bc5ea0640d629b811975e6240c381d9e981367340ae3870e824dd89409425a09ac33e5b407659dfb2994a5540538275ffa195c24028154be27735253ff00000000000004025e8add236a58e404a690486573aee40619b58598f7c9e4069492e7d33fb7e,
  0x407e72be2b01d76f40a28d1df1c83e3740bf4e228801e8fc40d519ad0dacc7bb40e813ca8db90db240f7fe8000000000410549e5db889c02411108a39e1ab1cd4118cd7970c76ee1412088fba084f4964124478502f5652b4126f2fc15d3a7e8412802dd8657b2264127406746967f4c4124d7dcb5ad28de412148f7ff1ffdbe411a7b569f3abc044112b16a524793c641083ba1f4bbe8c240fcb56dfe8cc0f740eee1d2e086e54f40dde7b72bcaa1df40c9c4795be02ccf40b37099eb8296c5409918c3bbfb6104407ac5150cc7def34056461bece53edd4029ec474a2612633ff00000000000004028154be277352540507d17041f3dfe406a8073ebb058e0407a8073ebb058e0407e72be2b01d76f,
  0x409071a46b7c148d40b3526e72e9fa4a40cf65f37abc36b840e4595ab8966d6d40f64a8fd2941f9d410549e5db889c024112112800000000411b990af9ac49f9412322b9d04934e941283d0d7f4ba96c412c299ea87a93d4412e1980e4349cb0412da3daf4de7614412ae891836592a541268363cbe1190b4121561e66347d24411884729e014863410fba7635e38adb4102b234dca7097740f3ef2ff18d747d40e30f9491b3e5e540d0268f15acbbfb40b7db25f511210a409dff0ffc3fe1fe407efae6ce7a298b4058c8b8a52e87a3402b7ed6159fadc73ff00000000000004029ec474a26126340538275ffa195c24071cf4c5649044f40857808f175c0c440912cd3f45e33d0409071a46b7c148d,
  0x40a025c9615b8c1540c24566370ac91640dc8c6fb600da3340f1c318e7e42dce4102a58cc3ff994c411108a39e1ab1cd411b990af9ac49f94124131000000000412a72447f848000412fbc52329f000041316997bb6d5077413183f177d7428b41302b83b222458c412b66f9864ac6a0412549ec8b449d3d411e43d0b5f9fb7241139dfd0312059041071438b8516ff540f87a9d8420c79c40e7333c6e8eef8440d3691f1426628840bc31e0b7cae56040a15a4bf4bf11944081748e8b5cd9fc405b0aa8901b4454402cd82b446159f33ff0000000000000402b7ed6159fadc74056461bece53edd407659dfb2994a55408e9aff97718a00409d83cc804c7fe940a3ad330032fff040a025c9615b8c15,
  0x40ad1c4a3392966940cfabfb7005bbc940e7c0fc94044cd740fc538af53df015410c71b1e3a438e54118cd7970c76ee1412322b9d04934e9412a72447f848000413080e7000000004132b43900000000413351414de4f5a5413237953657f11f412f64a9c3f6806c4128b33676b962664121b69c61de972f4117155b8eee379a410b343ea9be974a40fccde7ff06099940eb282f7afa234c40d6855df177ffe340c0268f15acbbfb40a38cb2a291204e40834049240755fe405d0c20c63a59ec402e0000000000003ff0000000000000402cd82b446159f34058c8b8a52e87a3407ac5150cc7def3409425a09ac33e5b40a611e5cf8c6aea40b1bc785336692940b4451bccd0782f40ad1c4a33929669,
  0x40b8423dd5a4d2ad40d95662c004963b40f23616fa034bfa4104c5cc4d71b00f4113e92fb8f2f4a0412088fba084f49641283d0d7f4ba96c412fbc52329f00004132b439000000004133f37000000000413351414de4f5a5413100ad65ebadd9412b351ba9d5a27f4123c291f8944eb84119fac33a356645410ec724be92f4cd4100528bff725ac640eeb97ffef55f9340d958b4d92dba8b40c2044b2793331c40a588bec790faa44084da5824df1164405ecd41d33eeffd402efbdeb14f4ed93ff0000000000000402e000000000000405b0aa8901b4454407efae6ce7a298b409918c3bbfb610440ae3870e824dd8940bb965f436f85a540c300ca100370ac40c300ca100370ac40b8423dd5a4d2ad,
  0x40c2ca6eb29e3b0f40e2cefc4fbfd67440f9dc9aeda7c6df410c288299cbb5da4119b4707a5b99144124478502f5652b412c299ea87a93d441316997bb6d5077413351414de4f5a5413351414de4f5a54131750200000000412c8911246c41424125132645ead125411c0fa507ce9eba4110c50c7e55a0fe4101e15e6695936840f0db95ab69c0a440dbc40592cc4c5940c3a22161952e6940a74272059d9a5840863d89ee691c514060271050342fce402fcfdbc999e97d3ff0000000000000402efbdeb14f4ed9405d0c20c63a59ec4081748e8b5cd9fc409dff0ffc3fe1fe40b37099eb8296c540c381d9e981367340ce86fc509526df40d2664fdeb61a2340d05af1a9856c9140c2ca6eb29e3b0f,
  0x40cb2bdfafd7968940ea03bdfb0f673e41011274acc21bc04111b3f3960a8f65411eb4770309b56e4126f2fc15d3a7e8412e1980e4349cb0413183f177d7428b413237953657f11f413100ad65ebadd9412c8911246c41424125873000000000411d262ee2f982854111a451961ba7694102fa3ae035b03240f1fc6d653bd8f040ddaceae145af7e40c4f287ae13127740a8afcd5dc59830408765a4f73023784060c76587f2fd6140303f81f636b80b3ff0000000000000402fcfdbc999e97d405ecd41d33eeffd40834049240755fe40a15a4bf4bf119440b7db25f511210a40c9c4795be02ccf40d629b811975e6240de590f4a5b3ef740e04256bce9a08640da03bdfb0f673e40cb2bdfafd79689,
  0x40d26526184f48a240f0cfba321c4b1c410503a8bea35de44114b3863ba8665d41210200e842a6aa412802dd8657b226412da3daf4de761441302b83b222458c412f64a9c3f6806c412b351ba9d5a27f4125132645ead125411d262ee2f982854111f0a80000000041038b489b42113540f2b00dde96ade340defeb8b72fd22f40c5eab2067c01b840a9c8d1710a5c6040884f4f9ebc184d406147a5431ebee8403085d06e1f05173ff000000000000040303f81f636b80b4060271050342fce4084da5824df116440a38cb2a291204e40bc31e0b7cae56040d0268f15acbbfb40dde7b72bcaa1df40e681b05bc5ea0640eb64e786c3e5c740ea6b00059a2ce440e3368ba6fbc38e40d26526184f48a2,
  0x40d761394318308a40f45977f26e4cf541082a3e6fe2fb6341168d5a3c3c2a8f41217fc6dc36b72e4127406746967f4c412ae891836592a5412b66f9864ac6a04128b33676b962664123c291f8944eb8411c0fa507ce9eba4111a451961ba76941038b489b42113540f2ed000000000040dfab3c540652d140c682c63a9cf3a440aa877ea36774544088f7feb7e8e5f54061a7d2b07b19724030bbb307acafda3ff0000000000000403085d06e1f05174060c76587f2fd6140863d89ee691c5140a588bec790faa440c0268f15acbbfb40d3691f1426628840e30f9491b3e5e540eee1d2e086e54f40f4a8d1696ed49040f6a19c1fb3d81240f3d73b592b8b0840ea744f218f640b40d761394318308a,
  0x40dbf1b5e848f80e40f71b2e388415094109fe93ff9497aa4116e9679715cde04120bb7c64d5ed064124d7dcb5ad28de41268363cbe1190b412549ec8b449d3d4121b69c61de972f4119fac33a3566454110c50c7e55a0fe4102fa3ae035b03240f2b00dde96ade340dfab3c540652d140c6b6000000000040aae7d52f24668840895de936e9b4324061e7efea86d98d4030e1c7047b3b503ff00000000000004030bbb307acafda406147a5431ebee8408765a4f730237840a74272059d9a5840c2044b2793331c40d6855df177ffe340e7333c6e8eef8440f3ef2ff18d747d40fcb56dfe8cc0f7410148f14f9890b94101369eab1a280340fbaaa6804d4f1440f1068dd8cd1cf940dbf1b5e848f80e,
  0x40df733c518e829c40f8a2ee56980cfd410a2d1d3c018dcd4115b6fc41c29cf8411dbbf447dc5415412148f7ff1ffdbe4121561e66347d24411e43d0b5f9fb724117155b8eee379a410ec724be92f4cd4101e15e6695936840f1fc6d653bd8f040defeb8b72fd22f40c682c63a9cf3a440aae7d52f2466884089800000000000406207fe39ad63a74030f876ccdf6cd93ff00000000000004030e1c7047b3b504061a7d2b07b197240884f4f9ebc184d40a8afcd5dc5983040c3a22161952e6940d958b4d92dba8b40eb282f7afa234c40f87a9d8420c79c4102b234dca7097741083ba1f4bbe8c2410a870ea480cd874108375bd35fef0d4101f6cdc9cedece40f487c69d7eb57d40df733c518e829c,
  0x40e0adcffe87f50e40f8addefd5c6e3f4108addefd5c6e3f4113317ecd6c26ae4118878ab71548d1411a7b569f3abc04411884729e01486341139dfd03120590410b343ea9be974a4100528bff725ac640f0db95ab69c0a440ddaceae145af7e40c5eab2067c01b840aa877ea367745440895de936e9b432406207fe39ad63a740310000000000003ff00000000000004030f876ccdf6cd94061e7efea86d98d4088f7feb7e8e5f540a9c8d1710a5c6040c4f287ae13127740dbc40592cc4c5940eeb97ffef55f9340fccde7ff06099941071438b8516ff5410fba7635e38adb4112b16a524793c64112c200aa1f55cd410f9cd0d9df4ec44105c69794427f6540f73a3b48cf76d240e0adcffe87f50e,
  0x40e0adcffe87f50e40f73a3b48cf76d24105c69794427f65410f9cd0d9df4ec44112c200aa1f55cd4112b16a524793c6410fba7635e38adb41071438b8516ff540fccde7ff06099940eeb97ffef55f9340dbc40592cc4c5940c4f287ae13127740a9c8d1710a5c604088f7feb7e8e5f54061e7efea86d98d4030f876ccdf6cd93ff00000000000004031000000000000406207fe39ad63a740895de936e9b43240aa877ea367745440c5eab2067c01b840ddaceae145af7e40f0db95ab69c0a44100528bff725ac6410b343ea9be974a41139dfd03120590411884729e014863411a7b569f3abc044118878ab71548d14113317ecd6c26ae4108addefd5c6e3f40f8addefd5c6e3f40e0adcffe87f50e,
  0x40df733c518e829c40f487c69d7eb57d4101f6cdc9cedece4108375bd35fef0d410a870ea480cd8741083ba1f4bbe8c24102b234dca7097740f87a9d8420c79c40eb282f7afa234c40d958b4d92dba8b40c3a22161952e6940a8afcd5dc5983040884f4f9ebc184d4061a7d2b07b19724030e1c7047b3b503ff00000000000004030f876ccdf6cd9406207fe39ad63a7408980000000000040aae7d52f24668840c682c63a9cf3a440defeb8b72fd22f40f1fc6d653bd8f04101e15e66959368410ec724be92f4cd4117155b8eee379a411e43d0b5f9fb724121561e66347d24412148f7ff1ffdbe411dbbf447dc54154115b6fc41c29cf8410a2d1d3c018dcd40f8a2ee56980cfd40df733c518e829c,
  0x40dbf1b5e848f80e40f1068dd8cd1cf940fbaaa6804d4f144101369eab1a2803410148f14f9890b940fcb56dfe8cc0f740f3ef2ff18d747d40e7333c6e8eef8440d6855df177ffe340c2044b2793331c40a74272059d9a58408765a4f7302378406147a5431ebee84030bbb307acafda3ff00000000000004030e1c7047b3b504061e7efea86d98d40895de936e9b43240aae7d52f24668840c6b6000000000040dfab3c540652d140f2b00dde96ade34102fa3ae035b0324110c50c7e55a0fe4119fac33a3566454121b69c61de972f412549ec8b449d3d41268363cbe1190b4124d7dcb5ad28de4120bb7c64d5ed064116e9679715cde04109fe93ff9497aa40f71b2e3884150940dbf1b5e848f80e,
  0x40d761394318308a40ea744f218f640b40f3d73b592b8b0840f6a19c1fb3d81240f4a8d1696ed49040eee1d2e086e54f40e30f9491b3e5e540d3691f1426628840c0268f15acbbfb40a588bec790faa440863d89ee691c514060c76587f2fd61403085d06e1f05173ff00000000000004030bbb307acafda4061a7d2b07b19724088f7feb7e8e5f540aa877ea367745440c682c63a9cf3a440dfab3c540652d140f2ed000000000041038b489b4211354111a451961ba769411c0fa507ce9eba4123c291f8944eb84128b33676b96266412b66f9864ac6a0412ae891836592a54127406746967f4c41217fc6dc36b72e41168d5a3c3c2a8f41082a3e6fe2fb6340f45977f26e4cf540d761394318308a,
  0x40d26526184f48a240e3368ba6fbc38e40ea6b00059a2ce440eb64e786c3e5c740e681b05bc5ea0640dde7b72bcaa1df40d0268f15acbbfb40bc31e0b7cae56040a38cb2a291204e4084da5824df11644060271050342fce40303f81f636b80b3ff0000000000000403085d06e1f0517406147a5431ebee840884f4f9ebc184d40a9c8d1710a5c6040c5eab2067c01b840defeb8b72fd22f40f2b00dde96ade341038b489b4211354111f0a800000000411d262ee2f982854125132645ead125412b351ba9d5a27f412f64a9c3f6806c41302b83b222458c412da3daf4de7614412802dd8657b22641210200e842a6aa4114b3863ba8665d410503a8bea35de440f0cfba321c4b1c40d26526184f48a2,
  0x40cb2bdfafd7968940da03bdfb0f673e40e04256bce9a08640de590f4a5b3ef740d629b811975e6240c9c4795be02ccf40b7db25f511210a40a15a4bf4bf119440834049240755fe405ecd41d33eeffd402fcfdbc999e97d3ff000000000000040303f81f636b80b4060c76587f2fd61408765a4f730237840a8afcd5dc5983040c4f287ae13127740ddaceae145af7e40f1fc6d653bd8f04102fa3ae035b0324111a451961ba769411d262ee2f982854125873000000000412c8911246c4142413100ad65ebadd9413237953657f11f413183f177d7428b412e1980e4349cb04126f2fc15d3a7e8411eb4770309b56e4111b3f3960a8f6541011274acc21bc040ea03bdfb0f673e40cb2bdfafd79689,
  0x40c2ca6eb29e3b0f40d05af1a9856c9140d2664fdeb61a2340ce86fc509526df40c381d9e981367340b37099eb8296c5409dff0ffc3fe1fe4081748e8b5cd9fc405d0c20c63a59ec402efbdeb14f4ed93ff0000000000000402fcfdbc999e97d4060271050342fce40863d89ee691c5140a74272059d9a5840c3a22161952e6940dbc40592cc4c5940f0db95ab69c0a44101e15e669593684110c50c7e55a0fe411c0fa507ce9eba4125132645ead125412c8911246c41424131750200000000413351414de4f5a5413351414de4f5a541316997bb6d5077412c299ea87a93d44124478502f5652b4119b4707a5b9914410c288299cbb5da40f9dc9aeda7c6df40e2cefc4fbfd67440c2ca6eb29e3b0f,
  0x40b8423dd5a4d2ad40c300ca100370ac40c300ca100370ac40bb965f436f85a540ae3870e824dd89409918c3bbfb6104407efae6ce7a298b405b0aa8901b4454402e0000000000003ff0000000000000402efbdeb14f4ed9405ecd41d33eeffd4084da5824df116440a588bec790faa440c2044b2793331c40d958b4d92dba8b40eeb97ffef55f934100528bff725ac6410ec724be92f4cd4119fac33a3566454123c291f8944eb8412b351ba9d5a27f413100ad65ebadd9413351414de4f5a54133f370000000004132b43900000000412fbc52329f000041283d0d7f4ba96c412088fba084f4964113e92fb8f2f4a04104c5cc4d71b00f40f23616fa034bfa40d95662c004963b40b8423dd5a4d2ad,
  0x40ad1c4a3392966940b4451bccd0782f40b1bc785336692940a611e5cf8c6aea409425a09ac33e5b407ac5150cc7def34058c8b8a52e87a3402cd82b446159f33ff0000000000000402e000000000000405d0c20c63a59ec40834049240755fe40a38cb2a291204e40c0268f15acbbfb40d6855df177ffe340eb282f7afa234c40fccde7ff060999410b343ea9be974a4117155b8eee379a4121b69c61de972f4128b33676b96266412f64a9c3f6806c413237953657f11f413351414de4f5a54132b43900000000413080e700000000412a72447f848000412322b9d04934e94118cd7970c76ee1410c71b1e3a438e540fc538af53df01540e7c0fc94044cd740cfabfb7005bbc940ad1c4a33929669,
  0x40a025c9615b8c1540a3ad330032fff0409d83cc804c7fe9408e9aff97718a00407659dfb2994a554056461bece53edd402b7ed6159fadc73ff0000000000000402cd82b446159f3405b0aa8901b44544081748e8b5cd9fc40a15a4bf4bf119440bc31e0b7cae56040d3691f1426628840e7333c6e8eef8440f87a9d8420c79c41071438b8516ff541139dfd03120590411e43d0b5f9fb72412549ec8b449d3d412b66f9864ac6a041302b83b222458c413183f177d7428b41316997bb6d5077412fbc52329f0000412a72447f8480004124131000000000411b990af9ac49f9411108a39e1ab1cd4102a58cc3ff994c40f1c318e7e42dce40dc8c6fb600da3340c24566370ac91640a025c9615b8c15,
  0x409071a46b7c148d40912cd3f45e33d040857808f175c0c44071cf4c5649044f40538275ffa195c24029ec474a2612633ff0000000000000402b7ed6159fadc74058c8b8a52e87a3407efae6ce7a298b409dff0ffc3fe1fe40b7db25f511210a40d0268f15acbbfb40e30f9491b3e5e540f3ef2ff18d747d4102b234dca70977410fba7635e38adb411884729e0148634121561e66347d2441268363cbe1190b412ae891836592a5412da3daf4de7614412e1980e4349cb0412c299ea87a93d441283d0d7f4ba96c412322b9d04934e9411b990af9ac49f94112112800000000410549e5db889c0240f64a8fd2941f9d40e4595ab8966d6d40cf65f37abc36b840b3526e72e9fa4a409071a46b7c148d,
  0x407e72be2b01d76f407a8073ebb058e0406a8073ebb058e040507d17041f3dfe4028154be27735253ff00000000000004029ec474a2612634056461bece53edd407ac5150cc7def3409918c3bbfb610440b37099eb8296c540c9c4795be02ccf40dde7b72bcaa1df40eee1d2e086e54f40fcb56dfe8cc0f741083ba1f4bbe8c24112b16a524793c6411a7b569f3abc04412148f7ff1ffdbe4124d7dcb5ad28de4127406746967f4c412802dd8657b2264126f2fc15d3a7e84124478502f5652b412088fba084f4964118cd7970c76ee1411108a39e1ab1cd410549e5db889c0240f7fe800000000040e813ca8db90db240d519ad0dacc7bb40bf4e228801e8fc40a28d1df1c83e37407e72be2b01d76f,
  0x4069492e7d33fb7e40619b58598f7c9e404a690486573aee4025e8add236a58e3ff00000000000004028154be277352540538275ffa195c2407659dfb2994a55409425a09ac33e5b40ae3870e824dd8940c381d9e981367340d629b811975e6240e681b05bc5ea0640f4a8d1696ed490410148f14f9890b9410a870ea480cd874112c200aa1f55cd4118878ab71548d1411dbbf447dc54154120bb7c64d5ed0641217fc6dc36b72e41210200e842a6aa411eb4770309b56e4119b4707a5b99144113e92fb8f2f4a0410c71b1e3a438e54102a58cc3ff994c40f64a8fd2941f9d40e813ca8db90db240d731c00000000040c38b7210677ff140abec5e1e098fa4408fe990225411e04069492e7d33fb7e,
  0x40527757ebaf93684043498c97b105404023498c97b105403ff00000000000004025e8add236a58e40507d17041f3dfe4071cf4c5649044f408e9aff97718a0040a611e5cf8c6aea40bb965f436f85a540ce86fc509526df40de590f4a5b3ef740eb64e786c3e5c740f6a19c1fb3d8124101369eab1a28034108375bd35fef0d410f9cd0d9df4ec44113317ecd6c26ae4115b6fc41c29cf84116e9679715cde041168d5a3c3c2a8f4114b3863ba8665d4111b3f3960a8f65410c288299cbb5da4104c5cc4d71b00f40fc538af53df01540f1c318e7e42dce40e4595ab8966d6d40d519ad0dacc7bb40c38b7210677ff140afb800000000004095d95143d687f240781befbd9d469040527757ebaf9368,
  0x4036fa6ea162d0f040200000000000003ff00000000000004023498c97b10540404a690486573aee406a8073ebb058e040857808f175c0c4409d83cc804c7fe940b1bc785336692940c300ca100370ac40d2664fdeb61a2340e04256bce9a08640ea6b00059a2ce440f3d73b592b8b0840fbaaa6804d4f144101f6cdc9cedece4105c69794427f654108addefd5c6e3f410a2d1d3c018dcd4109fe93ff9497aa41082a3e6fe2fb63410503a8bea35de441011274acc21bc040f9dc9aeda7c6df40f23616fa034bfa40e7c0fc94044cd740dc8c6fb600da3340cf65f37abc36b840bf4e228801e8fc40abec5e1e098fa44095d95143d687f2407d100000000000405f0000000000004036fa6ea162d0f0,
  0x4016fa6ea162d0f03ff000000000000040200000000000004043498c97b1054040619b58598f7c9e407a8073ebb058e040912cd3f45e33d040a3ad330032fff040b4451bccd0782f40c300ca100370ac40d05af1a9856c9140da03bdfb0f673e40e3368ba6fbc38e40ea744f218f640b40f1068dd8cd1cf940f487c69d7eb57d40f73a3b48cf76d240f8addefd5c6e3f40f8a2ee56980cfd40f71b2e3884150940f45977f26e4cf540f0cfba321c4b1c40ea03bdfb0f673e40e2cefc4fbfd67440d95662c004963b40cfabfb7005bbc940c24566370ac91640b3526e72e9fa4a40a28d1df1c83e37408fe990225411e040781befbd9d4690405f00000000000040400000000000004016fa6ea162d0f0,
  0x3ff00000000000004016fa6ea162d0f04036fa6ea162d0f040527757ebaf93684069492e7d33fb7e407e72be2b01d76f409071a46b7c148d40a025c9615b8c1540ad1c4a3392966940b8423dd5a4d2ad40c2ca6eb29e3b0f40cb2bdfafd7968940d26526184f48a240d761394318308a40dbf1b5e848f80e40df733c518e829c40e0adcffe87f50e40e0adcffe87f50e40df733c518e829c40dbf1b5e848f80e40d761394318308a40d26526184f48a240cb2bdfafd7968940c2ca6eb29e3b0f40b8423dd5a4d2ad40ad1c4a3392966940a025c9615b8c15409071a46b7c148d407e72be2b01d76f4069492e7d33fb7e40527757ebaf93684036fa6ea162d0f04016fa6ea162d0f03ff0000000000000]

/-- The coefficients for `2 ell = 34`: one number for each of the 35 values of `mp`, consisting of the doubles for the 35 values of `m`. -/
def wigner34 : List Nat := [
  0x3ff0000000000000401752e50db3a3a14037af78e6da9b30405356cdebc9b5e2406aeb3a614ef06b40807bff83c2d81340921eccc2a0c3f040a21eccc2a0c3f040b0a5027e49789840bc4a52ed7f3d6740c65d8f4eeb44a840d0849b2cdd62b240d6de3d79294df340ddbfb4db0ecff440e237a612742bb340e5091e20b7cb8840e6ec4bc34e709f40e7966d3d2ae1f540e6ec4bc34e709f40e5091e20b7cb8840e237a612742bb340ddbfb4db0ecff440d6de3d79294df340d0849b2cdd62b240c65d8f4eeb44a840bc4a52ed7f3d6740b0a5027e49789840a21eccc2a0c3f040921eccc2a0c3f040807bff83c2d813406aeb3a614ef06b405356cdebc9b5e24037af78e6da9b30401752e50db3a3a13ff0000000000000,
  0x401752e50db3a3a1404080000000000040603f81f636b80b4079b42eff5d83ba40914fe26cf49a3140a47eff31e9717c40b5c0d5513f41e840c4f9f24533dafb40d28debe2351f4840de52cd4b0e075840e7038d6bdaf9c540f049e65c01eb9840f591f7690b8c7640fac8ef656aab5d40ff3e177114f917410122d0b7cb605a4101b0d1ede0297741013138d27ad47740ff733c518e829c40fb0e8cec4e982240f5deaa025b7b2940f094c4f5a38ea740e787f6a123df0d40df29331f51962f40d32da0848bd02440c5d537a6adf0cf40b6d60ea041619340a5c0d5513f41e84092a5492111a634407c453caec6679140627757ebaf93684043e655eefe136740203f81f636b80b3ff0000000000000401752e50db3a3a1,
  0x4037af78e6da9b3040603f81f636b80b407f0000000000004097babc0c430e2e40aee62537e6fed140c1a906504a11a540d212f682e51c2240e0c877306707d640ec8c6fb600da3340f665358ccfa614410049e65c01eb9841060e1232072f5d410be0eca3a557cb41107c26dfab56cc4112445c5f2b746e4112fbd1151b5b9c411282673e0552af4110ee0616e9feab410d08ca1b035487410750322be2b85c41017f761fe0de0340f87df09cc40bee40efdc7c28bcf69f40e32da0848bd02440d53efff271cf2040c57fe17cf04d8440b3ad330032fff040a010db1f048ac84086f3822c4fa1b1406bd6bd06c2f234404b46bfc05aeb894023988e1409212e3ff000000000000040203f81f636b80b4037af78e6da9b30,
  0x405356cdebc9b5e24079b42eff5d83ba4097babc0c430e2e40b18f000000000040c61347e45c960f40d8553d4f391bde40e7fb16283e27ed40f56953c880a3a641017b7c27c0a82a410a49259d748cfb411249798e1a96b94117a29f3cab0649411c7417ca98d8eb411ff7a1a68c0bc14120c782ff178aa241207806753ebbda411e39c7b947254f4119eb177d66fbae4114be3dc56d0f91410eeea4d4d0b5a141056e32892b8a7040fb7f2756aa817340f04256bce9a08640e19dc7c774575e40d158ecbb6b2eda40beb85323c2892940a81948ae86d02d409065aa802a7ff34072bd5524c2db5f40510c37d838d335402645640568c1c33ff00000000000004023988e1409212e4043e655eefe1367405356cdebc9b5e2,
  0x406aeb3a614ef06b40914fe26cf49a3140aee62537e6fed140c61347e45c960f40dac3400000000040ec683a96936c1640faeb53fda6333f410712da4720be3641120df843b375914119f73f60ce1c1341213e4afd1060494125399e753ad4a44128463e3dc6b1e84129d634c8e0ea3a41299db8c4f7d86a4127a9c38d332ca241245b8c7da6732841204af11a3d123e4118375bd35fef0d4110aab0f744249741052b6cfffc022840f8b158bad9f35140ea4833fd979c0c40d94fd7ffe064f040c5cf4b9f320e8740b08d6c5ba9502f4095a42e3569015d40778f627418ae62405431c21a5e4c5440287eb1990b697a3ff0000000000000402645640568c1c3404b46bfc05aeb8940627757ebaf9368406aeb3a614ef06b,
  0x40807bff83c2d81340a47eff31e9717c40c1a906504a11a540d8553d4f391bde40ec683a96936c1640fcfe3000000000410a60185117f9aa4115aa5d1e0a8d14412037346c4c582a412642d3e18521df412c288299cbb5da413076b46a8587784131d6847712ec124131ee67bd13e44a4130bb7c64d5ed06412cfb3719b365504127454be600c2dd41214b3a46b946284117ba1b30c98f78410df039b66be995410148f14f9890b940f22538db6a4afe40e12ad806ced7a540ccef141025d60f40b55e7d6b9b9b35409b07aee824fe06407c45a9581d9e0f405715869f5ef063402a61be6cfec9963ff000000000000040287eb1990b697a40510c37d838d335406bd6bd06c2f234407c453caec6679140807bff83c2d813,
  0x40921eccc2a0c3f040b5c0d5513f41e840d212f682e51c2240e7fb16283e27ed40faeb53fda6333f410a60185117f9aa4116fe900000000041221128000000004129d0be12088bf84130e04525408f574134478502f5652b413677497699e90f4136fd2ced4a87564135bff6abae8d05413306f414659691412ec24a21bd6c4c4126ef144984b263411f770de4d098e74113c93eaddbe5324106b23bfbd5be5740f7962c30be9af240e602743cf5edb340d238695a956c0e40ba5259961627e740a0332aeeecd2f9408064a37ee39ad24059b83a7a4bfb8d402c0000000000003ff0000000000000402a61be6cfec996405431c21a5e4c544072bd5524c2db5f4086f3822c4fa1b14092a5492111a63440921eccc2a0c3f0,
  0x40a21eccc2a0c3f040c4f9f24533dafb40e0c877306707d640f56953c880a3a6410712da4720be364115aa5d1e0a8d144122112800000000412b19bc0000000041327087c3bcf6434136e73944d79df6413a12cf9616efca413b47b4a24d2d49413a45ea33c2e3d041374dacdc842961413306f414659691412c8fd71f5476d94123a85a882898e74118b8f8a17f5391410c44106615909140fd2e4d1f37627040eaf4c4c9fe67f040d602743cf5edb340bf3c225224b93e40a2cd1b6b3465a54082839ec7ea15af405c1a3cd9862dfb402d64d51e0db1c53ff0000000000000402c000000000000405715869f5ef06340778f627418ae62409065aa802a7ff340a010db1f048ac840a5c0d5513f41e840a21eccc2a0c3f0,
  0x40b0a5027e49789840d28debe2351f4840ec8c6fb600da3341017b7c27c0a82a41120df843b37591412037346c4c582a4129d0be12088bf841327087c3bcf6434137d6a300000000413c0cf402986810413e28c6ec3c98ad413db2e54a0c4c85413ad09bac7c13f1413632c76d212faa4130d48b110a1de341275217b624d46d411d6cfb849b08594110d251c86a865a41014f2a8a3d13f840efc4a2482bd47f40d9ad879c743ffc40c1f8833154454b40a540ae1b54dde0408477d8ea5ba961405e3bc476d73e46402e98180e9b47f13ff0000000000000402d64d51e0db1c54059b83a7a4bfb8d407c45a9581d9e0f4095a42e3569015d40a81948ae86d02d40b3ad330032fff040b6d60ea041619340b0a5027e497898,
  0x40bc4a52ed7f3d6740de52cd4b0e075840f665358ccfa614410a49259d748cfb4119f73f60ce1c13412642d3e18521df4130e04525408f574136e73944d79df6413c0cf402986810413f2c5f00000000413f8b91584abcb5413d1f40a812e0ed41388a8c6fb8645c4132dd6efa7d5124412a67cc7c1c84fc4120c50c7e55a0fe41133c76f71bd9004103cb3b7d43795840f21aca51fc178840dd130e870500ee40c424b37371891d40a77ee5ee7e69d040863ab1b456dbc140600e7973ed99c0402f9f6e4990f2273ff0000000000000402e98180e9b47f1405c1a3cd9862dfb408064a37ee39ad2409b07aee824fe0640b08d6c5ba9502f40beb85323c2892940c57fe17cf04d8440c5d537a6adf0cf40bc4a52ed7f3d67,
  0x40c65d8f4eeb44a840e7038d6bdaf9c5410049e65c01eb98411249798e1a96b941213e4afd106049412c288299cbb5da4134478502f5652b413a12cf9616efca413e28c6ec3c98ad413f8b91584abcb5413ded28000000004139c9297a041ad841342d765eeb89ed412ca2908d42b86241225ecca1824ac3411536532e8e358a4105e61be129e44e40f407adbb7238c840e007d17afee00340c610e205a1680a40a97ac4a3c6f19b4087c6a6249960124060deeee64d0ad640303f81f636b80b3ff0000000000000402f9f6e4990f227405e3bc476d73e464082839ec7ea15af40a0332aeeecd2f940b55e7d6b9b9b3540c5cf4b9f320e8740d158ecbb6b2eda40d53efff271cf2040d32da0848bd02440c65d8f4eeb44a8,
  0x40d0849b2cdd62b240f049e65c01eb9841060e1232072f5d4117a29f3cab06494125399e753ad4a4413076b46a858778413677497699e90f413b47b4a24d2d49413db2e54a0c4c85413d1f40a812e0ed4139c9297a041ad84134a18e00000000412dcde4c2f9a8ef412362d0d3d67f0641169cbeee5d9e5241077fd7542e81f040f59083b1a1098140e142371b95ef9e40c7adbdc810329840ab294b4f995abf4089172d9359231240618f49c777acb040309cfdcd8ed0083ff000000000000040303f81f636b80b40600e7973ed99c0408477d8ea5ba96140a2cd1b6b3465a540ba5259961627e740ccef141025d60f40d94fd7ffe064f040e19dc7c774575e40e32da0848bd02440df29331f51962f40d0849b2cdd62b2,
  0x40d6de3d79294df340f591f7690b8c76410be0eca3a557cb411c7417ca98d8eb4128463e3dc6b1e84131d6847712ec124136fd2ced4a8756413a45ea33c2e3d0413ad09bac7c13f141388a8c6fb8645c41342d765eeb89ed412dcde4c2f9a8ef4123bbec00000000411756872eb628b241087ff2ac2b653e40f6a1c6ff19dc5540e22c2493563d0d40c8eeaff727f49f40ac817aa0d796fc408a28a04297f24040621f8f0063bbce4030e95a539f492b3ff000000000000040309cfdcd8ed0084060deeee64d0ad640863ab1b456dbc140a540ae1b54dde040bf3c225224b93e40d238695a956c0e40e12ad806ced7a540ea4833fd979c0c40f04256bce9a08640efdc7c28bcf69f40e787f6a123df0d40d6de3d79294df3,
  0x40ddbfb4db0ecff440fac8ef656aab5d41107c26dfab56cc411ff7a1a68c0bc14129d634c8e0ea3a4131ee67bd13e44a4135bff6abae8d0541374dacdc842961413632c76d212faa4132dd6efa7d5124412ca2908d42b862412362d0d3d67f06411756872eb628b24108d7100000000040f72de38f130c8f40e2bc4e27ee298b40c9ca165fa95ce440ad7c53067658fb408af824c86e2ef140628fc1f0145f0d4031257c5187fd083ff00000000000004030e95a539f492b40618f49c777acb04087c6a62499601240a77ee5ee7e69d040c1f8833154454b40d602743cf5edb340e602743cf5edb340f22538db6a4afe40f8b158bad9f35140fb7f2756aa817340f87df09cc40bee40f094c4f5a38ea740ddbfb4db0ecff4,
  0x40e237a612742bb340ff3e177114f9174112445c5f2b746e4120c782ff178aa241299db8c4f7d86a4130bb7c64d5ed06413306f414659691413306f4146596914130d48b110a1de3412a67cc7c1c84fc41225ecca1824ac341169cbeee5d9e5241087ff2ac2b653e40f72de38f130c8f40e2ed000000000040ca396dce5d8e8c40ae14d4c48a788c408b83a2ab361a0b4062dfe4dfb641994031520cd1372fea3ff00000000000004031257c5187fd0840621f8f0063bbce4089172d9359231240a97ac4a3c6f19b40c424b37371891d40d9ad879c743ffc40eaf4c4c9fe67f040f7962c30be9af2410148f14f9890b941052b6cfffc022841056e32892b8a7041017f761fe0de0340f5deaa025b7b2940e237a612742bb3,
  0x40e5091e20b7cb88410122d0b7cb605a4112fbd1151b5b9c41207806753ebbda4127a9c38d332ca2412cfb3719b36550412ec24a21bd6c4c412c8fd71f5476d941275217b624d46d4120c50c7e55a0fe411536532e8e358a41077fd7542e81f040f6a1c6ff19dc5540e2bc4e27ee298b40ca396dce5d8e8c40ae480000000000408bc9b91b7fdc4440630ff94904b15940316f8334644df83ff00000000000004031520cd1372fea40628fc1f0145f0d408a28a04297f24040ab294b4f995abf40c610e205a1680a40dd130e870500ee40efc4a2482bd47f40fd2e4d1f3762704106b23bfbd5be57410df039b66be9954110aab0f7442497410eeea4d4d0b5a1410750322be2b85c40fb0e8cec4e982240e5091e20b7cb88,
  0x40e6ec4bc34e709f4101b0d1ede02977411282673e0552af411e39c7b947254f41245b8c7da673284127454be600c2dd4126ef144984b2634123a85a882898e7411d6cfb849b085941133c76f71bd9004105e61be129e44e40f59083b1a1098140e22c2493563d0d40c9ca165fa95ce440ae14d4c48a788c408bc9b91b7fdc44406320000000000040317e2bca46bab93ff000000000000040316f8334644df84062dfe4dfb64199408af824c86e2ef140ac817aa0d796fc40c7adbdc810329840e007d17afee00340f21aca51fc178841014f2a8a3d13f8410c4410661590914113c93eaddbe5324117ba1b30c98f784118375bd35fef0d4114be3dc56d0f91410d08ca1b03548740ff733c518e829c40e6ec4bc34e709f,
  0x40e7966d3d2ae1f541013138d27ad4774110ee0616e9feab4119eb177d66fbae41204af11a3d123e41214b3a46b94628411f770de4d098e74118b8f8a17f53914110d251c86a865a4103cb3b7d43795840f407adbb7238c840e142371b95ef9e40c8eeaff727f49f40ad7c53067658fb408b83a2ab361a0b40630ff94904b15940317e2bca46bab93ff000000000000040317e2bca46bab940630ff94904b159408b83a2ab361a0b40ad7c53067658fb40c8eeaff727f49f40e142371b95ef9e40f407adbb7238c84103cb3b7d4379584110d251c86a865a4118b8f8a17f5391411f770de4d098e741214b3a46b9462841204af11a3d123e4119eb177d66fbae4110ee0616e9feab41013138d27ad47740e7966d3d2ae1f5,
  0x40e6ec4bc34e709f40ff733c518e829c410d08ca1b0354874114be3dc56d0f914118375bd35fef0d4117ba1b30c98f784113c93eaddbe532410c44106615909141014f2a8a3d13f840f21aca51fc178840e007d17afee00340c7adbdc810329840ac817aa0d796fc408af824c86e2ef14062dfe4dfb6419940316f8334644df83ff000000000000040317e2bca46bab94063200000000000408bc9b91b7fdc4440ae14d4c48a788c40c9ca165fa95ce440e22c2493563d0d40f59083b1a109814105e61be129e44e41133c76f71bd900411d6cfb849b08594123a85a882898e74126ef144984b2634127454be600c2dd41245b8c7da67328411e39c7b947254f411282673e0552af4101b0d1ede0297740e6ec4bc34e709f,
  0x40e5091e20b7cb8840fb0e8cec4e9822410750322be2b85c410eeea4d4d0b5a14110aab0f7442497410df039b66be9954106b23bfbd5be5740fd2e4d1f37627040efc4a2482bd47f40dd130e870500ee40c610e205a1680a40ab294b4f995abf408a28a04297f24040628fc1f0145f0d4031520cd1372fea3ff000000000000040316f8334644df840630ff94904b159408bc9b91b7fdc4440ae48000000000040ca396dce5d8e8c40e2bc4e27ee298b40f6a1c6ff19dc5541077fd7542e81f0411536532e8e358a4120c50c7e55a0fe41275217b624d46d412c8fd71f5476d9412ec24a21bd6c4c412cfb3719b365504127a9c38d332ca241207806753ebbda4112fbd1151b5b9c410122d0b7cb605a40e5091e20b7cb88,
  0x40e237a612742bb340f5deaa025b7b2941017f761fe0de0341056e32892b8a7041052b6cfffc0228410148f14f9890b940f7962c30be9af240eaf4c4c9fe67f040d9ad879c743ffc40c424b37371891d40a97ac4a3c6f19b4089172d9359231240621f8f0063bbce4031257c5187fd083ff00000000000004031520cd1372fea4062dfe4dfb64199408b83a2ab361a0b40ae14d4c48a788c40ca396dce5d8e8c40e2ed000000000040f72de38f130c8f41087ff2ac2b653e41169cbeee5d9e5241225ecca1824ac3412a67cc7c1c84fc4130d48b110a1de3413306f414659691413306f4146596914130bb7c64d5ed0641299db8c4f7d86a4120c782ff178aa24112445c5f2b746e40ff3e177114f91740e237a612742bb3,
  0x40ddbfb4db0ecff440f094c4f5a38ea740f87df09cc40bee40fb7f2756aa817340f8b158bad9f35140f22538db6a4afe40e602743cf5edb340d602743cf5edb340c1f8833154454b40a77ee5ee7e69d04087c6a62499601240618f49c777acb04030e95a539f492b3ff00000000000004031257c5187fd0840628fc1f0145f0d408af824c86e2ef140ad7c53067658fb40c9ca165fa95ce440e2bc4e27ee298b40f72de38f130c8f4108d71000000000411756872eb628b2412362d0d3d67f06412ca2908d42b8624132dd6efa7d5124413632c76d212faa41374dacdc8429614135bff6abae8d054131ee67bd13e44a4129d634c8e0ea3a411ff7a1a68c0bc141107c26dfab56cc40fac8ef656aab5d40ddbfb4db0ecff4,
  0x40d6de3d79294df340e787f6a123df0d40efdc7c28bcf69f40f04256bce9a08640ea4833fd979c0c40e12ad806ced7a540d238695a956c0e40bf3c225224b93e40a540ae1b54dde040863ab1b456dbc14060deeee64d0ad640309cfdcd8ed0083ff00000000000004030e95a539f492b40621f8f0063bbce408a28a04297f24040ac817aa0d796fc40c8eeaff727f49f40e22c2493563d0d40f6a1c6ff19dc5541087ff2ac2b653e411756872eb628b24123bbec00000000412dcde4c2f9a8ef41342d765eeb89ed41388a8c6fb8645c413ad09bac7c13f1413a45ea33c2e3d04136fd2ced4a87564131d6847712ec124128463e3dc6b1e8411c7417ca98d8eb410be0eca3a557cb40f591f7690b8c7640d6de3d79294df3,
  0x40d0849b2cdd62b240df29331f51962f40e32da0848bd02440e19dc7c774575e40d94fd7ffe064f040ccef141025d60f40ba5259961627e740a2cd1b6b3465a5408477d8ea5ba96140600e7973ed99c040303f81f636b80b3ff000000000000040309cfdcd8ed00840618f49c777acb04089172d9359231240ab294b4f995abf40c7adbdc810329840e142371b95ef9e40f59083b1a1098141077fd7542e81f041169cbeee5d9e52412362d0d3d67f06412dcde4c2f9a8ef4134a18e000000004139c9297a041ad8413d1f40a812e0ed413db2e54a0c4c85413b47b4a24d2d49413677497699e90f413076b46a8587784125399e753ad4a44117a29f3cab064941060e1232072f5d40f049e65c01eb9840d0849b2cdd62b2,
  0x40c65d8f4eeb44a840d32da0848bd02440d53efff271cf2040d158ecbb6b2eda40c5cf4b9f320e8740b55e7d6b9b9b3540a0332aeeecd2f94082839ec7ea15af405e3bc476d73e46402f9f6e4990f2273ff000000000000040303f81f636b80b4060deeee64d0ad64087c6a62499601240a97ac4a3c6f19b40c610e205a1680a40e007d17afee00340f407adbb7238c84105e61be129e44e411536532e8e358a41225ecca1824ac3412ca2908d42b86241342d765eeb89ed4139c9297a041ad8413ded2800000000413f8b91584abcb5413e28c6ec3c98ad413a12cf9616efca4134478502f5652b412c288299cbb5da41213e4afd106049411249798e1a96b9410049e65c01eb9840e7038d6bdaf9c540c65d8f4eeb44a8,
  0x40bc4a52ed7f3d6740c5d537a6adf0cf40c57fe17cf04d8440beb85323c2892940b08d6c5ba9502f409b07aee824fe06408064a37ee39ad2405c1a3cd9862dfb402e98180e9b47f13ff0000000000000402f9f6e4990f22740600e7973ed99c040863ab1b456dbc140a77ee5ee7e69d040c424b37371891d40dd130e870500ee40f21aca51fc17884103cb3b7d43795841133c76f71bd9004120c50c7e55a0fe412a67cc7c1c84fc4132dd6efa7d512441388a8c6fb8645c413d1f40a812e0ed413f8b91584abcb5413f2c5f00000000413c0cf4029868104136e73944d79df64130e04525408f57412642d3e18521df4119f73f60ce1c13410a49259d748cfb40f665358ccfa61440de52cd4b0e075840bc4a52ed7f3d67,
  0x40b0a5027e49789840b6d60ea041619340b3ad330032fff040a81948ae86d02d4095a42e3569015d407c45a9581d9e0f4059b83a7a4bfb8d402d64d51e0db1c53ff0000000000000402e98180e9b47f1405e3bc476d73e46408477d8ea5ba96140a540ae1b54dde040c1f8833154454b40d9ad879c743ffc40efc4a2482bd47f41014f2a8a3d13f84110d251c86a865a411d6cfb849b085941275217b624d46d4130d48b110a1de3413632c76d212faa413ad09bac7c13f1413db2e54a0c4c85413e28c6ec3c98ad413c0cf4029868104137d6a30000000041327087c3bcf6434129d0be12088bf8412037346c4c582a41120df843b3759141017b7c27c0a82a40ec8c6fb600da3340d28debe2351f4840b0a5027e497898,
  0x40a21eccc2a0c3f040a5c0d5513f41e840a010db1f048ac8409065aa802a7ff340778f627418ae62405715869f5ef063402c0000000000003ff0000000000000402d64d51e0db1c5405c1a3cd9862dfb4082839ec7ea15af40a2cd1b6b3465a540bf3c225224b93e40d602743cf5edb340eaf4c4c9fe67f040fd2e4d1f376270410c4410661590914118b8f8a17f53914123a85a882898e7412c8fd71f5476d9413306f41465969141374dacdc842961413a45ea33c2e3d0413b47b4a24d2d49413a12cf9616efca4136e73944d79df641327087c3bcf643412b19bc0000000041221128000000004115aa5d1e0a8d14410712da4720be3640f56953c880a3a640e0c877306707d640c4f9f24533dafb40a21eccc2a0c3f0,
  0x40921eccc2a0c3f04092a5492111a6344086f3822c4fa1b14072bd5524c2db5f405431c21a5e4c54402a61be6cfec9963ff0000000000000402c0000000000004059b83a7a4bfb8d408064a37ee39ad240a0332aeeecd2f940ba5259961627e740d238695a956c0e40e602743cf5edb340f7962c30be9af24106b23bfbd5be574113c93eaddbe532411f770de4d098e74126ef144984b263412ec24a21bd6c4c413306f4146596914135bff6abae8d054136fd2ced4a8756413677497699e90f4134478502f5652b4130e04525408f574129d0be12088bf841221128000000004116fe9000000000410a60185117f9aa40faeb53fda6333f40e7fb16283e27ed40d212f682e51c2240b5c0d5513f41e840921eccc2a0c3f0,
  0x40807bff83c2d813407c453caec66791406bd6bd06c2f23440510c37d838d33540287eb1990b697a3ff0000000000000402a61be6cfec996405715869f5ef063407c45a9581d9e0f409b07aee824fe0640b55e7d6b9b9b3540ccef141025d60f40e12ad806ced7a540f22538db6a4afe410148f14f9890b9410df039b66be9954117ba1b30c98f7841214b3a46b946284127454be600c2dd412cfb3719b365504130bb7c64d5ed064131ee67bd13e44a4131d6847712ec12413076b46a858778412c288299cbb5da412642d3e18521df412037346c4c582a4115aa5d1e0a8d14410a60185117f9aa40fcfe300000000040ec683a96936c1640d8553d4f391bde40c1a906504a11a540a47eff31e9717c40807bff83c2d813,
  0x406aeb3a614ef06b40627757ebaf9368404b46bfc05aeb89402645640568c1c33ff000000000000040287eb1990b697a405431c21a5e4c5440778f627418ae624095a42e3569015d40b08d6c5ba9502f40c5cf4b9f320e8740d94fd7ffe064f040ea4833fd979c0c40f8b158bad9f35141052b6cfffc02284110aab0f74424974118375bd35fef0d41204af11a3d123e41245b8c7da673284127a9c38d332ca241299db8c4f7d86a4129d634c8e0ea3a4128463e3dc6b1e84125399e753ad4a441213e4afd1060494119f73f60ce1c1341120df843b37591410712da4720be3640faeb53fda6333f40ec683a96936c1640dac3400000000040c61347e45c960f40aee62537e6fed140914fe26cf49a31406aeb3a614ef06b,
  0x405356cdebc9b5e24043e655eefe13674023988e1409212e3ff0000000000000402645640568c1c340510c37d838d3354072bd5524c2db5f409065aa802a7ff340a81948ae86d02d40beb85323c2892940d158ecbb6b2eda40e19dc7c774575e40f04256bce9a08640fb7f2756aa817341056e32892b8a70410eeea4d4d0b5a14114be3dc56d0f914119eb177d66fbae411e39c7b947254f41207806753ebbda4120c782ff178aa2411ff7a1a68c0bc1411c7417ca98d8eb4117a29f3cab0649411249798e1a96b9410a49259d748cfb41017b7c27c0a82a40f56953c880a3a640e7fb16283e27ed40d8553d4f391bde40c61347e45c960f40b18f00000000004097babc0c430e2e4079b42eff5d83ba405356cdebc9b5e2,
  0x4037af78e6da9b3040203f81f636b80b3ff00000000000004023988e1409212e404b46bfc05aeb89406bd6bd06c2f2344086f3822c4fa1b140a010db1f048ac840b3ad330032fff040c57fe17cf04d8440d53efff271cf2040e32da0848bd02440efdc7c28bcf69f40f87df09cc40bee41017f761fe0de03410750322be2b85c410d08ca1b0354874110ee0616e9feab411282673e0552af4112fbd1151b5b9c4112445c5f2b746e41107c26dfab56cc410be0eca3a557cb41060e1232072f5d410049e65c01eb9840f665358ccfa61440ec8c6fb600da3340e0c877306707d640d212f682e51c2240c1a906504a11a540aee62537e6fed14097babc0c430e2e407f00000000000040603f81f636b80b4037af78e6da9b30,
  0x401752e50db3a3a13ff000000000000040203f81f636b80b4043e655eefe136740627757ebaf9368407c453caec667914092a5492111a63440a5c0d5513f41e840b6d60ea041619340c5d537a6adf0cf40d32da0848bd02440df29331f51962f40e787f6a123df0d40f094c4f5a38ea740f5deaa025b7b2940fb0e8cec4e982240ff733c518e829c41013138d27ad4774101b0d1ede02977410122d0b7cb605a40ff3e177114f91740fac8ef656aab5d40f591f7690b8c7640f049e65c01eb9840e7038d6bdaf9c540de52cd4b0e075840d28debe2351f4840c4f9f24533dafb40b5c0d5513f41e840a47eff31e9717c40914fe26cf49a314079b42eff5d83ba40603f81f636b80b4040800000000000401752e50db3a3a1,
  0x3ff0000000000000401752e50db3a3a14037af78e6da9b30405356cdebc9b5e2406aeb3a614ef06b40807bff83c2d81340921eccc2a0c3f040a21eccc2a0c3f040b0a5027e49789840bc4a52ed7f3d6740c65d8f4eeb44a840d0849b2cdd62b240d6de3d79294df340ddbfb4db0ecff440e237a612742bb340e5091e20b7cb8840e6ec4bc34e709f40e7966d3d2ae1f540e6ec4bc34e709f40e5091e20b7cb8840e237a612742bb340ddbfb4db0ecff440d6de3d79294df340d0849b2cdd62b240c65d8f4eeb44a840bc4a52ed7f3d6740b0a5027e49789840a21eccc2a0c3f040921eccc2a0c3f040807bff83c2d813406aeb3a614ef06b405356cdebc9b5e24037af78e6da9b30401752e50db3a3a13ff0000000000000]

/-- The coefficients for `2 ell = 35`: one number for each of the 36 values of `mp`, consisting of the doubles for the 36 values of `m`. -/
def wigner35 : List Nat := [
  0x3ff00000000000004017aa10d193c22c40386482dd565021405439acd6e3ed0b406c9a56a2f99a7a4081ce1e70e6fcf84093e821c1ff820940a44255fd1d77f540b2f35f7d07482040c069698a0a09e940ca7692dee3c03f40d3f286ee4608a540dc35b847ac34f840e2c2e486e0884a40e784be9e93a6c040ebd3d751abee7240ef1cb24bcb52b840f0721785682fba40f0721785682fba40ef1cb24bcb52b840ebd3d751abee7240e784be9e93a6c040e2c2e486e0884a40dc35b847ac34f840d3f286ee4608a540ca7692dee3c03f40c069698a0a09e940b2f35f7d07482040a44255fd1d77f54093e821c1ff82094081ce1e70e6fcf8406c9a56a2f99a7a405439acd6e3ed0b40386482dd5650214017aa10d193c22c3ff0000000000000,
  0x4017aa10d193c22c4041000000000000406101ffe1e56c6f407b597ea47fdda24092bc177c6b683340a692786b34cc3240b8652ce82f89e140c7f88e2dbf70f840d59f36ca08013a40e2081808cf97fa40ebf4f322a615d240f43af6b501795a40fb6afcc25309de4101711a8c6432a54104dee17d40f2d5410784be9e93a6c04108fad3c6da41b2410904b7fdcbef964107a0e6a895f07f4105091e20b7cb884101a38ef6eebd1040fbd3d751abee7240f49cf0d4766a6640ec9c2923d1156d40e28b6225ec049340d65d8f4eeb44a840c8f783bd6e34e540b9a040ef71c89140a7f88e2dbf70f84094306bc8fb3450407e18a08ef11043406356cdebc9b5e24044831efb5fe63a40207e0f66afed063ff00000000000004017aa10d193c22c,
  0x40386482dd565021406101ffe1e56c6f40808000000000004099b42eff5d83ba40b10a162f2118b240c3d8620316034d40d4b55f0f9d90a340e39f1ff7be68af40f10b14d83a21ec40fb554b8b76f6744104577222a3a5c5410c367a779fc1ae411249798e1a96b9411635786389b75341194f31d7632213411b1829fd1ad039411b436162a800b54119c9d53bb83eb34116ec4bc34e709f411321cf919555d4410df2495b1da2c64105ef4d5444d94440fdff13a45cea4e40f3150467c2b38940e67d0c4917754840d868ef5cc4608640c838ae1209522040b5c0d5513f41e840a170fff8a9409c40887ba191d4c439406d329616320abe404c247a85fe81fa4023e655eefe13673ff000000000000040207e0f66afed0640386482dd565021,
  0x405439acd6e3ed0b407b597ea47fdda24099b42eff5d83ba40b360000000000040c8d4e3d49b40af40dbec5e1e098fa440ec18e7fc422f6940f9a2f5a74a7b6641056953c880a3a641107b8717bf223a411782bb63afcc11411f30c012faed1e41234c4febc649714126521cd4838ecd41282a3e6fe2fb63412881ff15422a7341274a5c2c8a9ad94124bc12cab8c95841214764fe44a7c9411aeb7aa73290a241139030abeab618410a744f218f640b410094c4f5a38ea740f32da0848bd02440e4577222a3a5c540d3a05531d34f1540c10a57ad6c97f740aa3c440043ffeb4091877e65423e7e4073af5d7338516b40519b58598f7c9e4026a09e667f3bcc3ff00000000000004023e655eefe13674044831efb5fe63a405439acd6e3ed0b,
  0x406c9a56a2f99a7a4092bc177c6b683340b10a162f2118b240c8d4e3d49b40af40deba400000000040f0a8de65283cb44100247fc563b421410c531d4a63086f4116b5d356183e294120c101a618a1284126dbd7f1a13c67412cf277e1a96e2a41310ea90a6139ac4132be1449067162413339207b795003413269a8d50940c341307806753ebbda412b7d93db2b4d2b412561abe35a915b411eeea4d4d0b5a14114bffce039fb4f4109b8867be3e3b840fd4fc3555524cf40ee832b33f578a840dcc470c6d1b83640c8494b6cc9419740b212f682e51c22409730656e3a4dc44078ca46457aff114054e10dc51235a74028e6593d77b0b73ff00000000000004026a09e667f3bcc404c247a85fe81fa406356cdebc9b5e2406c9a56a2f99a7a,
  0x4081ce1e70e6fcf840a692786b34cc3240c3d8620316034d40dbec5e1e098fa440f0a8de65283cb441016550000000004110352102bb659c411b4d151206bd8c4124fa3e5c7f8c76412d9b07404c651f413347545bc4b2cf4137403b3ab27e06413a080888d9e521413b1909b8c94ca8413a3faa4a5212c54137a9c38d332ca24133d796e4dc0983412ee9ce3f9cf6c541265386bc2a4072411dd07d480741494112555c43315b724104a8d1696ed49040f530736439511d40e39b43f03d034740d02caec4a8b0b640b7689f1834a7bd409d08ee9fdad6f6407dcd2a43770dc74057e4f0bed1d2f7402ad5336963eefb3ff00000000000004028e6593d77b0b740519b58598f7c9e406d329616320abe407e18a08ef110434081ce1e70e6fcf8,
  0x4093e821c1ff820940b8652ce82f89e140d4b55f0f9d90a340ec18e7fc422f694100247fc563b4214110352102bb659c411cfe3000000000412766c1ede0310a413133047f9fe25441372b8723aed6e1413cbd27a5c5f5cf414076b46a8587784141765e953a918641412afa78886495413f4dab194f277b413a74c9312562054134b48b1b8cc70e412df42ee6fbbac64123f81f44a7d1d9411871d059972499410b5472d75bfbd840fbb7b1a773437440e94508f5593b9f40d47598688aeaf040bcef141025d60f40a172a2e5c1a53840815024f787344a405aa7bb926a0be1402c7ee08a0e6d4c3ff0000000000000402ad5336963eefb4054e10dc51235a74073af5d7338516b40887ba191d4c4394094306bc8fb34504093e821c1ff8209,
  0x40a44255fd1d77f540c7f88e2dbf70f840e39f1ff7be68af40f9a2f5a74a7b66410c531d4a63086f411b4d151206bd8c412766c1ede0310a4132112800000000413959a8012cb51b4140431dcecf772c414329865ffa9bad4144cca835e9b7ba4144d5e4ac94c23041434778e13e32ed41407a5e921330df4139fefd455637434132e453e95a476e41293a69533307ca411ed59d2ccc97be4111281fd2120d9e4101437d652114d940ef2052436e46de40d8d4857e08c6be40c13b49184ac8c740a44ebff626c74c408397f14d255b89405d29d0336ad4b0402deeea11683f493ff0000000000000402c7ee08a0e6d4c4057e4f0bed1d2f74078ca46457aff114091877e65423e7e40a170fff8a9409c40a7f88e2dbf70f840a44255fd1d77f5,
  0x40b2f35f7d07482040d59f36ca08013a40f10b14d83a21ec41056953c880a3a64116b5d356183e294124fa3e5c7f8c76413133047f9fe254413959a8012cb51b4140f015800000004144a509d673551c41470bc14ae381164147a01103c004124146462bf78939634143527a0251c615413ed3d8b7141f74413694846f7b96f1412e4b60b84568ff41228aba791f7ead41149a248694c5a34104a24cf9268ed840f274a223a3a09f40dd1dae9e3993cd40c3e88e3242d17b40a706d407a71e8e4085b5b28681d5d1405f6b66fada552d402f2d4a4563563f3ff0000000000000402deeea11683f49405aa7bb926a0be1407dcd2a43770dc7409730656e3a4dc440aa3c440043ffeb40b5c0d5513f41e840b9a040ef71c89140b2f35f7d074820,
  0x40c069698a0a09e940e2081808cf97fa40fb554b8b76f67441107b8717bf223a4120c101a618a128412d9b07404c651f41372b8723aed6e14140431dcecf772c4144a509d673551c4147d6a300000000414921fb1a327f3a41483fbd020bb67a41456eead587dc9241415a6ec5adf9f14139b56893091150413161d824daeffb41256095bc4c6d644117ca0e2e10cabc4107ca0e2e10cabc40f52dc185728daa40e09331f8584ca940c669d8df4c399340a98ae239f3bca94087a2745bf8d1504060b65142d93de840301fe03f61bad03ff0000000000000402f2d4a4563563f405d29d0336ad4b040815024f787344a409d08ee9fdad6f640b212f682e51c2240c10a57ad6c97f740c838ae1209522040c8f783bd6e34e540c069698a0a09e9,
  0x40ca7692dee3c03f40ebf4f322a615d24104577222a3a5c5411782bb63afcc114126dbd7f1a13c67413347545bc4b2cf413cbd27a5c5f5cf414329865ffa9bad41470bc14ae38116414921fb1a327f3a4148f04c0000000041468ed055847f9a41429bfa742b9d0d413bfb351e8fc8e7413321f08552b20a4127b749afedff9b411a83e7fa31c2ed410a8e67d7c0250240f79b06f8aacb9040e2636704b12c0940c8aba4a0d188b440abccec6a03636540895863bed6b464406196cc93bf113c403095479c7e65803ff000000000000040301fe03f61bad0405f6b66fada552d408397f14d255b8940a172a2e5c1a53840b7689f1834a7bd40c8494b6cc9419740d3a05531d34f1540d868ef5cc4608640d65d8f4eeb44a840ca7692dee3c03f,
  0x40d3f286ee4608a540f43af6b501795a410c367a779fc1ae411f30c012faed1e412cf277e1a96e2a4137403b3ab27e06414076b46a8587784144cca835e9b7ba4147a01103c0041241483fbd020bb67a41468ed055847f9a41430b4800000000413d2d3f0b8438b241343f7df241ed4a412961d9dfe35e11411c9a3fa6eabff0410cc7dedd9b350b40f99f593b12079140e3edb72df1941b40ca9ccf21fb0a3640adc0f3bfdd36a0408ad2aa88bb6f4b4062572ce6c200094030f876ccdf6cd93ff0000000000000403095479c7e65804060b65142d93de84085b5b28681d5d140a44ebff626c74c40bcef141025d60f40d02caec4a8b0b640dcc470c6d1b83640e4577222a3a5c540e67d0c4917754840e28b6225ec049340d3f286ee4608a5,
  0x40dc35b847ac34f840fb6afcc25309de411249798e1a96b941234c4febc6497141310ea90a6139ac413a080888d9e5214141765e953a91864144d5e4ac94c2304146462bf789396341456eead587dc9241429bfa742b9d0d413d2d3f0b8438b24134a18e00000000412a3faf2c27d3af411de9ca7a39e35a410e566ae159799040fb227eb7a38ac940e5232fbd8dcfaf40cc2eea52126a3f40af5cf8f82f6bd6408c0d54d38b01b54062f77758c0ae9640314aa7606f8bb03ff00000000000004030f876ccdf6cd9406196cc93bf113c4087a2745bf8d15040a706d407a71e8e40c13b49184ac8c740d47598688aeaf040e39b43f03d034740ee832b33f578a840f32da0848bd02440f3150467c2b38940ec9c2923d1156d40dc35b847ac34f8,
  0x40e2c2e486e0884a4101711a8c6432a5411635786389b7534126521cd4838ecd4132be1449067162413b1909b8c94ca841412afa7888649541434778e13e32ed4143527a0251c61541415a6ec5adf9f1413bfb351e8fc8e741343f7df241ed4a412a3faf2c27d3af411e5c3000000000410f2381b7ca62c240fc124bdc8b743640e5f82a9ef9402b40cd567ce4d9a48440b04c7e46400610408d053d51dd31a0406377af7548243540318cc821d6d3e23ff000000000000040314aa7606f8bb04062572ce6c2000940895863bed6b46440a98ae239f3bca940c3e88e3242d17b40d8d4857e08c6be40e94508f5593b9f40f530736439511d40fd4fc3555524cf410094c4f5a38ea740fdff13a45cea4e40f49cf0d4766a6640e2c2e486e0884a,
  0x40e784be9e93a6c04104dee17d40f2d541194f31d763221341282a3e6fe2fb63413339207b795003413a3faa4a5212c5413f4dab194f277b41407a5e921330df413ed3d8b7141f744139b56893091150413321f08552b20a412961d9dfe35e11411de9ca7a39e35a410f2381b7ca62c240fc63800000000040e664ae6a52127e40ce0b32f5add61040b0b77f64f242a4408db7feec595a074063d7d7af35c95b4031bf8c9d2ed1a13ff000000000000040318cc821d6d3e24062f77758c0ae96408ad2aa88bb6f4b40abccec6a03636540c669d8df4c399340dd1dae9e3993cd40ef2052436e46de40fbb7b1a77343744104a8d1696ed4904109b8867be3e3b8410a744f218f640b4105ef4d5444d94440fbd3d751abee7240e784be9e93a6c0,
  0x40ebd3d751abee72410784be9e93a6c0411b1829fd1ad039412881ff15422a73413269a8d50940c34137a9c38d332ca2413a74c9312562054139fefd45563743413694846f7b96f1413161d824daeffb4127b749afedff9b411c9a3fa6eabff0410e566ae159799040fc124bdc8b743640e664ae6a52127e40ce48000000000040b0ed7feefc8b43408e23ea802b4b1a406417f1aac787664031e3779b97f4a73ff00000000000004031bf8c9d2ed1a1406377af75482435408c0d54d38b01b540adc0f3bfdd36a040c8aba4a0d188b440e09331f8584ca940f274a223a3a09f4101437d652114d9410b5472d75bfbd84112555c43315b724114bffce039fb4f41139030abeab618410df2495b1da2c64101a38ef6eebd1040ebd3d751abee72,
  0x40ef1cb24bcb52b84108fad3c6da41b2411b436162a800b541274a5c2c8a9ad941307806753ebbda4133d796e4dc09834134b48b1b8cc70e4132e453e95a476e412e4b60b84568ff41256095bc4c6d64411a83e7fa31c2ed410cc7dedd9b350b40fb227eb7a38ac940e5f82a9ef9402b40ce0b32f5add61040b0ed7feefc8b43408e480000000000406437fe6ad4cf4d4031f8e226127f603ff00000000000004031e3779b97f4a74063d7d7af35c95b408d053d51dd31a040af5cf8f82f6bd640ca9ccf21fb0a3640e2636704b12c0940f52dc185728daa4104a24cf9268ed84111281fd2120d9e411871d059972499411dd07d48074149411eeea4d4d0b5a1411aeb7aa73290a2411321cf919555d44105091e20b7cb8840ef1cb24bcb52b8,
  0x40f0721785682fba410904b7fdcbef964119c9d53bb83eb34124bc12cab8c958412b7d93db2b4d2b412ee9ce3f9cf6c5412df42ee6fbbac641293a69533307ca41228aba791f7ead4117ca0e2e10cabc410a8e67d7c0250240f99f593b12079140e5232fbd8dcfaf40cd567ce4d9a48440b0b77f64f242a4408e23ea802b4b1a406437fe6ad4cf4d40320000000000003ff00000000000004031f8e226127f60406417f1aac78766408db7feec595a0740b04c7e4640061040cc2eea52126a3f40e3edb72df1941b40f79b06f8aacb904107ca0e2e10cabc41149a248694c5a3411ed59d2ccc97be4123f81f44a7d1d941265386bc2a4072412561abe35a915b41214764fe44a7c94116ec4bc34e709f4107a0e6a895f07f40f0721785682fba,
  0x40f0721785682fba4107a0e6a895f07f4116ec4bc34e709f41214764fe44a7c9412561abe35a915b41265386bc2a40724123f81f44a7d1d9411ed59d2ccc97be41149a248694c5a34107ca0e2e10cabc40f79b06f8aacb9040e3edb72df1941b40cc2eea52126a3f40b04c7e46400610408db7feec595a07406417f1aac787664031f8e226127f603ff00000000000004032000000000000406437fe6ad4cf4d408e23ea802b4b1a40b0b77f64f242a440cd567ce4d9a48440e5232fbd8dcfaf40f99f593b120791410a8e67d7c025024117ca0e2e10cabc41228aba791f7ead41293a69533307ca412df42ee6fbbac6412ee9ce3f9cf6c5412b7d93db2b4d2b4124bc12cab8c9584119c9d53bb83eb3410904b7fdcbef9640f0721785682fba,
  0x40ef1cb24bcb52b84105091e20b7cb88411321cf919555d4411aeb7aa73290a2411eeea4d4d0b5a1411dd07d48074149411871d0599724994111281fd2120d9e4104a24cf9268ed840f52dc185728daa40e2636704b12c0940ca9ccf21fb0a3640af5cf8f82f6bd6408d053d51dd31a04063d7d7af35c95b4031e3779b97f4a73ff00000000000004031f8e226127f60406437fe6ad4cf4d408e48000000000040b0ed7feefc8b4340ce0b32f5add61040e5f82a9ef9402b40fb227eb7a38ac9410cc7dedd9b350b411a83e7fa31c2ed41256095bc4c6d64412e4b60b84568ff4132e453e95a476e4134b48b1b8cc70e4133d796e4dc098341307806753ebbda41274a5c2c8a9ad9411b436162a800b54108fad3c6da41b240ef1cb24bcb52b8,
  0x40ebd3d751abee724101a38ef6eebd10410df2495b1da2c641139030abeab6184114bffce039fb4f4112555c43315b72410b5472d75bfbd84101437d652114d940f274a223a3a09f40e09331f8584ca940c8aba4a0d188b440adc0f3bfdd36a0408c0d54d38b01b5406377af754824354031bf8c9d2ed1a13ff00000000000004031e3779b97f4a7406417f1aac78766408e23ea802b4b1a40b0ed7feefc8b4340ce48000000000040e664ae6a52127e40fc124bdc8b7436410e566ae1597990411c9a3fa6eabff04127b749afedff9b413161d824daeffb413694846f7b96f14139fefd45563743413a74c9312562054137a9c38d332ca2413269a8d50940c3412881ff15422a73411b1829fd1ad039410784be9e93a6c040ebd3d751abee72,
  0x40e784be9e93a6c040fbd3d751abee724105ef4d5444d944410a744f218f640b4109b8867be3e3b84104a8d1696ed49040fbb7b1a773437440ef2052436e46de40dd1dae9e3993cd40c669d8df4c399340abccec6a036365408ad2aa88bb6f4b4062f77758c0ae9640318cc821d6d3e23ff00000000000004031bf8c9d2ed1a14063d7d7af35c95b408db7feec595a0740b0b77f64f242a440ce0b32f5add61040e664ae6a52127e40fc638000000000410f2381b7ca62c2411de9ca7a39e35a412961d9dfe35e11413321f08552b20a4139b56893091150413ed3d8b7141f7441407a5e921330df413f4dab194f277b413a3faa4a5212c5413339207b79500341282a3e6fe2fb6341194f31d76322134104dee17d40f2d540e784be9e93a6c0,
  0x40e2c2e486e0884a40f49cf0d4766a6640fdff13a45cea4e410094c4f5a38ea740fd4fc3555524cf40f530736439511d40e94508f5593b9f40d8d4857e08c6be40c3e88e3242d17b40a98ae239f3bca940895863bed6b4644062572ce6c2000940314aa7606f8bb03ff000000000000040318cc821d6d3e2406377af75482435408d053d51dd31a040b04c7e4640061040cd567ce4d9a48440e5f82a9ef9402b40fc124bdc8b7436410f2381b7ca62c2411e5c3000000000412a3faf2c27d3af41343f7df241ed4a413bfb351e8fc8e741415a6ec5adf9f14143527a0251c61541434778e13e32ed41412afa78886495413b1909b8c94ca84132be14490671624126521cd4838ecd411635786389b7534101711a8c6432a540e2c2e486e0884a,
  0x40dc35b847ac34f840ec9c2923d1156d40f3150467c2b38940f32da0848bd02440ee832b33f578a840e39b43f03d034740d47598688aeaf040c13b49184ac8c740a706d407a71e8e4087a2745bf8d150406196cc93bf113c4030f876ccdf6cd93ff000000000000040314aa7606f8bb04062f77758c0ae96408c0d54d38b01b540af5cf8f82f6bd640cc2eea52126a3f40e5232fbd8dcfaf40fb227eb7a38ac9410e566ae1597990411de9ca7a39e35a412a3faf2c27d3af4134a18e00000000413d2d3f0b8438b241429bfa742b9d0d41456eead587dc924146462bf78939634144d5e4ac94c2304141765e953a9186413a080888d9e52141310ea90a6139ac41234c4febc64971411249798e1a96b940fb6afcc25309de40dc35b847ac34f8,
  0x40d3f286ee4608a540e28b6225ec049340e67d0c4917754840e4577222a3a5c540dcc470c6d1b83640d02caec4a8b0b640bcef141025d60f40a44ebff626c74c4085b5b28681d5d14060b65142d93de8403095479c7e65803ff00000000000004030f876ccdf6cd94062572ce6c20009408ad2aa88bb6f4b40adc0f3bfdd36a040ca9ccf21fb0a3640e3edb72df1941b40f99f593b120791410cc7dedd9b350b411c9a3fa6eabff0412961d9dfe35e1141343f7df241ed4a413d2d3f0b8438b241430b480000000041468ed055847f9a41483fbd020bb67a4147a01103c004124144cca835e9b7ba414076b46a8587784137403b3ab27e06412cf277e1a96e2a411f30c012faed1e410c367a779fc1ae40f43af6b501795a40d3f286ee4608a5,
  0x40ca7692dee3c03f40d65d8f4eeb44a840d868ef5cc4608640d3a05531d34f1540c8494b6cc9419740b7689f1834a7bd40a172a2e5c1a538408397f14d255b89405f6b66fada552d40301fe03f61bad03ff0000000000000403095479c7e6580406196cc93bf113c40895863bed6b46440abccec6a03636540c8aba4a0d188b440e2636704b12c0940f79b06f8aacb90410a8e67d7c02502411a83e7fa31c2ed4127b749afedff9b413321f08552b20a413bfb351e8fc8e741429bfa742b9d0d41468ed055847f9a4148f04c00000000414921fb1a327f3a41470bc14ae38116414329865ffa9bad413cbd27a5c5f5cf413347545bc4b2cf4126dbd7f1a13c67411782bb63afcc114104577222a3a5c540ebf4f322a615d240ca7692dee3c03f,
  0x40c069698a0a09e940c8f783bd6e34e540c838ae1209522040c10a57ad6c97f740b212f682e51c22409d08ee9fdad6f640815024f787344a405d29d0336ad4b0402f2d4a4563563f3ff000000000000040301fe03f61bad04060b65142d93de84087a2745bf8d15040a98ae239f3bca940c669d8df4c399340e09331f8584ca940f52dc185728daa4107ca0e2e10cabc4117ca0e2e10cabc41256095bc4c6d64413161d824daeffb4139b5689309115041415a6ec5adf9f141456eead587dc9241483fbd020bb67a414921fb1a327f3a4147d6a3000000004144a509d673551c4140431dcecf772c41372b8723aed6e1412d9b07404c651f4120c101a618a12841107b8717bf223a40fb554b8b76f67440e2081808cf97fa40c069698a0a09e9,
  0x40b2f35f7d07482040b9a040ef71c89140b5c0d5513f41e840aa3c440043ffeb409730656e3a4dc4407dcd2a43770dc7405aa7bb926a0be1402deeea11683f493ff0000000000000402f2d4a4563563f405f6b66fada552d4085b5b28681d5d140a706d407a71e8e40c3e88e3242d17b40dd1dae9e3993cd40f274a223a3a09f4104a24cf9268ed841149a248694c5a341228aba791f7ead412e4b60b84568ff413694846f7b96f1413ed3d8b7141f744143527a0251c6154146462bf78939634147a01103c0041241470bc14ae381164144a509d673551c4140f01580000000413959a8012cb51b413133047f9fe2544124fa3e5c7f8c764116b5d356183e2941056953c880a3a640f10b14d83a21ec40d59f36ca08013a40b2f35f7d074820,
  0x40a44255fd1d77f540a7f88e2dbf70f840a170fff8a9409c4091877e65423e7e4078ca46457aff114057e4f0bed1d2f7402c7ee08a0e6d4c3ff0000000000000402deeea11683f49405d29d0336ad4b0408397f14d255b8940a44ebff626c74c40c13b49184ac8c740d8d4857e08c6be40ef2052436e46de4101437d652114d94111281fd2120d9e411ed59d2ccc97be41293a69533307ca4132e453e95a476e4139fefd4556374341407a5e921330df41434778e13e32ed4144d5e4ac94c2304144cca835e9b7ba414329865ffa9bad4140431dcecf772c413959a8012cb51b4132112800000000412766c1ede0310a411b4d151206bd8c410c531d4a63086f40f9a2f5a74a7b6640e39f1ff7be68af40c7f88e2dbf70f840a44255fd1d77f5,
  0x4093e821c1ff82094094306bc8fb345040887ba191d4c4394073af5d7338516b4054e10dc51235a7402ad5336963eefb3ff0000000000000402c7ee08a0e6d4c405aa7bb926a0be140815024f787344a40a172a2e5c1a53840bcef141025d60f40d47598688aeaf040e94508f5593b9f40fbb7b1a7734374410b5472d75bfbd8411871d0599724994123f81f44a7d1d9412df42ee6fbbac64134b48b1b8cc70e413a74c931256205413f4dab194f277b41412afa788864954141765e953a9186414076b46a858778413cbd27a5c5f5cf41372b8723aed6e1413133047f9fe254412766c1ede0310a411cfe30000000004110352102bb659c4100247fc563b42140ec18e7fc422f6940d4b55f0f9d90a340b8652ce82f89e14093e821c1ff8209,
  0x4081ce1e70e6fcf8407e18a08ef11043406d329616320abe40519b58598f7c9e4028e6593d77b0b73ff0000000000000402ad5336963eefb4057e4f0bed1d2f7407dcd2a43770dc7409d08ee9fdad6f640b7689f1834a7bd40d02caec4a8b0b640e39b43f03d034740f530736439511d4104a8d1696ed4904112555c43315b72411dd07d4807414941265386bc2a4072412ee9ce3f9cf6c54133d796e4dc09834137a9c38d332ca2413a3faa4a5212c5413b1909b8c94ca8413a080888d9e5214137403b3ab27e06413347545bc4b2cf412d9b07404c651f4124fa3e5c7f8c76411b4d151206bd8c4110352102bb659c410165500000000040f0a8de65283cb440dbec5e1e098fa440c3d8620316034d40a692786b34cc324081ce1e70e6fcf8,
  0x406c9a56a2f99a7a406356cdebc9b5e2404c247a85fe81fa4026a09e667f3bcc3ff00000000000004028e6593d77b0b74054e10dc51235a74078ca46457aff11409730656e3a4dc440b212f682e51c2240c8494b6cc9419740dcc470c6d1b83640ee832b33f578a840fd4fc3555524cf4109b8867be3e3b84114bffce039fb4f411eeea4d4d0b5a1412561abe35a915b412b7d93db2b4d2b41307806753ebbda413269a8d50940c3413339207b7950034132be144906716241310ea90a6139ac412cf277e1a96e2a4126dbd7f1a13c674120c101a618a1284116b5d356183e29410c531d4a63086f4100247fc563b42140f0a8de65283cb440deba400000000040c8d4e3d49b40af40b10a162f2118b24092bc177c6b6833406c9a56a2f99a7a,
  0x405439acd6e3ed0b4044831efb5fe63a4023e655eefe13673ff00000000000004026a09e667f3bcc40519b58598f7c9e4073af5d7338516b4091877e65423e7e40aa3c440043ffeb40c10a57ad6c97f740d3a05531d34f1540e4577222a3a5c540f32da0848bd024410094c4f5a38ea7410a744f218f640b41139030abeab618411aeb7aa73290a241214764fe44a7c94124bc12cab8c95841274a5c2c8a9ad9412881ff15422a7341282a3e6fe2fb634126521cd4838ecd41234c4febc64971411f30c012faed1e411782bb63afcc1141107b8717bf223a41056953c880a3a640f9a2f5a74a7b6640ec18e7fc422f6940dbec5e1e098fa440c8d4e3d49b40af40b36000000000004099b42eff5d83ba407b597ea47fdda2405439acd6e3ed0b,
  0x40386482dd56502140207e0f66afed063ff00000000000004023e655eefe1367404c247a85fe81fa406d329616320abe40887ba191d4c43940a170fff8a9409c40b5c0d5513f41e840c838ae1209522040d868ef5cc4608640e67d0c4917754840f3150467c2b38940fdff13a45cea4e4105ef4d5444d944410df2495b1da2c6411321cf919555d44116ec4bc34e709f4119c9d53bb83eb3411b436162a800b5411b1829fd1ad03941194f31d7632213411635786389b753411249798e1a96b9410c367a779fc1ae4104577222a3a5c540fb554b8b76f67440f10b14d83a21ec40e39f1ff7be68af40d4b55f0f9d90a340c3d8620316034d40b10a162f2118b24099b42eff5d83ba4080800000000000406101ffe1e56c6f40386482dd565021,
  0x4017aa10d193c22c3ff000000000000040207e0f66afed064044831efb5fe63a406356cdebc9b5e2407e18a08ef110434094306bc8fb345040a7f88e2dbf70f840b9a040ef71c89140c8f783bd6e34e540d65d8f4eeb44a840e28b6225ec049340ec9c2923d1156d40f49cf0d4766a6640fbd3d751abee724101a38ef6eebd104105091e20b7cb884107a0e6a895f07f410904b7fdcbef964108fad3c6da41b2410784be9e93a6c04104dee17d40f2d54101711a8c6432a540fb6afcc25309de40f43af6b501795a40ebf4f322a615d240e2081808cf97fa40d59f36ca08013a40c7f88e2dbf70f840b8652ce82f89e140a692786b34cc324092bc177c6b6833407b597ea47fdda2406101ffe1e56c6f40410000000000004017aa10d193c22c,
  0x3ff00000000000004017aa10d193c22c40386482dd565021405439acd6e3ed0b406c9a56a2f99a7a4081ce1e70e6fcf84093e821c1ff820940a44255fd1d77f540b2f35f7d07482040c069698a0a09e940ca7692dee3c03f40d3f286ee4608a540dc35b847ac34f840e2c2e486e0884a40e784be9e93a6c040ebd3d751abee7240ef1cb24bcb52b840f0721785682fba40f0721785682fba40ef1cb24bcb52b840ebd3d751abee7240e784be9e93a6c040e2c2e486e0884a40dc35b847ac34f840d3f286ee4608a540ca7692dee3c03f40c069698a0a09e940b2f35f7d07482040a44255fd1d77f54093e821c1ff82094081ce1e70e6fcf8406c9a56a2f99a7a405439acd6e3ed0b40386482dd5650214017aa10d193c22c3ff0000000000000]

end SF
