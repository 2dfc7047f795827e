/-
Generated by tools/gen_tables.py from spherical_functions/Wigner_coefficients.npy: bytes 533832 to 651000 after the header.
-/
set_option autoImplicit false
namespace SF

/-- The coefficients for `2 ell = 58`: one number for each of the 59 values of `mp`, consisting of the doubles for the 59 values of `m`. -/
def wigner58 : List Nat := [
  0x3ff0000000000000401e768d399dc46f4044541bf0f8681c4065f514900fe03840845ae184359daa40a0b92cf028151340b8da0651478bed40d0eefd35adebc440e560a7cd6d575b40f9319619ebddcd410be2624c03c2b7411d1fcc8467ec52412cd1b9bdbae071413b1b0baa80c12841484c4f30ef33eb4154cec132a9226341610e3bb915b340416acee42d66350241743ad7fac66d1d417d5a419476d30d41847e8b39871701418b919303edab1d4191e04e23c7150e41965d5a8737cb9c419b02057843b415419f7f10b0c711eb41a1bdee2c95a8a641a350a0a31089d641a452c78541590741a4abb8e35fffec41a452c78541590741a350a0a31089d641a1bdee2c95a8a6419f7f10b0c711eb419b02057843b41541965d5a8737cb9c4191e04e23c7150e418b919303edab1d41847e8b39871701417d5a419476d30d41743ad7fac66d1d416acee42d66350241610e3bb915b3404154cec132a9226341484c4f30ef33eb413b1b0baa80c128412cd1b9bdbae071411d1fcc8467ec52410be2624c03c2b740f9319619ebddcd40e560a7cd6d575b40d0eefd35adebc440b8da0651478bed40a0b92cf028151340845ae184359daa4065f514900fe0384044541bf0f8681c401e768d399dc46f3ff0000000000000,
  0x401e768d399dc46f404c8000000000004072af54c02549ae4093d253d9c518f240b20a7ff0094fdf40cd186eda9a865540e535ef9c676c4c40fc5973d26a7c8341118b37ca651b344124431791f24a684135f7e4f85e1304414677978355ff224155c2457023c1064164052b80af5e4441718c376a87a61b417d5ef30d676d86418783cd6d246dfa41920a5a0345c4b2419a9027a6a99d7941a2ca0460636dd641a99098db32243741b0be029af9068d41b52015b843b7c341b9b209b4a6b6da41be24c58790991141c10f4556e3a1f441c2a313d06e4a6841c3a7c69cbade2941c403b0213d33e041c3ad91c8cee68841c2ae1bdac1a7e241c11e83b1cc0bd141be490032b338e941b9d913b9f40ca941b54722055702a241b0e2b5ebbe032141a9d1e1a852c42841a3013363ce91d0419ae90cb0d676f741924eaeee53c05b4187e823af98a753417debb4824e3ffc4171ea842264e61441647dc756bf3a8d4156555dcd66d3694147226b289d22f94136b474fa949ce5412508780e04408d41124e94244e652e40fdc5d97da2b67a40e674c24abedb2440cf20f7a5ca427240b3943fa410b2bc4095f57579831cee407561c709864bb340514c810886c6a540255aaa002a9d593ff0000000000000401e768d399dc46f,
  0x4044541bf0f8681c4072af54c02549ae409810000000000040b90feeec2fcec740d66372c269d3e940f1b6767d273219410954242a5792674120984450d72b83413420da7caf901b4146c5c9c7bf74b941582d07b8e15b6a416832e36226f1ba4176ed2aa8d709134184a02d762f858b4191aae5ad254eb9419ce23f9824111541a693035a75673941b0e57b8b38b62841b841b4930f766641c0b7be7bd6271a41c625dbc826124041cc3996e160387b41d14ffe5bedeef341d474c32ea66cce41d74a9ed949f3fc41d99084ad7b287c41db0e36159683a241db9d08e6de2f4041db2e38b83c9da441d9cd5cce93459641d79e7460896af941d4d7fb287cc58641d1ba58155f02a341cd0cf3dc690b1841c6eaf6a741ebf641c16572c9726ce141b96441dc29c4dd41b1ccad906f6b1d41a7f193a7f1ce8a419edd10e49f0d1d4193083af94b25c241866b2d4994ecb241792b7fb99933c2416ade5ee0e00fe4415b313edbf1fa84414a00394f2ad6e4413764404d4938014123b304697a6779410edce3baff025140f64ed01c7cdad440dd71e37491a57540c17e2c4dfcb73440a25666a2b58de7408073fb9fb966a4405807feab1c42744029ec474a2612633ff000000000000040255aaa002a9d594044541bf0f8681c,
  0x4065f514900fe0384093d253d9c518f240b90feeec2fcec740d99ec00000000040f6747b192311c441116c7a578d71a041286d478d3655d9413f5e2463a762ac4152a29d84e62d874164a4e3ff630c644175732e76f7d3cb418500e47c83ef91419374f9f5c1736241a11b46bf57877741ac9fee527fd21041b6d767fa9355c641c16a9afbb5a32541c96b8163d5a31e41d1c758dcbfceb741d7dc811cbc0fd441dec1e74a2138a541e30dd490545e1a41e6b4e84ae5f91741ea0a699206e3c241ecc06b25caa9d941ee9244baa3815c41ef4f8831a85c6441eee41fc90f04de41ed5bbcffb43b8741eadfccb07ea70c41e7b06c5d5566c441e419ff9c76446041e069b0aeace61b41d9c664bce330a241d3731b4e4554c741cc2f693aaa17a441c3970eaf0caebe41ba178d2b1e327241b0a029fe8e7f7c41a43d6f1d29e60b41977e6967b376bc4189f1ce81c0971d417b2fc637bddf72416af2cfc429fa9d41592cdc6d5c6451414610ed514f2b5e41320c093cfda2ad411b5b63dc338aec41030c88f02a000d40e818620a2d938540cb42ba8ad2e95e40aafdf897269fc54086a2e4f1234b28405e7713ada69916402daa2fefaae1d73ff00000000000004029ec474a26126340514c810886c6a54065f514900fe038,
  0x40845ae184359daa40b20a7ff0094fdf40d66372c269d3e940f6747b192311c441134d6c00000000412d5e224b79274141442c8d1c9c8c34415960b472c35b9f416d866b1179cb13418001888d3d1a57419044ec4c652da7419f27386edf270341ac3412c0fb366241b838440a9fecc241c3c80095e29a9841cecca40fe3382e41d6e5aec82ba0f441e047fdc5fd6d3c41e62cc1ef99c60241ecf508f7172ac041f22502f595e04d41f5d6ace12b9e9f41f94273853e46e241fc1730ded8505d41fe0bb59c391ba241feeab42529182041fe9be6ff8d0ee341fd2851970b186841fab8991ddbc01b41f78dde2ea7095e41f3f6caac6080d041f0435158d7da9941e973643c236b0f41e31d7fe56d5d5e41db8984718c439641d300a10f37fa2141c9182fd65bfccd41bfaa08e80e67d241b30e28aaee72f941a5d550bd24186d4197c25f93e50c4a41887d1133e869734177d3f6683e0d7a4165cd69d3c708d74152aba30a0e5d59413dc102fb00c2174125e6b099ffe7f7410d82b2060924b840f1fadce2d5a61940d37e77b095a8a840b2610ed3a1dffd408d1dec262a006d4062504ce289697240306e825da8fc2b3ff0000000000000402daa2fefaae1d7405807feab1c4274407561c709864bb340845ae184359daa,
  0x40a0b92cf028151340cd186eda9a865540f1b6767d27321941116c7a578d71a0412d5e224b7927414145e4da80000000415d774f53aa64d2417225ad9e49ea3c4184a9e493c0cdca4195eac7583f6abf41a5c85238a728a941b46194fa1d7f7841c205b24d0b099a41ce37642a0ce11a41d813b51173442741e2467a87ab809441ea79e1e370be0e41f254a236c111a741f84a938b101e8f41fed700642638704202c5ab37dcd3aa4205edebe4f3c482420898923091f94f420a7f733914490b420b6d89b52ac507420b484422630cb1420a144a245da2ca4207f490483230d5420523f8d965ad5f4201eb136fef645941fd28c9ffb861e541f6c38b195cba2e41f109a7b6255ffd41e86dfca77a028a41e0c2331ba0b0bc41d5f8fc72da6a3b41cb7d58182aad3b41c0613306d80aea41b28e013440137041a3ee52d2db7eb941943e42a6d056de41835fcd79b90703417166c86388de30415d30d3fa3ece404146b996b7755c5a41304c025434aa72411553657dd057b040f924b29bfd821340da42e956aa7c2840b7ba34228159124091e573884b730d4065439346944aa54031d5224aae2ee13ff000000000000040306e825da8fc2b405e7713ada69916408073fb9fb966a44095f57579831cee40a0b92cf0281513,
  0x40b8da0651478bed40e535ef9c676c4c410954242a57926741286d478d3655d941442c8d1c9c8c34415d774f53aa64d241736a5780000000418767e24fc78944419a1274957ffbe141ab0a02b65b6e8941ba4325eb58f47941c800563838aa1a41d4b7d3a01b8a3941e0f1cac20a98d541ea540c8f959eea41f378c3d8d5121e41fb77917892e431420280b26833160c4207d69b97f4b617420d6667a907ed3442115e8f884cf9454213ad026374fdb1421560f5abf935cb421649f472ea68fe42164d59ab4ab00842156b36fab40d904213be3bff94feb1421176a9840eb299420da335450fd07b42081d87da6589f24202cdf3e532a40e41fc156ed1d817ee41f4106102f5f0f441eb661f9a1d484f41e1db1108a5981341d62dcdd6b55fa241ca34ca0c9cd69641bd6492fa78acab41af3702d803e80c419f4b79848e8eda418d83c665c34410417a132a85b72483416577dc2161d63e41505e8dcaca28394136f0371625220d411d3e8c841e5a994100be1189f05ccf40e0eb6ccc917d2f40bd740b08d1cb89409549fda6c07525406815f5f3de59c74033142b30a929ab3ff00000000000004031d5224aae2ee14062504ce28969724086a2e4f1234b2840a25666a2b58de740b3943fa410b2bc40b8da0651478bed,
  0x40d0eefd35adebc440fc5973d26a7c834120984450d72b83413f5e2463a762ac415960b472c35b9f417225ad9e49ea3c418767e24fc78944419b9a59f000000041ae106747885cd641be7874e72bf42741cce829b6a6ec6041d9ca0a5c59b70041e5b7ebcafdfbeb41f1518f810beb5541fa383777df13914202e18b69286a304209e9fa4cc09adf4210f8bb49ea894442153dae370134c842196d192c0e9929421d2204f7e23f87421ff8577ee344b24220ceea5bd9b5194220f09015e5eeca42205d84895ada5d421e4fc2bd8d4973421ae7c2ab3389854216e228c1ae3e5f4212a42213b458df420d125c83d29c434205af0872ba3e2f41fee966f3bf59aa41f508635f234a0741eb4928c71b3b7141e0d89a0d509b8041d3c3299a8b315941c5fa2d79bf9e1141b71bec37c3c9b041a6e7cc8e0f9afd419552e65b0ac67a4182905cd416521b416e1139132fe7d74156813a013f5aad413ee335982f7d7d41233c9a72486e294105759ffe8241d540e50f9feff38f5340c1bc91306d65204098b34a4ff880d1406ac7c5735a6f90403432f24fb01c7a3ff00000000000004033142b30a929ab4065439346944aa5408d1dec262a006d40aafdf897269fc540c17e2c4dfcb73440cf20f7a5ca427240d0eefd35adebc4,
  0x40e560a7cd6d575b41118b37ca651b34413420da7caf901b4152a29d84e62d87416d866b1179cb134184a9e493c0cdca419a1274957ffbe141ae106747885cd641c0000f1d00000041cfadc87bb998fc41dd566f3a65e3fe41e988fe80b8d8f341f4f7837d23dd9b42004a6298bbffd7420803a0e443e7164210d3547e794c934216738a27177965421c9145e5afc1fa422159e330a1c658422423f963706f1842265b04a7add8204227bdc7889b186e422821c175bd08fe42277b5f318364654225e01ffa695e08422382267355f8464220a66fd98c8428421b3087c3da6367421539e21d36d613420fa9f07e25119142068b28a534f17c41fe9b6f8a2ccc2841f3c8c593794f3b41e850b4588684db41dc5b30c2bf113241cf4ee861315c4141c0520f39b3633341b004586f26ea31419d7bd58633932b41895623b654d4b8417438181c1ee8bb415dc562ea808a1b41440e0495bcd5474128777170ff9cd8410aaa8474f1f55e40e97f662d3f1b2240c4da810666d5cd409c19548adfcd11406d59303b454d63403536948017480f3ff0000000000000403432f24fb01c7a406815f5f3de59c74091e573884b730d40b2610ed3a1dffd40cb42ba8ad2e95e40dd71e37491a57540e674c24abedb2440e560a7cd6d575b,
  0x40f9319619ebddcd4124431791f24a684146c5c9c7bf74b94164a4e3ff630c64418001888d3d1a574195eac7583f6abf41ab0a02b65b6e8941be7874e72bf42741cfadc87bb998fc41de9d205480000041eba8e7d15f2e9541f7790f0af8bf7a4202c7836b98ac19420c69f8dca0c9df4214606f8d11c047421bc2bb6518c08a4221fe01ebc3face422638643633badb422a2c900a326c23422d6eb41c4f19c9422f9d91e71fcf2242303a6268e8c474422fda38b4a7f619422de33a2c43c083422acfcd8c78a9694226fda9966a16994222d665997bb93b421d7ad18de0f7fd4216036cfa3f7e01420f58787b28823a42054119c57b188e41fb69f421fa7e6341f0c999f323827941e37c66c97a5b2941d563396d9f367241c62365469b467f41b58ac1d472bb8241a3a198787799fe4190adb32166f3e0417a46b5c6b14db44163101182257389414942f5f6e7622a412e40a33a479d8b411025a95cad533c40ee2b52a33dcde240c80a1746421b63409f751a8f538d38406fca52fb9d0051403622cd337f0fe83ff0000000000000403536948017480f406ac7c5735a6f90409549fda6c0752540b7ba342281591240d37e77b095a8a840e818620a2d938540f64ed01c7cdad440fdc5d97da2b67a40f9319619ebddcd,
  0x410be2624c03c2b74135f7e4f85e130441582d07b8e15b6a4175732e76f7d3cb419044ec4c652da741a5c85238a728a941ba4325eb58f47941cce829b6a6ec6041dd566f3a65e3fe41eba8e7d15f2e9541f85db677800000420425c53de60968420f63b56c2e408242171ae1d577b57042201bf45dd1819f422551d71aff119b422ad294b5b79f0942300f9af54b7b87423253dbd83439804233f1bf873cfd8c4234b5a3604863c0423486ed4356b52942336cff5663966542318d69ed769d4e422e47e00f45a1a44228ed4a82044995422392a27e3daed8421d4c78a3600ae74214e23bf6ae761e420c522c317d639e42023e460983ce2c41f64ab2ec7fbf6641e9c8f563f5914a41dc2b4bda73949f41ccfc5cd867a0f241bc00c05c645ca341a94d6a2784d8c6419548cc63bcd5564180937a6ad1b9ff4167bda2bd669500414f00864f36b5954132425c32e3f0b8411322238edf0ff940f181c14cab7c1940cb42154be8b65b40a16037401e068840710da02fbb9ff34036fa6ea162d0f03ff0000000000000403622cd337f0fe8406d59303b454d634098b34a4ff880d140bd740b08d1cb8940da42e956aa7c2840f1fadce2d5a61941030c88f02a000d410edce3baff025141124e94244e652e410be2624c03c2b7,
  0x411d1fcc8467ec52414677978355ff22416832e36226f1ba418500e47c83ef91419f27386edf270341b46194fa1d7f7841c800563838aa1a41d9ca0a5c59b70041e988fe80b8d8f341f7790f0af8bf7a420425c53de609684210389178c40000421896c49b0c3514422198b6ae52cae04227d60d08812c7b422e9e39efd693704232ad45f24d00be4235aaf968e49ea94237ed9bbb0a39a942392bc69f21e8e442393c46f92831ef42381eaa8267f3324235faf8630f6d94423318c4b367bc73422fa091d28c64014228f354c178a1444222bd514961e89f421ac6bd0631da0942122d4cb3b64c6b42076af12830328341fc94e999b2f3bf41f07dfcbe4b0bce41e1f4514c49aef141d2637888ce414d41c1a9048799712d41afaf79f3632614419a6d70605255ff418460d3c944ceb5416cdaf286bbe62c415298e99fe125fa41359649534e179641163fe95f22841040f3fbf07143cd5140ce79bbf35daab540a2fae9d86f689b4072260288dedf5c4037bfa9c41ab0403ff00000000000004036fa6ea162d0f0406fca52fb9d0051409c19548adfcd1140c1bc91306d652040e0eb6ccc917d2f40f924b29bfd8213410d82b2060924b8411b5b63dc338aec4123b304697a6779412508780e04408d411d1fcc8467ec52,
  0x412cd1b9bdbae0714155c2457023c1064176ed2aa8d70913419374f9f5c1736241ac3412c0fb366241c205b24d0b099a41d4b7d3a01b8a3941e5b7ebcafdfbeb41f4f7837d23dd9b4202c7836b98ac19420f63b56c2e4082421896c49b0c351442221e81d06e000042293135e0815fed42308f8df16db7554234a0c829455de44238612a6305e122423b5f17b0ae7124423d381ac60825ec423dad4b23b9a4f2423cb0b8db715f81423a680249fa13e1423723746bc4deb042334c80b79dbeeb422ea152aa102b4d42271d0371831cfc42209212dca05a4742168cbb28d120ce420d15b12087fb3e4201bfc9681728b341f475a8bcd7b60841e638e3343db14e41d6ae324e50cff741c5ae2af866fdcd41b355994eb3473e41a002a8412f268841887b47b912fd494171295c729fedc04155ded6b6b4fa0841390f0f071409534119738fd3ace3dc40f67c2ffee90f5040d0d465e68cb98f40a48832438f09fd40732e54fb9d675f4038743bde58000c3ff00000000000004037bfa9c41ab04040710da02fbb9ff3409f751a8f538d3840c4da810666d5cd40e50f9feff38f534100be1189f05ccf411553657dd057b04125e6b099ffe7f741320c093cfda2ad413764404d4938014136b474fa949ce5412cd1b9bdbae071,
  0x413b1b0baa80c1284164052b80af5e444184a02d762f858b41a11b46bf57877741b838440a9fecc241ce37642a0ce11a41e0f1cac20a98d541f1518f810beb5542004a6298bbffd7420c69f8dca0c9df42171ae1d577b570422198b6ae52cae042293135e0815fed4230ff82581500004235abc8e7ca4602423a265d378556ad423de89b70e791d342403ad963aab8db4240ba610e964e9442406221c2913b0f423e810c6f1ef46c423afeeeddbb22cf4236b57950e70a28423226bd7f54fc3e422b8e6bff299a1a4223d94215ee82b3421b1ada0a117b2f42118539dec7489b42056895f18fe88841f8ad83c759d38a41eac5e1c4bfbcfd41db4313cad7a10541c9f81ff8f0c2b741b70d0b5606bb8741a2f9b31773b231418cceb0472b9b19417405c34d4628f4415943af2ccf4aa2413c9e8369a1d6a3411cb1467613c87d40f8fa96583ca05c40d263c29d81a10040a605df37641a6c4074269abe0d12a44039198c8b8307c83ff00000000000004038743bde58000c4072260288dedf5c40a16037401e068840c80a1746421b6340e97f662d3f1b224105759ffe8241d5411d3e8c841e5a9941304c025434aa72413dc102fb00c217414610ed514f2b5e414a00394f2ad6e44147226b289d22f9413b1b0baa80c128,
  0x41484c4f30ef33eb41718c376a87a61b4191aae5ad254eb941ac9fee527fd21041c3c80095e29a9841d813b51173442741ea540c8f959eea41fa383777df1391420803a0e443e7164214606f8d11c04742201bf45dd1819f4227d60d08812c7b42308f8df16db7554235abc8e7ca4602423ac3e66f100000423f414ba7b26c5d4241472cba3d3a5a42421aeda4de70554241fe9470c4d6ca4240f88db5b6eca5423e61ffa1262a6e4239d01dae29e6b14234cf21419a179e422fd1bea61e3acc42270e271cbfcce3421fa1afd2e6c6784214848f157fb5ee4209210b6afb2c1141fcfff5bb6c947141ef7644190c85d741dffff4ab80a3cc41ce697c971d2ec841bae68efba1147f41a60a7a4160709d4190a1c747dd13c24176f44ae2b78382415cb7c009f9de8341401adbfe7a8dc4411fed115a40e21440fb6f6d2e4887da40d3e754409f50ec40a771f9171d182c40750ed62ffd3d2a4039b0c25315c2cd3ff00000000000004039198c8b8307c840732e54fb9d675f40a2fae9d86f689b40cb42154be8b65b40ee2b52a33dcde2410aaa8474f1f55e41233c9a72486e294136f0371625220d4146b996b7755c5a4152aba30a0e5d5941592cdc6d5c6451415b313edbf1fa844156555dcd66d36941484c4f30ef33eb,
  0x4154cec132a92263417d5ef30d676d86419ce23f9824111541b6d767fa9355c641cecca40fe3382e41e2467a87ab809441f378c3d8d5121e4202e18b69286a304210d3547e794c93421bc2bb6518c08a422551d71aff119b422e9e39efd693704234a0c829455de4423a265d378556ad423f414ba7b26c5d4241a4066c1c00004242d4cfc412f1e34243072fe9bd834e424236153307c8f1424083c9b6a6e324423c623246d24f8542371c12ae62d3d14231d1e1aa936b3d422a0286bece6cca4221f2d1d879ab01421764d6ae96cd84420cc0669d1846ce4200a0e691fff2d441f20fa2cd94311b41e25ead9da91f5241d1703342137edc41bec74a861f3a7c41a9216a0c54e1064192dfedd9d7bcb14179e55a1f537312416015380168ea9c4141e2a9edd03fb241218d7f91745bbb40fdd34502676f3840d55bbae827907540a8cabbbbb5dbe84075e7091bcc3f91403a3ad12a1da1603ff00000000000004039b0c25315c2cd4074269abe0d12a440a48832438f09fd40ce79bbf35daab540f181c14cab7c19411025a95cad533c4128777170ff9cd8413ee335982f7d7d41505e8dcaca2839415d30d3fa3ece404165cd69d3c708d7416af2cfc429fa9d416ade5ee0e00fe441647dc756bf3a8d4154cec132a92263,
  0x41610e3bb915b340418783cd6d246dfa41a693035a75673941c16a9afbb5a32541d6e5aec82ba0f441ea79e1e370be0e41fb77917892e4314209e9fa4cc09adf4216738a271779654221fe01ebc3face422ad294b5b79f094232ad45f24d00be4238612a6305e122423de89b70e791d34241472cba3d3a5a4242d4cfc412f1e3424362605c0100004242dc84dd8c00be42415b818a8fa178423e38c78709ba4e4238e37c798f0fd94233620f47abce19422c88a4efe6f5024223d514288c1aa7421a00aec2030b6f42100dcd4d523e494202a26a41ed84cc41f4495ec072b72a41e4a83bea0e194641d39c0fd8ca88f341c14918d454c5b341ac297bd8c16b9e419513f9c1f382f1417cc89f7026471c4161c559a5e8e86f41439ef5b6301d85412317ad8240304541000f832d63b6a340d6bdd6a5b658ec40aa0e917502bac94076af34e0f1ab45403ab884ef7022833ff0000000000000403a3ad12a1da16040750ed62ffd3d2a40a605df37641a6c40d0d465e68cb98f40f3fbf07143cd51411322238edf0ff9412e40a33a479d8b41440e0495bcd5474156813a013f5aad416577dc2161d63e417166c86388de304177d3f6683e0d7a417b2fc637bddf7241792b7fb99933c24171ea842264e61441610e3bb915b340,
  0x416acee42d66350241920a5a0345c4b241b0e57b8b38b62841c96b8163d5a31e41e047fdc5fd6d3c41f254a236c111a7420280b26833160c4210f8bb49ea8944421c9145e5afc1fa422638643633badb42300f9af54b7b874235aaf968e49ea9423b5f17b0ae712442403ad963aab8db42421aeda4de70554243072fe9bd834e4242dc84dd8c00be4241a591ce610000423f2e1d150ad994423a03757bd5571942347dd4d3044e56422e776ae12b5ca542255b638ad16516421c342fa266bdb7421184295c66903442046d62d5e4022d41f650e7cf2708f541e6c6b5b3228fea41d5a566b3b6576c41c314a602089e4941af0d0b6121d06341972fc77f2d26cf417f8d928e5a500f416363bf7ce7fe444145482a3415dee041248f6d63a0e7f9410126007881af4540d80ac7864aab4040ab3c0efb2318444077675a90af7e80403b2a892946f4353ff0000000000000403ab884ef7022834075e7091bcc3f9140a771f9171d182c40d263c29d81a10040f67c2ffee90f5041163fe95f2284104132425c32e3f0b8414942f5f6e7622a415dc562ea808a1b416e1139132fe7d7417a132a85b7248341835fcd79b9070341887d1133e869734189f1ce81c0971d41866b2d4994ecb2417debb4824e3ffc416acee42d663502,
  0x41743ad7fac66d1d419a9027a6a99d7941b841b4930f766641d1c758dcbfceb741e62cc1ef99c60241f84a938b101e8f4207d69b97f4b61742153dae370134c8422159e330a1c658422a2c900a326c23423253dbd83439804237ed9bbb0a39a9423d381ac60825ec4240ba610e964e944241fe9470c4d6ca424236153307c8f142415b818a8fa178423f2e1d150ad994423a65fd7fa80000423511099cebdef6422fae45b26313df42266e02b0edd683421ddfc7a3d2edab4212b0045a0729134205ec2f642ea8c441f80fe231be5dd441e8a4d9467fff6b41d779add23b7afb41c4b786d60a856041b0db5a7d849b1c4199256256c7ea46418111fb294950704164e81ca8048de34146d6fa958a74f84125ef646449e4b6410229fc8993fc1c40d93fed939e080140ac51f01c3b19da40780f7b01e39812403b916ed68964ec3ff0000000000000403b2a892946f4354076af34e0f1ab4540a8cabbbbb5dbe840d3e754409f50ec40f8fa96583ca05c4119738fd3ace3dc41359649534e1796414f00864f36b5954163101182257389417438181c1ee8bb4182905cd416521b418d83c665c3441041943e42a6d056de4197c25f93e50c4a41977e6967b376bc4193083af94b25c24187e823af98a75341743ad7fac66d1d,
  0x417d5a419476d30d41a2ca0460636dd641c0b7be7bd6271a41d7dc811cbc0fd441ecf508f7172ac041fed70064263870420d6667a907ed3442196d192c0e9929422423f963706f18422d6eb41c4f19c94233f1bf873cfd8c42392bc69f21e8e4423dad4b23b9a4f242406221c2913b0f4240f88db5b6eca5424083c9b6a6e324423e38c78709ba4e423a03757bd55719423511099cebdef642300c258d9a00004226fbcf55b6b515421eead0b66c37604213817452228ae442070c2c992141c841f97269463dc3f441ea2f461b281ffc41d907b0197b9f1241c623d7db574ffa41b20919650eafeb419ae7829d19c5e641823e2b57819d5741664a924de3ced6414844873570c3aa41273294fe04db5141031899b202599840da5ae8d50c038240ad4f150024263f4078a796df00ba73403bedb0defaf6613ff0000000000000403b916ed68964ec4077675a90af7e8040aa0e917502bac940d55bbae827907540fb6f6d2e4887da411cb1467613c87d41390f0f07140953415298e99fe125fa4167bda2bd669500417a46b5c6b14db441895623b654d4b8419552e65b0ac67a419f4b79848e8eda41a3ee52d2db7eb941a5d550bd24186d41a43d6f1d29e60b419edd10e49f0d1d41924eaeee53c05b417d5a419476d30d,
  0x41847e8b3987170141a99098db32243741c625dbc826124041dec1e74a2138a541f22502f595e04d4202c5ab37dcd3aa42115e8f884cf945421d2204f7e23f8742265b04a7add820422f9d91e71fcf224234b5a3604863c042393c46f92831ef423cb0b8db715f81423e810c6f1ef46c423e61ffa1262a6e423c623246d24f854238e37c798f0fd942347dd4d3044e56422fae45b26313df4226fbcf55b6b515421f459e838800004213ed2010b38ad54207bf020083066241fa6852f2f513ae41eb5599a45968e241da407093b9f61c41c74d3b97ee1a0941b3069798c88a59419c6a058144ec154183443f9e1adf11416783e13ed7ef8441498a7f4692ee0a4128546ff60e27864103ef3f8f68192440db599950316b8940ae327fe581edc640792faeb0153521403c3fb780c4f5833ff0000000000000403bedb0defaf66140780f7b01e3981240ab3c0efb23184440d6bdd6a5b658ec40fdd34502676f38411fed115a40e214413c9e8369a1d6a34155ded6b6b4fa08416cdaf286bbe62c4180937a6ad1b9ff4190adb32166f3e0419d7bd58633932b41a6e7cc8e0f9afd41af3702d803e80c41b28e013440137041b30e28aaee72f941b0a029fe8e7f7c41a7f193a7f1ce8a419ae90cb0d676f741847e8b39871701,
  0x418b919303edab1d41b0be029af9068d41cc3996e160387b41e30dd490545e1a41f5d6ace12b9e9f4205edebe4f3c4824213ad026374fdb1421ff8577ee344b24227bdc7889b186e42303a6268e8c474423486ed4356b52942381eaa8267f332423a680249fa13e1423afeeeddbb22cf4239d01dae29e6b142371c12ae62d3d14233620f47abce19422e776ae12b5ca542266e02b0edd683421eead0b66c37604213ed2010b38ad54207fba5d670000041fae639b4a3575e41ec0b62e390136341db17f2336f3f2a41c8296cfaada1c141b3cc01c032a056419da25a2599952041841df38eea8e3741688d96e05bae0b414aa33ef944b540412950e35d5834374104ab9f7d989f0e40dc3a1f095b6a8e40aefb5342ab75424079a7c2e217de3e403c87dafcd266fd3ff0000000000000403c3fb780c4f5834078a796df00ba7340ac51f01c3b19da40d80ac7864aab4041000f832d63b6a341218d7f91745bbb41401adbfe7a8dc4415943af2ccf4aa24171295c729fedc0418460d3c944ceb5419548cc63bcd55641a3a198787799fe41b004586f26ea3141b71bec37c3c9b041bd6492fa78acab41c0613306d80aea41bfaa08e80e67d241ba178d2b1e327241b1ccad906f6b1d41a3013363ce91d0418b919303edab1d,
  0x4191e04e23c7150e41b52015b843b7c341d14ffe5bedeef341e6b4e84ae5f91741f94273853e46e2420898923091f94f421560f5abf935cb4220ceea5bd9b519422821c175bd08fe422fda38b4a7f61942336cff566396654235faf8630f6d94423723746bc4deb04236b57950e70a284234cf21419a179e4231d1e1aa936b3d422c88a4efe6f50242255b638ad16516421ddfc7a3d2edab4213817452228ae44207bf020083066241fae639b4a3575e41ec48dcbe00000041db85d896f9d8ec41c8b0b972c577b741b4532d6a7ebbb5419e87e0483de37d4184c607b4554fa0416962348f653fdf414b89e9d332fcad412a246790bd052a41054bb86493d33240dcfada03d6211e40afa8d039f9f658407a0fd3cc490531403cc665b03286213ff0000000000000403c87dafcd266fd40792faeb015352140ad4f150024263f40d93fed939e0801410126007881af45412317ad824030454141e2a9edd03fb2415cb7c009f9de83417405c34d4628f441887b47b912fd49419a6d70605255ff41a94d6a2784d8c641b58ac1d472bb8241c0520f39b3633341c5fa2d79bf9e1141ca34ca0c9cd69641cb7d58182aad3b41c9182fd65bfccd41c3970eaf0caebe41b96441dc29c4dd41a9d1e1a852c4284191e04e23c7150e,
  0x41965d5a8737cb9c41b9b209b4a6b6da41d474c32ea66cce41ea0a699206e3c241fc1730ded8505d420a7f733914490b421649f472ea68fe4220f09015e5eeca42277b5f31836465422de33a2c43c08342318d69ed769d4e423318c4b367bc7342334c80b79dbeeb423226bd7f54fc3e422fd1bea61e3acc422a0286bece6cca4223d514288c1aa7421c342fa266bdb74212b0045a07291342070c2c992141c841fa6852f2f513ae41ec0b62e390136341db85d896f9d8ec41c8de5cac00000041b497d93cdde2b5419f14354f9cc68941853868cfb59cef4169fd50c991b9db414c3a80fccd3c75412acc0a39229f0e4105cdd9ebdfd9f440dd9a6a4224b4f140b01d2aaa722e14407a67e1b4314579403cfb95bb9dcc0c3ff0000000000000403cc665b03286214079a7c2e217de3e40ae327fe581edc640da5ae8d50c0382410229fc8993fc1c41248f6d63a0e7f941439ef5b6301d85416015380168ea9c4176f44ae2b78382418cceb0472b9b1941a002a8412f268841afaf79f363261441bc00c05c645ca341c62365469b467f41cf4ee861315c4141d3c3299a8b315941d62dcdd6b55fa241d5f8fc72da6a3b41d300a10f37fa2141cc2f693aaa17a441c16572c9726ce141b0e2b5ebbe032141965d5a8737cb9c,
  0x419b02057843b41541be24c58790991141d74a9ed949f3fc41ecc06b25caa9d941fe0bb59c391ba2420b6d89b52ac50742164d59ab4ab00842205d84895ada5d4225e01ffa695e08422acfcd8c78a969422e47e00f45a1a4422fa091d28c6401422ea152aa102b4d422b8e6bff299a1a42270e271cbfcce34221f2d1d879ab01421a00aec2030b6f421184295c6690344205ec2f642ea8c441f97269463dc3f441eb5599a45968e241db17f2336f3f2a41c8b0b972c577b741b497d93cdde2b5419f436d300000004185724e27b7c85d416a5bb18d29c04d414cb1f552ce4554412b45774b9584f1410630a71ad671ca40de17afc629668f40b057aebe1c0f90407aafecd09c2d3c403d279e51208c8a3ff0000000000000403cfb95bb9dcc0c407a0fd3cc49053140aefb5342ab754240db599950316b8941031899b20259984125ef646449e4b64145482a3415dee04161c559a5e8e86f4179e55a1f5373124190a1c747dd13c241a2f9b31773b23141b355994eb3473e41c1a9048799712d41ccfc5cd867a0f241d563396d9f367241dc5b30c2bf113241e0d89a0d509b8041e1db1108a5981341e0c2331ba0b0bc41db8984718c439641d3731b4e4554c741c6eaf6a741ebf641b54722055702a2419b02057843b415,
  0x419f7f10b0c711eb41c10f4556e3a1f441d99084ad7b287c41ee9244baa3815c41feeab425291820420b484422630cb142156b36fab40d90421e4fc2bd8d4973422382267355f8464226fda9966a16994228ed4a820449954228f354c178a14442271d0371831cfc4223d94215ee82b3421fa1afd2e6c678421764d6ae96cd8442100dcd4d523e4942046d62d5e4022d41f80fe231be5dd441ea2f461b281ffc41da407093b9f61c41c8296cfaada1c141b4532d6a7ebbb5419f14354f9cc6894185724e27b7c85d416a7b5f80000000414cee3514f0471e412b8f00095b7a50410673186bd607a040de71ca9142092740b083bf93017e41407ae7f54bcf7cd4403d4aa8b979af2e3ff0000000000000403d279e51208c8a407a67e1b431457940afa8d039f9f65840dc3a1f095b6a8e4103ef3f8f68192441273294fe04db514146d6fa958a74f8416363bf7ce7fe44417cc89f7026471c4192dfedd9d7bcb141a60a7a4160709d41b70d0b5606bb8741c5ae2af866fdcd41d2637888ce414d41dc2b4bda73949f41e37c66c97a5b2941e850b4588684db41eb4928c71b3b7141eb661f9a1d484f41e86dfca77a028a41e31d7fe56d5d5e41d9c664bce330a241cd0cf3dc690b1841b9d913b9f40ca9419f7f10b0c711eb,
  0x41a1bdee2c95a8a641c2a313d06e4a6841db0e36159683a241ef4f8831a85c6441fe9be6ff8d0ee3420a144a245da2ca4213be3bff94feb1421ae7c2ab3389854220a66fd98c84284222d665997bb93b422392a27e3daed84222bd514961e89f42209212dca05a47421b1ada0a117b2f4214848f157fb5ee420cc0669d1846ce4202a26a41ed84cc41f650e7cf2708f541e8a4d9467fff6b41d907b0197b9f1241c74d3b97ee1a0941b3cc01c032a056419e87e0483de37d41853868cfb59cef416a5bb18d29c04d414cee3514f0471e412ba7a0000000004106947d56de351840dea81aa45bc34240b0a135d9c60824407b0ffb452bedb0403d64d51e0db1c53ff0000000000000403d4aa8b979af2e407aafecd09c2d3c40b01d2aaa722e1440dcfada03d6211e4104ab9f7d989f0e4128546ff60e2786414844873570c3aa4164e81ca8048de3417f8d928e5a500f419513f9c1f382f141a9216a0c54e10641bae68efba1147f41c9f81ff8f0c2b741d6ae324e50cff741e1f4514c49aef141e9c8f563f5914a41f0c999f323827941f3c8c593794f3b41f508635f234a0741f4106102f5f0f441f109a7b6255ffd41e973643c236b0f41e069b0aeace61b41d1ba58155f02a341be490032b338e941a1bdee2c95a8a6,
  0x41a350a0a31089d641c3a7c69cbade2941db9d08e6de2f4041eee41fc90f04de41fd2851970b18684207f490483230d5421176a9840eb2994216e228c1ae3e5f421b3087c3da6367421d7ad18de0f7fd421d4c78a3600ae7421ac6bd0631da0942168cbb28d120ce42118539dec7489b4209210b6afb2c114200a0e691fff2d441f4495ec072b72a41e6c6b5b3228fea41d779add23b7afb41c623d7db574ffa41b3069798c88a59419da25a259995204184c607b4554fa04169fd50c991b9db414cb1f552ce4554412b8f00095b7a504106947d56de351840deba400000000040b0aff77d98328c407b27fed2569596403d763b20d435ef3ff0000000000000403d64d51e0db1c5407ae7f54bcf7cd440b057aebe1c0f9040dd9a6a4224b4f141054bb86493d332412950e35d58343741498a7f4692ee0a41664a924de3ced6418111fb2949507041972fc77f2d26cf41ac297bd8c16b9e41bec74a861f3a7c41ce697c971d2ec841db4313cad7a10541e638e3343db14e41f07dfcbe4b0bce41f64ab2ec7fbf6641fb69f421fa7e6341fe9b6f8a2ccc2841fee966f3bf59aa41fc156ed1d817ee41f6c38b195cba2e41f0435158d7da9941e419ff9c76446041d4d7fb287cc58641c11e83b1cc0bd141a350a0a31089d6,
  0x41a452c78541590741c403b0213d33e041db2e38b83c9da441ed5bbcffb43b8741fab8991ddbc01b420523f8d965ad5f420da335450fd07b4212a42213b458df421539e21d36d6134216036cfa3f7e014214e23bf6ae761e42122d4cb3b64c6b420d15b12087fb3e42056895f18fe88841fcfff5bb6c947141f20fa2cd94311b41e4a83bea0e194641d5a566b3b6576c41c4b786d60a856041b20919650eafeb419c6a058144ec1541841df38eea8e37416962348f653fdf414c3a80fccd3c75412b45774b9584f1410673186bd607a040dea81aa45bc34240b0aff77d98328c407b300000000000403d7eea48fed23f3ff0000000000000403d763b20d435ef407b0ffb452bedb040b083bf93017e4140de17afc629668f4105cdd9ebdfd9f4412a246790bd052a414aa33ef944b540416783e13ed7ef8441823e2b57819d574199256256c7ea4641af0d0b6121d06341c14918d454c5b341d1703342137edc41dffff4ab80a3cc41eac5e1c4bfbcfd41f475a8bcd7b60841fc94e999b2f3bf42023e460983ce2c42054119c57b188e42068b28a534f17c4205af0872ba3e2f4202cdf3e532a40e41fd28c9ffb861e541f3f6caac6080d041e7b06c5d5566c441d79e7460896af941c2ae1bdac1a7e241a452c785415907,
  0x41a4abb8e35fffec41c3ad91c8cee68841d9cd5cce93459641eadfccb07ea70c41f78dde2ea7095e4201eb136fef645942081d87da6589f2420d125c83d29c43420fa9f07e251191420f58787b28823a420c522c317d639e42076af1283032834201bfc9681728b341f8ad83c759d38a41ef7644190c85d741e25ead9da91f5241d39c0fd8ca88f341c314a602089e4941b0db5a7d849b1c419ae7829d19c5e64183443f9e1adf1141688d96e05bae0b414b89e9d332fcad412acc0a39229f0e410630a71ad671ca40de71ca9142092740b0a135d9c60824407b27fed2569596403d7eea48fed23f3ff0000000000000403d7eea48fed23f407b27fed256959640b0a135d9c6082440de71ca91420927410630a71ad671ca412acc0a39229f0e414b89e9d332fcad41688d96e05bae0b4183443f9e1adf11419ae7829d19c5e641b0db5a7d849b1c41c314a602089e4941d39c0fd8ca88f341e25ead9da91f5241ef7644190c85d741f8ad83c759d38a4201bfc9681728b342076af128303283420c522c317d639e420f58787b28823a420fa9f07e251191420d125c83d29c4342081d87da6589f24201eb136fef645941f78dde2ea7095e41eadfccb07ea70c41d9cd5cce93459641c3ad91c8cee68841a4abb8e35fffec,
  0x41a452c78541590741c2ae1bdac1a7e241d79e7460896af941e7b06c5d5566c441f3f6caac6080d041fd28c9ffb861e54202cdf3e532a40e4205af0872ba3e2f42068b28a534f17c42054119c57b188e42023e460983ce2c41fc94e999b2f3bf41f475a8bcd7b60841eac5e1c4bfbcfd41dffff4ab80a3cc41d1703342137edc41c14918d454c5b341af0d0b6121d0634199256256c7ea4641823e2b57819d57416783e13ed7ef84414aa33ef944b540412a246790bd052a4105cdd9ebdfd9f440de17afc629668f40b083bf93017e41407b0ffb452bedb0403d763b20d435ef3ff0000000000000403d7eea48fed23f407b30000000000040b0aff77d98328c40dea81aa45bc342410673186bd607a0412b45774b9584f1414c3a80fccd3c75416962348f653fdf41841df38eea8e37419c6a058144ec1541b20919650eafeb41c4b786d60a856041d5a566b3b6576c41e4a83bea0e194641f20fa2cd94311b41fcfff5bb6c947142056895f18fe888420d15b12087fb3e42122d4cb3b64c6b4214e23bf6ae761e4216036cfa3f7e01421539e21d36d6134212a42213b458df420da335450fd07b420523f8d965ad5f41fab8991ddbc01b41ed5bbcffb43b8741db2e38b83c9da441c403b0213d33e041a452c785415907,
  0x41a350a0a31089d641c11e83b1cc0bd141d4d7fb287cc58641e419ff9c76446041f0435158d7da9941f6c38b195cba2e41fc156ed1d817ee41fee966f3bf59aa41fe9b6f8a2ccc2841fb69f421fa7e6341f64ab2ec7fbf6641f07dfcbe4b0bce41e638e3343db14e41db4313cad7a10541ce697c971d2ec841bec74a861f3a7c41ac297bd8c16b9e41972fc77f2d26cf418111fb2949507041664a924de3ced641498a7f4692ee0a412950e35d58343741054bb86493d33240dd9a6a4224b4f140b057aebe1c0f90407ae7f54bcf7cd4403d64d51e0db1c53ff0000000000000403d763b20d435ef407b27fed256959640b0aff77d98328c40deba40000000004106947d56de3518412b8f00095b7a50414cb1f552ce45544169fd50c991b9db4184c607b4554fa0419da25a2599952041b3069798c88a5941c623d7db574ffa41d779add23b7afb41e6c6b5b3228fea41f4495ec072b72a4200a0e691fff2d44209210b6afb2c1142118539dec7489b42168cbb28d120ce421ac6bd0631da09421d4c78a3600ae7421d7ad18de0f7fd421b3087c3da63674216e228c1ae3e5f421176a9840eb2994207f490483230d541fd2851970b186841eee41fc90f04de41db9d08e6de2f4041c3a7c69cbade2941a350a0a31089d6,
  0x41a1bdee2c95a8a641be490032b338e941d1ba58155f02a341e069b0aeace61b41e973643c236b0f41f109a7b6255ffd41f4106102f5f0f441f508635f234a0741f3c8c593794f3b41f0c999f323827941e9c8f563f5914a41e1f4514c49aef141d6ae324e50cff741c9f81ff8f0c2b741bae68efba1147f41a9216a0c54e106419513f9c1f382f1417f8d928e5a500f4164e81ca8048de3414844873570c3aa4128546ff60e27864104ab9f7d989f0e40dcfada03d6211e40b01d2aaa722e14407aafecd09c2d3c403d4aa8b979af2e3ff0000000000000403d64d51e0db1c5407b0ffb452bedb040b0a135d9c6082440dea81aa45bc3424106947d56de3518412ba7a000000000414cee3514f0471e416a5bb18d29c04d41853868cfb59cef419e87e0483de37d41b3cc01c032a05641c74d3b97ee1a0941d907b0197b9f1241e8a4d9467fff6b41f650e7cf2708f54202a26a41ed84cc420cc0669d1846ce4214848f157fb5ee421b1ada0a117b2f42209212dca05a474222bd514961e89f422392a27e3daed84222d665997bb93b4220a66fd98c8428421ae7c2ab3389854213be3bff94feb1420a144a245da2ca41fe9be6ff8d0ee341ef4f8831a85c6441db0e36159683a241c2a313d06e4a6841a1bdee2c95a8a6,
  0x419f7f10b0c711eb41b9d913b9f40ca941cd0cf3dc690b1841d9c664bce330a241e31d7fe56d5d5e41e86dfca77a028a41eb661f9a1d484f41eb4928c71b3b7141e850b4588684db41e37c66c97a5b2941dc2b4bda73949f41d2637888ce414d41c5ae2af866fdcd41b70d0b5606bb8741a60a7a4160709d4192dfedd9d7bcb1417cc89f7026471c416363bf7ce7fe444146d6fa958a74f841273294fe04db514103ef3f8f68192440dc3a1f095b6a8e40afa8d039f9f658407a67e1b4314579403d279e51208c8a3ff0000000000000403d4aa8b979af2e407ae7f54bcf7cd440b083bf93017e4140de71ca91420927410673186bd607a0412b8f00095b7a50414cee3514f0471e416a7b5f800000004185724e27b7c85d419f14354f9cc68941b4532d6a7ebbb541c8296cfaada1c141da407093b9f61c41ea2f461b281ffc41f80fe231be5dd442046d62d5e4022d42100dcd4d523e49421764d6ae96cd84421fa1afd2e6c6784223d94215ee82b342271d0371831cfc4228f354c178a1444228ed4a820449954226fda9966a1699422382267355f846421e4fc2bd8d497342156b36fab40d90420b484422630cb141feeab42529182041ee9244baa3815c41d99084ad7b287c41c10f4556e3a1f4419f7f10b0c711eb,
  0x419b02057843b41541b54722055702a241c6eaf6a741ebf641d3731b4e4554c741db8984718c439641e0c2331ba0b0bc41e1db1108a5981341e0d89a0d509b8041dc5b30c2bf113241d563396d9f367241ccfc5cd867a0f241c1a9048799712d41b355994eb3473e41a2f9b31773b2314190a1c747dd13c24179e55a1f5373124161c559a5e8e86f4145482a3415dee04125ef646449e4b641031899b202599840db599950316b8940aefb5342ab7542407a0fd3cc490531403cfb95bb9dcc0c3ff0000000000000403d279e51208c8a407aafecd09c2d3c40b057aebe1c0f9040de17afc629668f410630a71ad671ca412b45774b9584f1414cb1f552ce4554416a5bb18d29c04d4185724e27b7c85d419f436d3000000041b497d93cdde2b541c8b0b972c577b741db17f2336f3f2a41eb5599a45968e241f97269463dc3f44205ec2f642ea8c4421184295c669034421a00aec2030b6f4221f2d1d879ab0142270e271cbfcce3422b8e6bff299a1a422ea152aa102b4d422fa091d28c6401422e47e00f45a1a4422acfcd8c78a9694225e01ffa695e0842205d84895ada5d42164d59ab4ab008420b6d89b52ac50741fe0bb59c391ba241ecc06b25caa9d941d74a9ed949f3fc41be24c587909911419b02057843b415,
  0x41965d5a8737cb9c41b0e2b5ebbe032141c16572c9726ce141cc2f693aaa17a441d300a10f37fa2141d5f8fc72da6a3b41d62dcdd6b55fa241d3c3299a8b315941cf4ee861315c4141c62365469b467f41bc00c05c645ca341afaf79f363261441a002a8412f2688418cceb0472b9b194176f44ae2b78382416015380168ea9c41439ef5b6301d8541248f6d63a0e7f9410229fc8993fc1c40da5ae8d50c038240ae327fe581edc64079a7c2e217de3e403cc665b03286213ff0000000000000403cfb95bb9dcc0c407a67e1b431457940b01d2aaa722e1440dd9a6a4224b4f14105cdd9ebdfd9f4412acc0a39229f0e414c3a80fccd3c754169fd50c991b9db41853868cfb59cef419f14354f9cc68941b497d93cdde2b541c8de5cac00000041db85d896f9d8ec41ec0b62e390136341fa6852f2f513ae42070c2c992141c84212b0045a072913421c342fa266bdb74223d514288c1aa7422a0286bece6cca422fd1bea61e3acc423226bd7f54fc3e42334c80b79dbeeb423318c4b367bc7342318d69ed769d4e422de33a2c43c08342277b5f318364654220f09015e5eeca421649f472ea68fe420a7f733914490b41fc1730ded8505d41ea0a699206e3c241d474c32ea66cce41b9b209b4a6b6da41965d5a8737cb9c,
  0x4191e04e23c7150e41a9d1e1a852c42841b96441dc29c4dd41c3970eaf0caebe41c9182fd65bfccd41cb7d58182aad3b41ca34ca0c9cd69641c5fa2d79bf9e1141c0520f39b3633341b58ac1d472bb8241a94d6a2784d8c6419a6d70605255ff41887b47b912fd49417405c34d4628f4415cb7c009f9de834141e2a9edd03fb2412317ad82403045410126007881af4540d93fed939e080140ad4f150024263f40792faeb0153521403c87dafcd266fd3ff0000000000000403cc665b0328621407a0fd3cc49053140afa8d039f9f65840dcfada03d6211e41054bb86493d332412a246790bd052a414b89e9d332fcad416962348f653fdf4184c607b4554fa0419e87e0483de37d41b4532d6a7ebbb541c8b0b972c577b741db85d896f9d8ec41ec48dcbe00000041fae639b4a3575e4207bf02008306624213817452228ae4421ddfc7a3d2edab42255b638ad16516422c88a4efe6f5024231d1e1aa936b3d4234cf21419a179e4236b57950e70a28423723746bc4deb04235faf8630f6d9442336cff56639665422fda38b4a7f619422821c175bd08fe4220ceea5bd9b519421560f5abf935cb420898923091f94f41f94273853e46e241e6b4e84ae5f91741d14ffe5bedeef341b52015b843b7c34191e04e23c7150e,
  0x418b919303edab1d41a3013363ce91d041b1ccad906f6b1d41ba178d2b1e327241bfaa08e80e67d241c0613306d80aea41bd6492fa78acab41b71bec37c3c9b041b004586f26ea3141a3a198787799fe419548cc63bcd556418460d3c944ceb54171295c729fedc0415943af2ccf4aa241401adbfe7a8dc441218d7f91745bbb41000f832d63b6a340d80ac7864aab4040ac51f01c3b19da4078a796df00ba73403c3fb780c4f5833ff0000000000000403c87dafcd266fd4079a7c2e217de3e40aefb5342ab754240dc3a1f095b6a8e4104ab9f7d989f0e412950e35d583437414aa33ef944b54041688d96e05bae0b41841df38eea8e37419da25a2599952041b3cc01c032a05641c8296cfaada1c141db17f2336f3f2a41ec0b62e390136341fae639b4a3575e4207fba5d67000004213ed2010b38ad5421eead0b66c376042266e02b0edd683422e776ae12b5ca54233620f47abce1942371c12ae62d3d14239d01dae29e6b1423afeeeddbb22cf423a680249fa13e142381eaa8267f332423486ed4356b52942303a6268e8c4744227bdc7889b186e421ff8577ee344b24213ad026374fdb14205edebe4f3c48241f5d6ace12b9e9f41e30dd490545e1a41cc3996e160387b41b0be029af9068d418b919303edab1d,
  0x41847e8b39871701419ae90cb0d676f741a7f193a7f1ce8a41b0a029fe8e7f7c41b30e28aaee72f941b28e013440137041af3702d803e80c41a6e7cc8e0f9afd419d7bd58633932b4190adb32166f3e04180937a6ad1b9ff416cdaf286bbe62c4155ded6b6b4fa08413c9e8369a1d6a3411fed115a40e21440fdd34502676f3840d6bdd6a5b658ec40ab3c0efb23184440780f7b01e39812403bedb0defaf6613ff0000000000000403c3fb780c4f58340792faeb015352140ae327fe581edc640db599950316b894103ef3f8f6819244128546ff60e278641498a7f4692ee0a416783e13ed7ef844183443f9e1adf11419c6a058144ec1541b3069798c88a5941c74d3b97ee1a0941da407093b9f61c41eb5599a45968e241fa6852f2f513ae4207bf02008306624213ed2010b38ad5421f459e838800004226fbcf55b6b515422fae45b26313df42347dd4d3044e564238e37c798f0fd9423c623246d24f85423e61ffa1262a6e423e810c6f1ef46c423cb0b8db715f8142393c46f92831ef4234b5a3604863c0422f9d91e71fcf2242265b04a7add820421d2204f7e23f8742115e8f884cf9454202c5ab37dcd3aa41f22502f595e04d41dec1e74a2138a541c625dbc826124041a99098db32243741847e8b39871701,
  0x417d5a419476d30d41924eaeee53c05b419edd10e49f0d1d41a43d6f1d29e60b41a5d550bd24186d41a3ee52d2db7eb9419f4b79848e8eda419552e65b0ac67a41895623b654d4b8417a46b5c6b14db44167bda2bd669500415298e99fe125fa41390f0f07140953411cb1467613c87d40fb6f6d2e4887da40d55bbae827907540aa0e917502bac94077675a90af7e80403b916ed68964ec3ff0000000000000403bedb0defaf6614078a796df00ba7340ad4f150024263f40da5ae8d50c038241031899b202599841273294fe04db51414844873570c3aa41664a924de3ced641823e2b57819d57419ae7829d19c5e641b20919650eafeb41c623d7db574ffa41d907b0197b9f1241ea2f461b281ffc41f97269463dc3f442070c2c992141c84213817452228ae4421eead0b66c37604226fbcf55b6b51542300c258d9a0000423511099cebdef6423a03757bd55719423e38c78709ba4e424083c9b6a6e3244240f88db5b6eca542406221c2913b0f423dad4b23b9a4f242392bc69f21e8e44233f1bf873cfd8c422d6eb41c4f19c9422423f963706f1842196d192c0e9929420d6667a907ed3441fed7006426387041ecf508f7172ac041d7dc811cbc0fd441c0b7be7bd6271a41a2ca0460636dd6417d5a419476d30d,
  0x41743ad7fac66d1d4187e823af98a7534193083af94b25c241977e6967b376bc4197c25f93e50c4a41943e42a6d056de418d83c665c344104182905cd416521b417438181c1ee8bb4163101182257389414f00864f36b59541359649534e17964119738fd3ace3dc40f8fa96583ca05c40d3e754409f50ec40a8cabbbbb5dbe84076af34e0f1ab45403b2a892946f4353ff0000000000000403b916ed68964ec40780f7b01e3981240ac51f01c3b19da40d93fed939e0801410229fc8993fc1c4125ef646449e4b64146d6fa958a74f84164e81ca8048de3418111fb294950704199256256c7ea4641b0db5a7d849b1c41c4b786d60a856041d779add23b7afb41e8a4d9467fff6b41f80fe231be5dd44205ec2f642ea8c44212b0045a072913421ddfc7a3d2edab42266e02b0edd683422fae45b26313df423511099cebdef6423a65fd7fa80000423f2e1d150ad99442415b818a8fa178424236153307c8f14241fe9470c4d6ca4240ba610e964e94423d381ac60825ec4237ed9bbb0a39a9423253dbd8343980422a2c900a326c23422159e330a1c65842153dae370134c84207d69b97f4b61741f84a938b101e8f41e62cc1ef99c60241d1c758dcbfceb741b841b4930f7666419a9027a6a99d7941743ad7fac66d1d,
  0x416acee42d663502417debb4824e3ffc41866b2d4994ecb24189f1ce81c0971d41887d1133e8697341835fcd79b90703417a132a85b72483416e1139132fe7d7415dc562ea808a1b414942f5f6e7622a4132425c32e3f0b841163fe95f22841040f67c2ffee90f5040d263c29d81a10040a771f9171d182c4075e7091bcc3f91403ab884ef7022833ff0000000000000403b2a892946f4354077675a90af7e8040ab3c0efb23184440d80ac7864aab40410126007881af4541248f6d63a0e7f94145482a3415dee0416363bf7ce7fe44417f8d928e5a500f41972fc77f2d26cf41af0d0b6121d06341c314a602089e4941d5a566b3b6576c41e6c6b5b3228fea41f650e7cf2708f542046d62d5e4022d421184295c669034421c342fa266bdb742255b638ad16516422e776ae12b5ca542347dd4d3044e56423a03757bd55719423f2e1d150ad9944241a591ce6100004242dc84dd8c00be4243072fe9bd834e42421aeda4de705542403ad963aab8db423b5f17b0ae71244235aaf968e49ea942300f9af54b7b87422638643633badb421c9145e5afc1fa4210f8bb49ea8944420280b26833160c41f254a236c111a741e047fdc5fd6d3c41c96b8163d5a31e41b0e57b8b38b62841920a5a0345c4b2416acee42d663502,
  0x41610e3bb915b3404171ea842264e61441792b7fb99933c2417b2fc637bddf724177d3f6683e0d7a417166c86388de30416577dc2161d63e4156813a013f5aad41440e0495bcd547412e40a33a479d8b411322238edf0ff940f3fbf07143cd5140d0d465e68cb98f40a605df37641a6c40750ed62ffd3d2a403a3ad12a1da1603ff0000000000000403ab884ef7022834076af34e0f1ab4540aa0e917502bac940d6bdd6a5b658ec41000f832d63b6a3412317ad8240304541439ef5b6301d854161c559a5e8e86f417cc89f7026471c419513f9c1f382f141ac297bd8c16b9e41c14918d454c5b341d39c0fd8ca88f341e4a83bea0e194641f4495ec072b72a4202a26a41ed84cc42100dcd4d523e49421a00aec2030b6f4223d514288c1aa7422c88a4efe6f5024233620f47abce194238e37c798f0fd9423e38c78709ba4e42415b818a8fa1784242dc84dd8c00be424362605c0100004242d4cfc412f1e34241472cba3d3a5a423de89b70e791d34238612a6305e1224232ad45f24d00be422ad294b5b79f094221fe01ebc3face4216738a271779654209e9fa4cc09adf41fb77917892e43141ea79e1e370be0e41d6e5aec82ba0f441c16a9afbb5a32541a693035a756739418783cd6d246dfa41610e3bb915b340,
  0x4154cec132a9226341647dc756bf3a8d416ade5ee0e00fe4416af2cfc429fa9d4165cd69d3c708d7415d30d3fa3ece4041505e8dcaca2839413ee335982f7d7d4128777170ff9cd8411025a95cad533c40f181c14cab7c1940ce79bbf35daab540a48832438f09fd4074269abe0d12a44039b0c25315c2cd3ff0000000000000403a3ad12a1da1604075e7091bcc3f9140a8cabbbbb5dbe840d55bbae827907540fdd34502676f3841218d7f91745bbb4141e2a9edd03fb2416015380168ea9c4179e55a1f5373124192dfedd9d7bcb141a9216a0c54e10641bec74a861f3a7c41d1703342137edc41e25ead9da91f5241f20fa2cd94311b4200a0e691fff2d4420cc0669d1846ce421764d6ae96cd844221f2d1d879ab01422a0286bece6cca4231d1e1aa936b3d42371c12ae62d3d1423c623246d24f85424083c9b6a6e324424236153307c8f14243072fe9bd834e4242d4cfc412f1e34241a4066c1c0000423f414ba7b26c5d423a265d378556ad4234a0c829455de4422e9e39efd69370422551d71aff119b421bc2bb6518c08a4210d3547e794c934202e18b69286a3041f378c3d8d5121e41e2467a87ab809441cecca40fe3382e41b6d767fa9355c6419ce23f98241115417d5ef30d676d864154cec132a92263,
  0x41484c4f30ef33eb4156555dcd66d369415b313edbf1fa8441592cdc6d5c64514152aba30a0e5d594146b996b7755c5a4136f0371625220d41233c9a72486e29410aaa8474f1f55e40ee2b52a33dcde240cb42154be8b65b40a2fae9d86f689b40732e54fb9d675f4039198c8b8307c83ff00000000000004039b0c25315c2cd40750ed62ffd3d2a40a771f9171d182c40d3e754409f50ec40fb6f6d2e4887da411fed115a40e21441401adbfe7a8dc4415cb7c009f9de834176f44ae2b783824190a1c747dd13c241a60a7a4160709d41bae68efba1147f41ce697c971d2ec841dffff4ab80a3cc41ef7644190c85d741fcfff5bb6c94714209210b6afb2c114214848f157fb5ee421fa1afd2e6c67842270e271cbfcce3422fd1bea61e3acc4234cf21419a179e4239d01dae29e6b1423e61ffa1262a6e4240f88db5b6eca54241fe9470c4d6ca42421aeda4de70554241472cba3d3a5a423f414ba7b26c5d423ac3e66f1000004235abc8e7ca460242308f8df16db7554227d60d08812c7b42201bf45dd1819f4214606f8d11c047420803a0e443e71641fa383777df139141ea540c8f959eea41d813b51173442741c3c80095e29a9841ac9fee527fd2104191aae5ad254eb941718c376a87a61b41484c4f30ef33eb,
  0x413b1b0baa80c1284147226b289d22f9414a00394f2ad6e4414610ed514f2b5e413dc102fb00c21741304c025434aa72411d3e8c841e5a994105759ffe8241d540e97f662d3f1b2240c80a1746421b6340a16037401e06884072260288dedf5c4038743bde58000c3ff00000000000004039198c8b8307c84074269abe0d12a440a605df37641a6c40d263c29d81a10040f8fa96583ca05c411cb1467613c87d413c9e8369a1d6a3415943af2ccf4aa2417405c34d4628f4418cceb0472b9b1941a2f9b31773b23141b70d0b5606bb8741c9f81ff8f0c2b741db4313cad7a10541eac5e1c4bfbcfd41f8ad83c759d38a42056895f18fe88842118539dec7489b421b1ada0a117b2f4223d94215ee82b3422b8e6bff299a1a423226bd7f54fc3e4236b57950e70a28423afeeeddbb22cf423e810c6f1ef46c42406221c2913b0f4240ba610e964e9442403ad963aab8db423de89b70e791d3423a265d378556ad4235abc8e7ca46024230ff825815000042293135e0815fed422198b6ae52cae042171ae1d577b570420c69f8dca0c9df42004a6298bbffd741f1518f810beb5541e0f1cac20a98d541ce37642a0ce11a41b838440a9fecc241a11b46bf5787774184a02d762f858b4164052b80af5e44413b1b0baa80c128,
  0x412cd1b9bdbae0714136b474fa949ce5413764404d49380141320c093cfda2ad4125e6b099ffe7f7411553657dd057b04100be1189f05ccf40e50f9feff38f5340c4da810666d5cd409f751a8f538d3840710da02fbb9ff34037bfa9c41ab0403ff00000000000004038743bde58000c40732e54fb9d675f40a48832438f09fd40d0d465e68cb98f40f67c2ffee90f504119738fd3ace3dc41390f0f071409534155ded6b6b4fa084171295c729fedc041887b47b912fd4941a002a8412f268841b355994eb3473e41c5ae2af866fdcd41d6ae324e50cff741e638e3343db14e41f475a8bcd7b6084201bfc9681728b3420d15b12087fb3e42168cbb28d120ce42209212dca05a4742271d0371831cfc422ea152aa102b4d42334c80b79dbeeb423723746bc4deb0423a680249fa13e1423cb0b8db715f81423dad4b23b9a4f2423d381ac60825ec423b5f17b0ae71244238612a6305e1224234a0c829455de442308f8df16db75542293135e0815fed42221e81d06e0000421896c49b0c3514420f63b56c2e40824202c7836b98ac1941f4f7837d23dd9b41e5b7ebcafdfbeb41d4b7d3a01b8a3941c205b24d0b099a41ac3412c0fb3662419374f9f5c173624176ed2aa8d709134155c2457023c106412cd1b9bdbae071,
  0x411d1fcc8467ec52412508780e04408d4123b304697a6779411b5b63dc338aec410d82b2060924b840f924b29bfd821340e0eb6ccc917d2f40c1bc91306d6520409c19548adfcd11406fca52fb9d00514036fa6ea162d0f03ff00000000000004037bfa9c41ab0404072260288dedf5c40a2fae9d86f689b40ce79bbf35daab540f3fbf07143cd5141163fe95f22841041359649534e1796415298e99fe125fa416cdaf286bbe62c418460d3c944ceb5419a6d70605255ff41afaf79f363261441c1a9048799712d41d2637888ce414d41e1f4514c49aef141f07dfcbe4b0bce41fc94e999b2f3bf42076af12830328342122d4cb3b64c6b421ac6bd0631da094222bd514961e89f4228f354c178a144422fa091d28c6401423318c4b367bc734235faf8630f6d9442381eaa8267f33242393c46f92831ef42392bc69f21e8e44237ed9bbb0a39a94235aaf968e49ea94232ad45f24d00be422e9e39efd693704227d60d08812c7b422198b6ae52cae0421896c49b0c35144210389178c40000420425c53de6096841f7790f0af8bf7a41e988fe80b8d8f341d9ca0a5c59b70041c800563838aa1a41b46194fa1d7f78419f27386edf2703418500e47c83ef91416832e36226f1ba414677978355ff22411d1fcc8467ec52,
  0x410be2624c03c2b741124e94244e652e410edce3baff025141030c88f02a000d40f1fadce2d5a61940da42e956aa7c2840bd740b08d1cb894098b34a4ff880d1406d59303b454d63403622cd337f0fe83ff00000000000004036fa6ea162d0f040710da02fbb9ff340a16037401e068840cb42154be8b65b40f181c14cab7c19411322238edf0ff94132425c32e3f0b8414f00864f36b5954167bda2bd6695004180937a6ad1b9ff419548cc63bcd55641a94d6a2784d8c641bc00c05c645ca341ccfc5cd867a0f241dc2b4bda73949f41e9c8f563f5914a41f64ab2ec7fbf6642023e460983ce2c420c522c317d639e4214e23bf6ae761e421d4c78a3600ae7422392a27e3daed84228ed4a82044995422e47e00f45a1a442318d69ed769d4e42336cff56639665423486ed4356b5294234b5a3604863c04233f1bf873cfd8c423253dbd834398042300f9af54b7b87422ad294b5b79f09422551d71aff119b42201bf45dd1819f42171ae1d577b570420f63b56c2e4082420425c53de6096841f85db67780000041eba8e7d15f2e9541dd566f3a65e3fe41cce829b6a6ec6041ba4325eb58f47941a5c85238a728a9419044ec4c652da74175732e76f7d3cb41582d07b8e15b6a4135f7e4f85e1304410be2624c03c2b7,
  0x40f9319619ebddcd40fdc5d97da2b67a40f64ed01c7cdad440e818620a2d938540d37e77b095a8a840b7ba3422815912409549fda6c07525406ac7c5735a6f90403536948017480f3ff0000000000000403622cd337f0fe8406fca52fb9d0051409f751a8f538d3840c80a1746421b6340ee2b52a33dcde2411025a95cad533c412e40a33a479d8b414942f5f6e7622a4163101182257389417a46b5c6b14db44190adb32166f3e041a3a198787799fe41b58ac1d472bb8241c62365469b467f41d563396d9f367241e37c66c97a5b2941f0c999f323827941fb69f421fa7e6342054119c57b188e420f58787b28823a4216036cfa3f7e01421d7ad18de0f7fd4222d665997bb93b4226fda9966a1699422acfcd8c78a969422de33a2c43c083422fda38b4a7f61942303a6268e8c474422f9d91e71fcf22422d6eb41c4f19c9422a2c900a326c23422638643633badb4221fe01ebc3face421bc2bb6518c08a4214606f8d11c047420c69f8dca0c9df4202c7836b98ac1941f7790f0af8bf7a41eba8e7d15f2e9541de9d205480000041cfadc87bb998fc41be7874e72bf42741ab0a02b65b6e894195eac7583f6abf418001888d3d1a574164a4e3ff630c644146c5c9c7bf74b94124431791f24a6840f9319619ebddcd,
  0x40e560a7cd6d575b40e674c24abedb2440dd71e37491a57540cb42ba8ad2e95e40b2610ed3a1dffd4091e573884b730d406815f5f3de59c7403432f24fb01c7a3ff0000000000000403536948017480f406d59303b454d63409c19548adfcd1140c4da810666d5cd40e97f662d3f1b22410aaa8474f1f55e4128777170ff9cd841440e0495bcd547415dc562ea808a1b417438181c1ee8bb41895623b654d4b8419d7bd58633932b41b004586f26ea3141c0520f39b3633341cf4ee861315c4141dc5b30c2bf113241e850b4588684db41f3c8c593794f3b41fe9b6f8a2ccc2842068b28a534f17c420fa9f07e251191421539e21d36d613421b3087c3da63674220a66fd98c8428422382267355f8464225e01ffa695e0842277b5f31836465422821c175bd08fe4227bdc7889b186e42265b04a7add820422423f963706f18422159e330a1c658421c9145e5afc1fa4216738a271779654210d3547e794c93420803a0e443e71642004a6298bbffd741f4f7837d23dd9b41e988fe80b8d8f341dd566f3a65e3fe41cfadc87bb998fc41c0000f1d00000041ae106747885cd6419a1274957ffbe14184a9e493c0cdca416d866b1179cb134152a29d84e62d87413420da7caf901b41118b37ca651b3440e560a7cd6d575b,
  0x40d0eefd35adebc440cf20f7a5ca427240c17e2c4dfcb73440aafdf897269fc5408d1dec262a006d4065439346944aa54033142b30a929ab3ff0000000000000403432f24fb01c7a406ac7c5735a6f904098b34a4ff880d140c1bc91306d652040e50f9feff38f534105759ffe8241d541233c9a72486e29413ee335982f7d7d4156813a013f5aad416e1139132fe7d74182905cd416521b419552e65b0ac67a41a6e7cc8e0f9afd41b71bec37c3c9b041c5fa2d79bf9e1141d3c3299a8b315941e0d89a0d509b8041eb4928c71b3b7141f508635f234a0741fee966f3bf59aa4205af0872ba3e2f420d125c83d29c434212a42213b458df4216e228c1ae3e5f421ae7c2ab338985421e4fc2bd8d497342205d84895ada5d4220f09015e5eeca4220ceea5bd9b519421ff8577ee344b2421d2204f7e23f8742196d192c0e992942153dae370134c84210f8bb49ea89444209e9fa4cc09adf4202e18b69286a3041fa383777df139141f1518f810beb5541e5b7ebcafdfbeb41d9ca0a5c59b70041cce829b6a6ec6041be7874e72bf42741ae106747885cd6419b9a59f0000000418767e24fc78944417225ad9e49ea3c415960b472c35b9f413f5e2463a762ac4120984450d72b8340fc5973d26a7c8340d0eefd35adebc4,
  0x40b8da0651478bed40b3943fa410b2bc40a25666a2b58de74086a2e4f1234b284062504ce28969724031d5224aae2ee13ff00000000000004033142b30a929ab406815f5f3de59c7409549fda6c0752540bd740b08d1cb8940e0eb6ccc917d2f4100be1189f05ccf411d3e8c841e5a994136f0371625220d41505e8dcaca2839416577dc2161d63e417a132a85b72483418d83c665c34410419f4b79848e8eda41af3702d803e80c41bd6492fa78acab41ca34ca0c9cd69641d62dcdd6b55fa241e1db1108a5981341eb661f9a1d484f41f4106102f5f0f441fc156ed1d817ee4202cdf3e532a40e42081d87da6589f2420da335450fd07b421176a9840eb2994213be3bff94feb142156b36fab40d9042164d59ab4ab008421649f472ea68fe421560f5abf935cb4213ad026374fdb142115e8f884cf945420d6667a907ed344207d69b97f4b617420280b26833160c41fb77917892e43141f378c3d8d5121e41ea540c8f959eea41e0f1cac20a98d541d4b7d3a01b8a3941c800563838aa1a41ba4325eb58f47941ab0a02b65b6e89419a1274957ffbe1418767e24fc7894441736a5780000000415d774f53aa64d241442c8d1c9c8c3441286d478d3655d9410954242a57926740e535ef9c676c4c40b8da0651478bed,
  0x40a0b92cf02815134095f57579831cee408073fb9fb966a4405e7713ada6991640306e825da8fc2b3ff00000000000004031d5224aae2ee14065439346944aa54091e573884b730d40b7ba342281591240da42e956aa7c2840f924b29bfd8213411553657dd057b041304c025434aa724146b996b7755c5a415d30d3fa3ece40417166c86388de3041835fcd79b9070341943e42a6d056de41a3ee52d2db7eb941b28e013440137041c0613306d80aea41cb7d58182aad3b41d5f8fc72da6a3b41e0c2331ba0b0bc41e86dfca77a028a41f109a7b6255ffd41f6c38b195cba2e41fd28c9ffb861e54201eb136fef6459420523f8d965ad5f4207f490483230d5420a144a245da2ca420b484422630cb1420b6d89b52ac507420a7f733914490b420898923091f94f4205edebe4f3c4824202c5ab37dcd3aa41fed7006426387041f84a938b101e8f41f254a236c111a741ea79e1e370be0e41e2467a87ab809441d813b51173442741ce37642a0ce11a41c205b24d0b099a41b46194fa1d7f7841a5c85238a728a94195eac7583f6abf4184a9e493c0cdca417225ad9e49ea3c415d774f53aa64d24145e4da80000000412d5e224b79274141116c7a578d71a040f1b6767d27321940cd186eda9a865540a0b92cf0281513,
  0x40845ae184359daa407561c709864bb3405807feab1c4274402daa2fefaae1d73ff000000000000040306e825da8fc2b4062504ce2896972408d1dec262a006d40b2610ed3a1dffd40d37e77b095a8a840f1fadce2d5a619410d82b2060924b84125e6b099ffe7f7413dc102fb00c2174152aba30a0e5d594165cd69d3c708d74177d3f6683e0d7a41887d1133e869734197c25f93e50c4a41a5d550bd24186d41b30e28aaee72f941bfaa08e80e67d241c9182fd65bfccd41d300a10f37fa2141db8984718c439641e31d7fe56d5d5e41e973643c236b0f41f0435158d7da9941f3f6caac6080d041f78dde2ea7095e41fab8991ddbc01b41fd2851970b186841fe9be6ff8d0ee341feeab42529182041fe0bb59c391ba241fc1730ded8505d41f94273853e46e241f5d6ace12b9e9f41f22502f595e04d41ecf508f7172ac041e62cc1ef99c60241e047fdc5fd6d3c41d6e5aec82ba0f441cecca40fe3382e41c3c80095e29a9841b838440a9fecc241ac3412c0fb3662419f27386edf2703419044ec4c652da7418001888d3d1a57416d866b1179cb13415960b472c35b9f41442c8d1c9c8c34412d5e224b79274141134d6c0000000040f6747b192311c440d66372c269d3e940b20a7ff0094fdf40845ae184359daa,
  0x4065f514900fe03840514c810886c6a54029ec474a2612633ff0000000000000402daa2fefaae1d7405e7713ada699164086a2e4f1234b2840aafdf897269fc540cb42ba8ad2e95e40e818620a2d938541030c88f02a000d411b5b63dc338aec41320c093cfda2ad414610ed514f2b5e41592cdc6d5c6451416af2cfc429fa9d417b2fc637bddf724189f1ce81c0971d41977e6967b376bc41a43d6f1d29e60b41b0a029fe8e7f7c41ba178d2b1e327241c3970eaf0caebe41cc2f693aaa17a441d3731b4e4554c741d9c664bce330a241e069b0aeace61b41e419ff9c76446041e7b06c5d5566c441eadfccb07ea70c41ed5bbcffb43b8741eee41fc90f04de41ef4f8831a85c6441ee9244baa3815c41ecc06b25caa9d941ea0a699206e3c241e6b4e84ae5f91741e30dd490545e1a41dec1e74a2138a541d7dc811cbc0fd441d1c758dcbfceb741c96b8163d5a31e41c16a9afbb5a32541b6d767fa9355c641ac9fee527fd21041a11b46bf578777419374f9f5c17362418500e47c83ef914175732e76f7d3cb4164a4e3ff630c644152a29d84e62d87413f5e2463a762ac41286d478d3655d941116c7a578d71a040f6747b192311c440d99ec00000000040b90feeec2fcec74093d253d9c518f24065f514900fe038,
  0x4044541bf0f8681c40255aaa002a9d593ff00000000000004029ec474a261263405807feab1c4274408073fb9fb966a440a25666a2b58de740c17e2c4dfcb73440dd71e37491a57540f64ed01c7cdad4410edce3baff02514123b304697a6779413764404d493801414a00394f2ad6e4415b313edbf1fa84416ade5ee0e00fe441792b7fb99933c241866b2d4994ecb24193083af94b25c2419edd10e49f0d1d41a7f193a7f1ce8a41b1ccad906f6b1d41b96441dc29c4dd41c16572c9726ce141c6eaf6a741ebf641cd0cf3dc690b1841d1ba58155f02a341d4d7fb287cc58641d79e7460896af941d9cd5cce93459641db2e38b83c9da441db9d08e6de2f4041db0e36159683a241d99084ad7b287c41d74a9ed949f3fc41d474c32ea66cce41d14ffe5bedeef341cc3996e160387b41c625dbc826124041c0b7be7bd6271a41b841b4930f766641b0e57b8b38b62841a693035a756739419ce23f982411154191aae5ad254eb94184a02d762f858b4176ed2aa8d70913416832e36226f1ba41582d07b8e15b6a4146c5c9c7bf74b9413420da7caf901b4120984450d72b83410954242a57926740f1b6767d27321940d66372c269d3e940b90feeec2fcec740981000000000004072af54c02549ae4044541bf0f8681c,
  0x401e768d399dc46f3ff000000000000040255aaa002a9d5940514c810886c6a5407561c709864bb34095f57579831cee40b3943fa410b2bc40cf20f7a5ca427240e674c24abedb2440fdc5d97da2b67a41124e94244e652e412508780e04408d4136b474fa949ce54147226b289d22f94156555dcd66d36941647dc756bf3a8d4171ea842264e614417debb4824e3ffc4187e823af98a75341924eaeee53c05b419ae90cb0d676f741a3013363ce91d041a9d1e1a852c42841b0e2b5ebbe032141b54722055702a241b9d913b9f40ca941be490032b338e941c11e83b1cc0bd141c2ae1bdac1a7e241c3ad91c8cee68841c403b0213d33e041c3a7c69cbade2941c2a313d06e4a6841c10f4556e3a1f441be24c58790991141b9b209b4a6b6da41b52015b843b7c341b0be029af9068d41a99098db32243741a2ca0460636dd6419a9027a6a99d7941920a5a0345c4b2418783cd6d246dfa417d5ef30d676d8641718c376a87a61b4164052b80af5e444155c2457023c106414677978355ff224135f7e4f85e13044124431791f24a6841118b37ca651b3440fc5973d26a7c8340e535ef9c676c4c40cd186eda9a865540b20a7ff0094fdf4093d253d9c518f24072af54c02549ae404c800000000000401e768d399dc46f,
  0x3ff0000000000000401e768d399dc46f4044541bf0f8681c4065f514900fe03840845ae184359daa40a0b92cf028151340b8da0651478bed40d0eefd35adebc440e560a7cd6d575b40f9319619ebddcd410be2624c03c2b7411d1fcc8467ec52412cd1b9bdbae071413b1b0baa80c12841484c4f30ef33eb4154cec132a9226341610e3bb915b340416acee42d66350241743ad7fac66d1d417d5a419476d30d41847e8b39871701418b919303edab1d4191e04e23c7150e41965d5a8737cb9c419b02057843b415419f7f10b0c711eb41a1bdee2c95a8a641a350a0a31089d641a452c78541590741a4abb8e35fffec41a452c78541590741a350a0a31089d641a1bdee2c95a8a6419f7f10b0c711eb419b02057843b41541965d5a8737cb9c4191e04e23c7150e418b919303edab1d41847e8b39871701417d5a419476d30d41743ad7fac66d1d416acee42d66350241610e3bb915b3404154cec132a9226341484c4f30ef33eb413b1b0baa80c128412cd1b9bdbae071411d1fcc8467ec52410be2624c03c2b740f9319619ebddcd40e560a7cd6d575b40d0eefd35adebc440b8da0651478bed40a0b92cf028151340845ae184359daa4065f514900fe0384044541bf0f8681c401e768d399dc46f3ff0000000000000]

/-- The coefficients for `2 ell = 59`: one number for each of the 60 values of `mp`, consisting of the doubles for the 60 values of `m`. -/
def wigner59 : List Nat := [
  0x3ff0000000000000401eb97e455b9edb4044ae9f47026304406689ae45e06cfb4085150aca88078540a17afdaee15af440ba387c8652086e40d2098ece6251a240e6fe411ef46a3640fb5e0b477b4cf1410e98fed19002014120250a29b0bd064130250a29b0bd06413eb2a139350562414bd27cf3b8c1c24158184170cd3ee14163fa72879d8d5c416fc614af17b86041784481bf63d3c44181d304260e98be4189351453c893cf41912d084dd673d3419692d530df3e62419ca18bc2ea6cc341a1886972625d8241a4bec2b57e611e41a7b9164a3913ec41aa3a0ce57f247d41ac099f2c2e804e41acfcffefa33d6b41acfcffefa33d6b41ac099f2c2e804e41aa3a0ce57f247d41a7b9164a3913ec41a4bec2b57e611e41a1886972625d82419ca18bc2ea6cc3419692d530df3e6241912d084dd673d34189351453c893cf4181d304260e98be41784481bf63d3c4416fc614af17b8604163fa72879d8d5c4158184170cd3ee1414bd27cf3b8c1c2413eb2a1393505624130250a29b0bd064120250a29b0bd06410e98fed190020140fb5e0b477b4cf140e6fe411ef46a3640d2098ece6251a240ba387c8652086e40a17afdaee15af44085150aca880785406689ae45e06cfb4044ae9f47026304401eb97e455b9edb3ff0000000000000,
  0x401eb97e455b9edb404d00000000000040732f4532a6621c40948a0a0795f19740b2de9dabcda4b040ceb9058cb5625340e69d87a40584d240fe870342ec4500411315527a29c116412644aecb51e5a94138661602834a60414938e9479b5f3a4158b2646b72cd3e4166fadcb2cd88c941745fe350848dc2418140b62f0b91b5418bf5d39c1346364195b793cf6f44ab41a03118f110e98141a7348a85eda8df41afff29f8f56cd741b53e39e92621e741bb2f24fdf83bfd41c0c603e569d8b541c3f8fcdd64362241c6f4eb0c9ff2ab41c97ad9d3809c7741cb50c25e83456741cc49f65fe6739b41cc4dfd33a27e7e41cb5c74c2faf1be41c98d2098af1e1841c70c23ffbec28f41c4133741ca2db341c0e1436b2a508d41bb6418f51bb7f441b56ecc16eacdcb41b029dea4d8c9b941a77aabcbcbd4a141a06898ce70bb1941960b8398d4fa07418c6f320b3ceb3a4181949c3a3580bb4174cec132a92263416786c9e30fc6b141595ae1fdccc72a4149fa31232b2032413938e9479b5f3a41271ed5d6f9174b4113ead87f7066834100087dda12018440e7f299b26697f340d0701572cdfdc540b47b590878ec374096c1f125dbb1214075f514900fe03840519ae4068085ef40258a68a4a8d9f33ff0000000000000401eb97e455b9edb,
  0x4044ae9f4702630440732f4532a6621c4098f0000000000040ba38b451cad94240d7a6e77dbb121140f2e5e62f804ea9410b4c1399f238bc412211bc87a1eab2413625e27c633146414953dd766edd02415b2f36db687cda416b843b8cd8cccd417a5eb911a5199a418800dce5c40bff4194cf1d090fe3f541a1385ff6c2f6f541ab422b3deae36641b4aafc88ce096241be1140b01ef27e41c501c339b9307a41cc390a20d24e5a41d23e924143890841d6b7435b4326db41db411015232f2f41df866496084cb541e195ae04bdd1cf41e2ed0d500dca8f41e3a7c69cbade2941e3b2feb5f7271d41e30d9b0ced437641e1c86e94992de641e00377850e476f41dbd19600eb933541d74c8d7acb28e041d2cea1796f4b2d41cd3f278909d9e141c5e3ccb6c47cdb41bf8405cf563f2241b5ccc49b2ed48941acf24c07681bda41a26be25610ac7b419670c761baaffd418a1df0527c2e59417cfaa6bdffab29416e94d38e2c3bb7415e9a9f95580445414cf17535b341aa4139c299caaa47e64125778028e33bea4110a4be52162d1740f7d17acae891fb40df20f7a5ca427240c250877cbb483c40a3045381e9c4b14080e766ac5e042b405876d9b85a0f96402a2744ce9674f43ff000000000000040258a68a4a8d9f34044ae9f47026304,
  0x406689ae45e06cfb40948a0a0795f19740ba38b451cad94240db12000000000040f7f7261acbcc9b4112c9862e32aaf3412a9d7e16c7c782414145bc80a6275b4154bf7095410dee41673e00aefffd6d41786d2aba505105418832e36226f1ba4196afb52c04829e41a43100e56608cd41b11b46bf57877741bba774311a029441c55dbf64025e5a41cf9c3ca89e739741d66b149135785141de85b5393c10fc41e3f6bdccdb79f341e91d03e87589d341ee6653321fe5e241f1b72b5724d96041f3e38e7ac6baec41f584086b1683c841f66ee93726465f41f68bd7bca8185c41f5d7e36276879441f465ff62012d1941f25bcc3e9aa89641efd6d882c3aa7541ea9784200e83f541e56172eafd70dd41e08a1dbe7852d241d89a208a1a654841d193996e8df8cd41c819c56a9f0de341bfacaafbad9db141b3ec1dbcff361b41a7f2c1640baece419b750708e09049418df54c3855f274417f067550501bcf416e66e8bc346896415c158b21aa9449414858c4f9e524954133b304697a6779411d8c869e379b3641045d3c302bd69c40e98000bffffd2d40cc90d37442817f40ac02d0dbc0c544408744a4b2972ea1405f0630ee1ee8d6402deeea11683f493ff0000000000000402a2744ce9674f440519ae4068085ef406689ae45e06cfb,
  0x4085150aca88078540b2de9dabcda4b040d7a6e77dbb121140f7f7261acbcc9b4114d0fc0000000041300135e815475141463a91fb39ff7f415c4645b65b80f74170a2a03fd15cc741823f3a3ccc0c944192c4c8a818d95141a23086887b088941b0ac7b5270c7d341bd016ca13e154a41c800a82a86fb8641d2f069be85809f41dc8d41f9382b3741e497ae91ad1e0041ec75b5d3b509c641f2dd325b5cb65541f802905db7dc9441fd5d3dcbf58c3f420143d1210664e2420387cf2d852ad14205431a58e57fd1420648530a16aa0842067bb73974b2c44205d7e36276879442046ebb82f8561342026646da47e20141ffe47acfafcc0241fa9784200e83f541f55227d790bd9241f06daacac3c0ef41e84fe221d6a9f941e14284d2b446a141d77cd7b0e313b441ce9877e4c8b83441c30c0c689f463641b6a104f5280d7341a99a0da15b3b5e419b84b3262410d5418c05f89bfa27de417af2cfc429fa9d41686035ba3829764154a4165e84bf6c41404471ba76832e4127b11d1cceaabc410f96d17bbe38fb40f30c88f02a000d40d4720be81e2f0640b316165f4e940a408df1ecb2b395a94062a7f0900e3230403095479c7e65803ff0000000000000402deeea11683f49405876d9b85a0f964075f514900fe0384085150aca880785,
  0x40a17afdaee15af440ceb9058cb5625340f2e5e62f804ea94112c9862e32aaf341300135e8154751414820c70000000041606ba3e0000000417475cf989fd186418792e9baa1b0fe41994ec4e89d637541a97722bf12a58d41b8219445d6ce4441c59e14d3e5c37241d25d9595e3958441ddac00e0d3e7e441e6d767fa9355c641f0c9750024e08d41f797fe43e88ee141ffbfe14119dcdf420479cead4fd46842095667d8344568420e1a36cf87a8f542112da98c7d02c94212d7ff5caa38254213df966acf36c8421427c16ab65cdd4213a8b30bd1139f421270d9836ca53e4210a23cec8749ff420cd90cbeb4326342080a35499629fd42033e1aa04a7f2d41fd92336cf9f4e141f5cb72aed8394041eec9999a42c44141e4d0ef29709a8841dae92c43eab99841d09ad72b68f6e341c386a017e94aff41b5d550bd24186d41a7285d3d5be1dc41973b5bfe0f22a24185f7e337e409e94173802afb60212b41602b4975b2c9914148e4d962bdd1cc4131a84203aa41234116dbd78698ccdd40faab261d0799ad40db91963d72cffb40b8a87f62f91e4e40926a464534a0004065ab45922f885940320000000000003ff0000000000000403095479c7e6580405f0630ee1ee8d64080e766ac5e042b4096c1f125dbb12140a17afdaee15af4,
  0x40ba387c8652086e40e69d87a40584d2410b4c1399f238bc412a9d7e16c7c78241463a91fb39ff7f41606ba3e00000004175e4da80000000418ab640ce5edfc5419e1f471923f06141afa27622c4bc5341bf1fd5226c1fad41ccd2c66fdd049941d9386da1e1640641e4ea950726bf9e41f07c007ce780d441f8beb0a4ca47964201b83463b525eb42083fc5540459f5420fbfe14119dcdf4213e8339a4680494217ee0cbdf87a71421b98079391b036421e8a10f9c1cc10422039ff7359b05942208fa803acada642203c7840a12023421e94a4bd0c5769421ba9464522f7dd421806c9c76e158d42140881bd527853421006ce310ec6a9420896775b09db654202123bdf0a876d41f96d5b2151982141f11aaaab08a5eb41e5f8fc72da6a3b41dae92c43eab99841cf5d5d8ae2b5e741c15b38f8cf5f1c41b231c34848bf0641a202f32fb93de44190c750a943d1e6417d4a844a85628c4167d589dde744fc4151f7352d7151be4138e4d962bdd1cc411f640394bce5934101c76ebe05111e40e1c76ebe05111e40bea1c360b875504095eb1be632c59b40688db306f0d555403342e881f15cc13ff000000000000040320000000000004062a7f0900e3230408744a4b2972ea140a3045381e9c4b140b47b590878ec3740ba387c8652086e,
  0x40d2098ece6251a240fe870342ec4500412211bc87a1eab2414145bc80a6275b415c4645b65b80f7417475cf989fd186418ab640ce5edfc5419fe58fc000000041b197eed30b48b241c210f67eacd7ab41d15ef1ca15886d41df6cd3452d5a3d41ead79f206c126a41f5b7ebcafdfbeb4200b0492e0bd2f2420868bbd0e72ca1421104e5f0753c064216a93ec7f55a0b421cd89facd2e1e2422191e32277981f42247fcd872432e94226ebf033c45e824228935a83acee8f422945f1d6f094014228ef3f66599c5442279a3558b5333a42256efabaed2ec64222ab56c1e80386421f2f53473ed1364218f6361af482fa421323297b10cad1420c156ed1d817ee4203b3d2f1cc589441fa66fa7d47395541f0df407bbb450c41e488a007cba46b41d7c05b4b5f9d4241ca0dd274d4cbcf41bb086b2acfb03f41aa72ee91c100a54198501a7a6b5fa74184e80a1fcec2634170ba56eae186114158bf859e6fa7604140ca057ba846fd4124adca1beae92d4106d0ed43f285f040e6272aa2cd5ace40c275f8dd007656409971fc260a8e29406b4f8ad56cf64e403465655f122ff63ff0000000000000403342e881f15cc14065ab45922f8859408df1ecb2b395a940ac02d0dbc0c54440c250877cbb483c40d0701572cdfdc540d2098ece6251a2,
  0x40e6fe411ef46a36411315527a29c116413625e27c6331464154bf7095410dee4170a2a03fd15cc7418792e9baa1b0fe419e1f471923f06141b197eed30b48b241c2fa1dd500000041d30b49107b789841e1e29e0267d16d41ef95d0b17f154c41fa522de93f3c6a4204c3a7022d05b2420f17b5b64e799e421623d55a665790421e0a1f50c4cc6f42237183ee3c761b42280b09536197cb422c6d64a69e27c8423014b71a639a5242316b56ffe6d46c423212e28266c2ca4231f79e9647b56d42311d80a4747c0a422f3e94087256af422b528dc44e7d784226e228c1ae3e5f422258fa09e7424b421c260911b6ddae4214a46d0cfd917f420cea4f562bd137420351e05857980a41f898566615107e41edc7acc51c0e9d41e11d5cfe907c2a41d2a1d2fc3dfc0f41c329395794e4d441b28e385af508d541a0dba3a569e225418c9be1f5cd95dc41768ceace63ede14160672debf2a9f34145d73dc9613d6e412a574a717b3d35410c6361fb72601b40ead8fffd5175a940c5b9094c8c5979409cf6b710bb21f7406df0fc3e1ed32d40356c9df5e1f2da3ff0000000000000403465655f122ff640688db306f0d55540926a464534a00040b316165f4e940a40cc90d37442817f40df20f7a5ca427240e7f299b26697f340e6fe411ef46a36,
  0x40fb5e0b477b4cf1412644aecb51e5a9414953dd766edd0241673e00aefffd6d41823f3a3ccc0c9441994ec4e89d637541afa27622c4bc5341c210f67eacd7ab41d30b49107b789841e2aabc4c80000041f11d1637661a5441fd7c454a62b5934207f4f84c70338842126a279a62743f421ad941f1b282b4422299eebb61825342288985e31b8fac422edb3cd9f05a96423284538280710c42353adfbd45f277423744b4c871d27942386453240fe9d0423876f85bdce88442377b5f31836465423591cc319924f84232f5710c392f5d422fe1f1fea3f9b34229a273703e0f4b4223b26e257d1b96421ce7ad2c20741842143bc60549eade420afe346b3025cd42012238953c8efe41f4a9fb4a02d05941e7a1534cf48e5441d990250f05e09141ca1716fba9223641b90ac6643be9e741a684c0e5603cae4192e27ba24bc7fa417d60b0c37dd9e641650d224dc0d1ce414b90085f98407c41304fa0f5ffbde54111367f7f8adf0440efcd18d88f7f6a40c910155398714540a0391237117382407039123711738240365c55827df1d13ff000000000000040356c9df5e1f2da406b4f8ad56cf64e4095eb1be632c59b40b8a87f62f91e4e40d4720be81e2f0640e98000bffffd2d40f7d17acae891fb4100087dda12018440fb5e0b477b4cf1,
  0x410e98fed19002014138661602834a60415b2f36db687cda41786d2aba5051054192c4c8a818d95141a97722bf12a58d41bf1fd5226c1fad41d15ef1ca15886d41e1e29e0267d16d41f11d1637661a5441fe9d20548000004209b69814b107bf42145b3865b6d0cd421e7877505825dc42259cdd9a3d1cc7422d1d9a796954614232a79c379f2f684236c4dde1034d32423a7fcd7a7e8280423d6eb41c4f19c9423f37c28d54ac32423fa262d785e24a423ea27aa79e777e423c5a976be6fe1c4239147fee36ebba423532500ab0bdf342311c28d3b27038422a5e14698d051b422361186c894478421b25653a09e1b1421218ee26b141214206efa42b07443941fb95adfc84dd5541ef6b8e4580f22541e0e88b7e3c733841d125f21d70832f41c055c58b3a8b5f41ad1e29b279b2aa41982b61faf8bc804182948096c6be20416a46b5c6b14db44150f22b4fc80d0a4133b8e2d1b1860e41146cb6d972bb7340f2798ccc967b5040cc719e5a9bb06440a1eef9ba12323b4071698b311e50fa40373764417dc14d3ff000000000000040365c55827df1d1406df0fc3e1ed32d409971fc260a8e2940bea1c360b8755040db91963d72cffb40f30c88f02a000d41045d3c302bd69c4110a4be52162d174113ead87f706683410e98fed1900201,
  0x4120250a29b0bd06414938e9479b5f3a416b843b8cd8cccd418832e36226f1ba41a23086887b088941b8219445d6ce4441ccd2c66fdd049941df6cd3452d5a3d41ef95d0b17f154c41fd7c454a62b5934209b69814b107bf42150b1d95c000004220389178c4000042279fd14531011342304a8deca68b2e423551d71aff119b423a841a656da3b4423f6225612815fa4241b115e452601042430423cdbdd24142437f53cb6ec0d042431382b45b2eec4241d04b08dea4ac423fc0e431a7d644423b01c3349cde0b4235e977cd75d67e4230f35643daa7da4228fc6c61d7e0d44221877ac9a68b25421762a20d6fe2d8420d9f11887ca7df4201c85ef2b977cd41f432db75d2e4cf41e5a75e189a898b41d5d94f0ed4aabd41c4ae794ac1bc4e41b24b29beada9b6419e19c3bc44b6f34186e7352c2e463c4170018a891e093041545f5185aea80641375b762b362a724117c92f86245b2840f51d3332f51f3740cfd4a54594e1a240a39a43a558df0f407289ef7e83d15e40380000000000003ff000000000000040373764417dc14d4070391237117382409cf6b710bb21f740c275f8dd00765640e1c76ebe05111e40faab261d0799ad410f96d17bbe38fb411d8c869e379b364125778028e33bea41271ed5d6f9174b4120250a29b0bd06,
  0x4130250a29b0bd064158b2646b72cd3e417a5eb911a5199a4196afb52c04829e41b0ac7b5270c7d341c59e14d3e5c37241d9386da1e1640641ead79f206c126a41fa522de93f3c6a4207f4f84c70338842145b3865b6d0cd4220389178c40000422854da35260000423139dded1e661e423714490f41452c423d5087c51eb8364241ad66ee4917cd424444b824148e3142461d5b5d66f8144246fa55edf008b94246bf3718013648424575f30ae694ca42434c51499bdd10424089cc2f3214ee423b01c3349cde0b4234ffbd7a3b9839422f13737c6633bc4225dcded59ce4ba421d3721fac03d3e4212836af54de8eb4206374d265d7de741f931312d3169b741eaee79f26e866941db11359ec12bee41c97d86e6a2c73241b667ae10fc8bff41a24b29beada9b6418b979e173efd0a41731601a4d13a884158024fcdad0dc9413b29c207938ab2411b4009dd1486db40f7c92f86245b2840d1985555219a0340a5386e2e63411740739a43a558df0f4038b7e9fe0517283ff000000000000040380000000000004071698b311e50fa40a039123711738240c5b9094c8c597940e6272aa2cd5ace4101c76ebe05111e4116dbd78698ccdd4127b11d1cceaabc4133b304697a67794139c299caaa47e6413938e9479b5f3a4130250a29b0bd06,
  0x413eb2a1393505624166fadcb2cd88c9418800dce5c40bff41a43100e56608cd41bd016ca13e154a41d25d9595e3958441e4ea950726bf9e41f5b7ebcafdfbeb4204c3a7022d05b242126a279a62743f421e7877505825dc42279fd145310113423139dded1e661e4237b1bd73060000423ecfc7bab9648e4242f99ce1b2b65542462b6c5e962b6842489964b7937fe34249f1fc4d2d55d8424a0744674f1ffe4248d8b74698e8f4424692cbe3bf687442438498aab85b9f42400ebf2ef716fe4239211edb9c5d654232b08aac428057422a66b4852f71234221b080ba59aebf421674e4a53bf698420af681eff5c53941fe8ed7876bdf8541f04e808dda53f441e057cf53d9778141cea91f660cb14941bacfdbd00a7ddf41a5c0fa8315fde841904821868e389b417653447f11f1eb415bcbfff4da5e1a413f14e6aa31d683411ec4ee1e527cfe40fa754996998be240d33ed77714073240a6c739ede3343240749a8aea1331594039608d3c41fb4b3ff00000000000004038b7e9fe051728407289ef7e83d15e40a1eef9ba12323b40c910155398714540ead8fffd5175a94106d0ed43f285f0411f640394bce5934131a84203aa412341404471ba76832e414858c4f9e52495414cf17535b341aa4149fa31232b2032413eb2a139350562,
  0x414bd27cf3b8c1c241745fe350848dc24194cf1d090fe3f541b11b46bf57877741c800a82a86fb8641ddac00e0d3e7e441f07c007ce780d44200b0492e0bd2f2420f17b5b64e799e421ad941f1b282b442259cdd9a3d1cc742304a8deca68b2e423714490f41452c423ecfc7bab9648e42436d274018000042472deb6981d3eb424a354a4ed5a29d424c1c68ed664773424ca077111e6e94424bb16075da3b5e424974d4909262f842463ce979e52a174242757189335e4f423d1b5c8354cabb4235c9029a2dad87422eee91a37ff53a4224ce9b1a1bac81421a7d063fb6c394420fdb5f5daf98a242020ff284aa06a441f34435e2d77e8d41e346f3f0ee62a041d20839c9fc467e41bf69c48f6a194841a95b5fc5915b844192dbddf0a404494179a9e50f79137e415fababdb4a19904141868e0840394e412125a43ced54e840fd1977ffa6ed1f40d4da192bf7542b40a844a1dde9660940758ac7b74ca3e14039fb1339d2c7df3ff00000000000004039608d3c41fb4b40739a43a558df0f40a39a43a558df0f40cc719e5a9bb06440efcd18d88f7f6a410c6361fb72601b4124adca1beae92d4138e4d962bdd1cc4148e4d962bdd1cc4154a4165e84bf6c415c158b21aa9449415e9a9f9558044541595ae1fdccc72a414bd27cf3b8c1c2,
  0x4158184170cd3ee1418140b62f0b91b541a1385ff6c2f6f541bba774311a029441d2f069be85809f41e6d767fa9355c641f8beb0a4ca4796420868bbd0e72ca1421623d55a665790422299eebb618253422d1d9a79695461423551d71aff119b423d5087c51eb8364242f99ce1b2b65542472deb6981d3eb424ac3e66f100000424d40fafa1c9789424e4bb7ed3eae66424dbff6df1d9db2424bb6a051976a3642487ed2aa36ecb142448ae308ffb8a44240574b99ed7af04238a5aaaed72c5642319bd7f9529a424227cfb799401564421e6ecdccc5f42842125a0811d3232f4204d84eb130cbd641f63f39e26c278841e63f39e26c278841d4c67ffa5a355f41c20ba4d694f42f41ad04aab9e2361a419578c4b14cad0f417d08fcc7feac0f4161c7c1b184cdf441438107d76711c44122e3408a253d1f40ffadf4500af9bf40d6669a8cf67e1e40a9aed4fecee01040766afbdfb3f778403a887293fd6f343ff00000000000004039fb1339d2c7df40749a8aea13315940a5386e2e63411740cfd4a54594e1a240f2798ccc967b504111367f7f8adf04412a574a717b3d354140ca057ba846fd4151f7352d7151be41602b4975b2c99141686035ba382976416e66e8bc346896416e94d38e2c3bb7416786c9e30fc6b14158184170cd3ee1,
  0x4163fa72879d8d5c418bf5d39c13463641ab422b3deae36641c55dbf64025e5a41dc8d41f9382b3741f0c9750024e08d4201b83463b525eb421104e5f0753c06421e0a1f50c4cc6f42288985e31b8fac4232a79c379f2f68423a841a656da3b44241ad66ee4917cd42462b6c5e962b68424a354a4ed5a29d424d40fafa1c9789424edf0b3d310000424ed439a802ea3d424d26f94ed746ed424a1cb83d1ce54b4246282c38c7c57b4241cea3f045555b423b1935e1ddcf9c423381e50f1ad198422a8bd47ab660db42210d14274062744214a549140d87954207842aa9dec84e41f923d43096fab241e92768456aaa6a41d77a1d0d96c13041c45ba9441bb88041b052a0088f3e6e41980f867371459441802f58539427eb4163b28ae62ebb1d414571a001e138d14124951804ff5879410115a66c83cecc40d7e11bac59546840ab04313ae6d63540773b28c951d79f403b097998c4bf813ff0000000000000403a887293fd6f3440758ac7b74ca3e140a6c739ede3343240d1985555219a0340f51d3332f51f3741146cb6d972bb7341304fa0f5ffbde54145d73dc9613d6e4158bf859e6fa7604167d589dde744fc4173802afb60212b417af2cfc429fa9d417f067550501bcf417cfaa6bdffab294174cec132a922634163fa72879d8d5c,
  0x416fc614af17b8604195b793cf6f44ab41b4aafc88ce096241cf9c3ca89e739741e497ae91ad1e0041f797fe43e88ee142083fc5540459f54216a93ec7f55a0b42237183ee3c761b422edb3cd9f05a964236c4dde1034d32423f6225612815fa424444b824148e3142489964b7937fe3424c1c68ed664773424e4bb7ed3eae66424ed439a802ea3d424da584507a0000424af4b3944b1cf542472dd6c4158f394242d93c85313612423cfab9d03edab142350c38d26d1b72422cdc3c1bc5c4f54222a7b445e32d4d4216b4233e794dfa4209f66f0779313c41fbd53eba19249f41ebe521c2f0cb3241da0cc3276303e541c6939811118be941b2123efdbf5c65419a904a1ab00f054181cc5d899f177841658ce5bfb6d2214147502a635ce53541263526b899c0154102453a36f9c9e440d9469c97a0398240ac433f3f3cadf44077fb4f8ab91707403b7ed6159fadc73ff0000000000000403b097998c4bf8140766afbdfb3f77840a844a1dde9660940d33ed77714073240f7c92f86245b284117c92f86245b284133b8e2d1b1860e414b90085f98407c4160672debf2a9f34170ba56eae18611417d4a844a85628c4185f7e337e409e9418c05f89bfa27de418df54c3855f274418a1df0527c2e594181949c3a3580bb416fc614af17b860,
  0x41784481bf63d3c441a03118f110e98141be1140b01ef27e41d66b149135785141ec75b5d3b509c641ffbfe14119dcdf420fbfe14119dcdf421cd89facd2e1e242280b09536197cb423284538280710c423a7fcd7a7e82804241b115e452601042461d5b5d66f8144249f1fc4d2d55d8424ca077111e6e94424dbff6df1d9db2424d26f94ed746ed424af4b3944b1cf54247876d132c0000424363aae8b69b3c423e29a7980c42f3423622253c243e03422e9eb5a3493d7c4223f17149d451a542186cdd53b02000420c131a8d29547c41fe374f84cfde3141ee5e4799836a8d41dc682c3995710b41c8a20dd6ac486f41b3b4d7def039f2419ceb37ac03601d4183527b94a5a05741674daec1bdd569414914b94ed824c04127bdaeadc009f641036268274a65ac40da945d58e8305140ad6aaf14101b7a4078ab70ff311610403be91b364d18793ff0000000000000403b7ed6159fadc740773b28c951d79f40a9aed4fecee01040d4da192bf7542b40fa754996998be2411b4009dd1486db41375b762b362a724150f22b4fc80d0a41650d224dc0d1ce41768ceace63ede14184e80a1fcec2634190c750a943d1e641973b5bfe0f22a2419b84b3262410d5419b750708e09049419670c761baaffd418c6f320b3ceb3a41784481bf63d3c4,
  0x4181d304260e98be41a7348a85eda8df41c501c339b9307a41de85b5393c10fc41f2dd325b5cb655420479cead4fd4684213e8339a468049422191e32277981f422c6d64a69e27c842353adfbd45f277423d6eb41c4f19c942430423cdbdd2414246fa55edf008b9424a0744674f1ffe424bb16075da3b5e424bb6a051976a36424a1cb83d1ce54b42472dd6c4158f39424363aae8b69b3c423e910a93d000004236b1cbf8fba61b422fb86ddc3a92b34224d82ad920728b4219b92c31107083420dc1179762dddd420018134eaadfd741f03d31a7b8cdb841de773077e1f9d741ca765e4b2e2ac241b52e820ce847c9419f110301dd36174184b8f4b27903034168ec2411d95d0b414ab7c4b568e1524129294beb72459a41046a2235616d6840dbc7ddf7db079740ae79554dddba0540794b8dd4eee02b403c48c6001f0abf3ff0000000000000403be91b364d18794077fb4f8ab9170740ab04313ae6d63540d6669a8cf67e1e40fd1977ffa6ed1f411ec4ee1e527cfe413b29c207938ab241545f5185aea806416a46b5c6b14db4417d60b0c37dd9e6418c9be1f5cd95dc4198501a7a6b5fa741a202f32fb93de441a7285d3d5be1dc41a99a0da15b3b5e41a7f2c1640baece41a26be25610ac7b41960b8398d4fa074181d304260e98be,
  0x4189351453c893cf41afff29f8f56cd741cc390a20d24e5a41e3f6bdccdb79f341f802905db7dc9442095667d83445684217ee0cbdf87a7142247fcd872432e9423014b71a639a52423744b4c871d279423f37c28d54ac3242437f53cb6ec0d04246bf37180136484248d8b74698e8f4424974d4909262f842487ed2aa36ecb14246282c38c7c57b4242d93c85313612423e29a7980c42f34236b1cbf8fba61b42300c258d9a000042254ee8f4e1f22f421a87d50e17bfb0420eebea142211964200d4e0c562892d41f111fff9904fc641e013697cd770af41cc01514bb145d541b6743dfd3ae0aa41a079b8addd7fb34185f7a0e7d1ff9a416a601b40cdd858414c324e30a0e907412a730677468dcd4105599f125ac99040dcdede7a5484a840af6e28b9b5614e4079dba6974b7275403c9e40c8fdbe803ff0000000000000403c48c6001f0abf4078ab70ff31161040ac433f3f3cadf440d7e11bac59546840ffadf4500af9bf412125a43ced54e8413f14e6aa31d6834158024fcdad0dc94170018a891e09304182948096c6be204192e27ba24bc7fa41a0dba3a569e22541aa72ee91c100a541b231c34848bf0641b5d550bd24186d41b6a104f5280d7341b3ec1dbcff361b41acf24c07681bda41a06898ce70bb194189351453c893cf,
  0x41912d084dd673d341b53e39e92621e741d23e924143890841e91d03e87589d341fd5d3dcbf58c3f420e1a36cf87a8f5421b98079391b0364226ebf033c45e8242316b56ffe6d46c42386453240fe9d0423fa262d785e24a42431382b45b2eec424575f30ae694ca424692cbe3bf687442463ce979e52a1742448ae308ffb8a44241cea3f045555b423cfab9d03edab1423622253c243e03422fb86ddc3a92b342254ee8f4e1f22f421acdf595500000420f8513fba155dc420149abc2604b1b41f1a4ee75ad5d8b41e0b39ab504b4c841cd35d0a65acc2f41b77c63b702915b41a142ea9899f5c04187072a1e2dff12416ba2328a9d987d414d7e019686e882412b966255b06f8241062e5ed81e388640ddd75ee4d5dc6240b024203762f239407a5bbbb6354700403ce9e5ec2bda7f3ff0000000000000403c9e40c8fdbe8040794b8dd4eee02b40ad6aaf14101b7a40d9469c97a03982410115a66c83cecc4122e3408a253d1f4141868e0840394e415bcbfff4da5e1a41731601a4d13a884186e7352c2e463c41982b61faf8bc8041a684c0e5603cae41b28e385af508d541bb086b2acfb03f41c15b38f8cf5f1c41c386a017e94aff41c30c0c689f463641bfacaafbad9db141b5ccc49b2ed48941a77aabcbcbd4a141912d084dd673d3,
  0x419692d530df3e6241bb2f24fdf83bfd41d6b7435b4326db41ee6653321fe5e2420143d1210664e242112da98c7d02c9421e8a10f9c1cc104228935a83acee8f423212e28266c2ca423876f85bdce884423ea27aa79e777e4241d04b08dea4ac42434c51499bdd1042438498aab85b9f4242757189335e4f4240574b99ed7af0423b1935e1ddcf9c42350c38d26d1b72422e9eb5a3493d7c4224d82ad920728b421a87d50e17bfb0420f8513fba155dc42017132ca80000041f1eff36df855c441e116329443820841ce097e3cfc984f41b83f03f037d71a41a1debe1241a0624187e141bb526dae416cabfcad6ee028414e9551ca0fde08412c8f6d8a3597824106e62f13b1365040deaf9f3ad7851c40b083691a20df4e407acbcd8bae77a0403d2c01eb6e97633ff0000000000000403ce9e5ec2bda7f4079dba6974b727540ae79554dddba0540da945d58e830514102453a36f9c9e44124951804ff587941438107d76711c4415fababdb4a1990417653447f11f1eb418b979e173efd0a419e19c3bc44b6f341ad1e29b279b2aa41b90ac6643be9e741c329395794e4d441ca0dd274d4cbcf41cf5d5d8ae2b5e741d09ad72b68f6e341ce9877e4c8b83441c819c56a9f0de341bf8405cf563f2241b029dea4d8c9b9419692d530df3e62,
  0x419ca18bc2ea6cc341c0c603e569d8b541db411015232f2f41f1b72b5724d960420387cf2d852ad14212d7ff5caa3825422039ff7359b059422945f1d6f094014231f79e9647b56d42377b5f31836465423c5a976be6fe1c423fc0e431a7d644424089cc2f3214ee42400ebf2ef716fe423d1b5c8354cabb4238a5aaaed72c56423381e50f1ad198422cdc3c1bc5c4f54223f17149d451a54219b92c31107083420eebea14221196420149abc2604b1b41f1eff36df855c441e1377b3c00000041ce752b513c9afe41b8b637e2a3dcda41a24905be47dc10418880ce5b57996f416d7826974a42fe414f739186fad88c412d5acc1794ca1d41077f2e342bf2ab40df661f7f03c20e40b0d49897534fbc407b2bdc5fe3ef4b403d64d51e0db1c53ff0000000000000403d2c01eb6e9763407a5bbbb635470040af6e28b9b5614e40dbc7ddf7db079741036268274a65ac41263526b899c015414571a001e138d14161c7c1b184cdf44179a9e50f79137e41904821868e389b41a24b29beada9b641b24b29beada9b641c055c58b3a8b5f41ca1716fba9223641d2a1d2fc3dfc0f41d7c05b4b5f9d4241dae92c43eab99841dae92c43eab99841d77cd7b0e313b441d193996e8df8cd41c5e3ccb6c47cdb41b56ecc16eacdcb419ca18bc2ea6cc3,
  0x41a1886972625d8241c3f8fcdd64362241df866496084cb541f3e38e7ac6baec4205431a58e57fd14213df966acf36c842208fa803acada64228ef3f66599c5442311d80a4747c0a423591cc319924f84239147fee36ebba423b01c3349cde0b423b01c3349cde0b4239211edb9c5d654235c9029a2dad8742319bd7f9529a42422a8bd47ab660db4222a7b445e32d4d42186cdd53b02000420dc1179762dddd4200d4e0c562892d41f1a4ee75ad5d8b41e116329443820841ce752b513c9afe41b8de5cac00000041a27ee4173843a94188e2108f6f341e416e02964ab22e4741500a83f98f8769412df5c1ffe28f8c4107f7ce664ed93d40dff99fb360bbe940b117666533a508407b7be86c3d7dd9403d949505f8b2b83ff0000000000000403d64d51e0db1c5407acbcd8bae77a040b024203762f23940dcdede7a5484a841046a2235616d684127bdaeadc009f64147502a635ce5354163b28ae62ebb1d417d08fcc7feac0f4192dbddf0a4044941a5c0fa8315fde841b667ae10fc8bff41c4ae794ac1bc4e41d125f21d70832f41d990250f05e09141e11d5cfe907c2a41e488a007cba46b41e5f8fc72da6a3b41e4d0ef29709a8841e14284d2b446a141d89a208a1a654841cd3f278909d9e141bb6418f51bb7f441a1886972625d82,
  0x41a4bec2b57e611e41c6f4eb0c9ff2ab41e195ae04bdd1cf41f584086b1683c8420648530a16aa08421427c16ab65cdd42203c7840a1202342279a3558b5333a422f3e94087256af4232f5710c392f5d423532500ab0bdf34235e977cd75d67e4234ffbd7a3b98394232b08aac428057422eee91a37ff53a4227cfb79940156442210d14274062744216b4233e794dfa420c131a8d29547c420018134eaadfd741f111fff9904fc641e0b39ab504b4c841ce097e3cfc984f41b8b637e2a3dcda41a27ee4173843a9418902bdc0000000416e48827a14295e41503b8064e6c496412e5e3b449dec0e41084ed7e313066e40e0348fecb7599e40b14b97ee206b1a407bbbf1dda90943403dbb6d5ce3a42e3ff0000000000000403d949505f8b2b8407b2bdc5fe3ef4b40b083691a20df4e40ddd75ee4d5dc624105599f125ac9904129294beb72459a414914b94ed824c041658ce5bfb6d22141802f58539427eb419578c4b14cad0f41a95b5fc5915b8441bacfdbd00a7ddf41c97d86e6a2c73241d5d94f0ed4aabd41e0e88b7e3c733841e7a1534cf48e5441edc7acc51c0e9d41f0df407bbb450c41f11aaaab08a5eb41eec9999a42c44141e84fe221d6a9f941e08a1dbe7852d241d2cea1796f4b2d41c0e1436b2a508d41a4bec2b57e611e,
  0x41a7b9164a3913ec41c97ad9d3809c7741e2ed0d500dca8f41f66ee93726465f42067bb73974b2c44213a8b30bd1139f421e94a4bd0c576942256efabaed2ec6422b528dc44e7d78422fe1f1fea3f9b342311c28d3b270384230f35643daa7da422f13737c6633bc422a66b4852f71234224ce9b1a1bac81421e6ecdccc5f4284214a549140d87954209f66f0779313c41fe374f84cfde3141f03d31a7b8cdb841e013697cd770af41cd35d0a65acc2f41b83f03f037d71a41a24905be47dc104188e2108f6f341e416e48827a14295e41504bec00000000412e92d1e6bebb2f4108836ab625df6c40e059eff91eac9240b170fff8a9409c407bebf8d64f04c1403dd980e67d1d1a3ff0000000000000403dbb6d5ce3a42e407b7be86c3d7dd940b0d49897534fbc40deaf9f3ad7851c41062e5ed81e3886412a730677468dcd414ab7c4b568e15241674daec1bdd5694181cc5d899f177841980f867371459441ad04aab9e2361a41bf69c48f6a194841cea91f660cb14941db11359ec12bee41e5a75e189a898b41ef6b8e4580f22541f4a9fb4a02d05941f898566615107e41fa66fa7d47395541f96d5b2151982141f5cb72aed8394041f06daacac3c0ef41e56172eafd70dd41d74c8d7acb28e041c4133741ca2db341a7b9164a3913ec,
  0x41aa3a0ce57f247d41cb50c25e83456741e3a7c69cbade2941f68bd7bca8185c4205d7e362768794421270d9836ca53e421ba9464522f7dd4222ab56c1e803864226e228c1ae3e5f4229a273703e0f4b422a5e14698d051b4228fc6c61d7e0d44225dcded59ce4ba4221b080ba59aebf421a7d063fb6c39442125a0811d3232f4207842aa9dec84e41fbd53eba19249f41ee5e4799836a8d41de773077e1f9d741cc01514bb145d541b77c63b702915b41a1debe1241a062418880ce5b57996f416e02964ab22e4741503b8064e6c496412e92d1e6bebb2f410895000000000040e06cafff3d2b7940b1877e65423e7e407c0bfd6ed063fd403deeea11683f493ff0000000000000403dd980e67d1d1a407bbbf1dda9094340b117666533a50840df661f7f03c20e4106e62f13b13650412b966255b06f82414c324e30a0e9074168ec2411d95d0b4183527b94a5a057419a904a1ab00f0541b052a0088f3e6e41c20ba4d694f42f41d20839c9fc467e41e057cf53d9778141eaee79f26e866941f432db75d2e4cf41fb95adfc84dd5542012238953c8efe420351e05857980a4203b3d2f1cc58944202123bdf0a876d41fd92336cf9f4e141f55227d790bd9241ea9784200e83f541dbd19600eb933541c70c23ffbec28f41aa3a0ce57f247d,
  0x41ac099f2c2e804e41cc49f65fe6739b41e3b2feb5f7271d41f5d7e36276879442046ebb82f856134210a23cec8749ff421806c9c76e158d421f2f53473ed136422258fa09e7424b4223b26e257d1b96422361186c8944784221877ac9a68b25421d3721fac03d3e421674e4a53bf698420fdb5f5daf98a24204d84eb130cbd641f923d43096fab241ebe521c2f0cb3241dc682c3995710b41ca765e4b2e2ac241b6743dfd3ae0aa41a142ea9899f5c04187e141bb526dae416d7826974a42fe41500a83f98f8769412e5e3b449dec0e4108836ab625df6c40e06cafff3d2b7940b18f0000000000407c1bffb724490f403dfbbb6e0492323ff0000000000000403deeea11683f49407bebf8d64f04c140b14b97ee206b1a40dff99fb360bbe941077f2e342bf2ab412c8f6d8a359782414d7e019686e882416a601b40cdd8584184b8f4b2790303419ceb37ac03601d41b2123efdbf5c6541c45ba9441bb88041d4c67ffa5a355f41e346f3f0ee62a041f04e808dda53f441f931312d3169b74201c85ef2b977cd4206efa42b074439420afe346b3025cd420cea4f562bd137420c156ed1d817ee420896775b09db6542033e1aa04a7f2d41fa9784200e83f541efd6d882c3aa7541e00377850e476f41c98d2098af1e1841ac099f2c2e804e,
  0x41acfcffefa33d6b41cc4dfd33a27e7e41e30d9b0ced437641f465ff62012d1942026646da47e201420cd90cbeb4326342140881bd5278534218f6361af482fa421c260911b6ddae421ce7ad2c207418421b25653a09e1b1421762a20d6fe2d84212836af54de8eb420af681eff5c53942020ff284aa06a441f63f39e26c278841e92768456aaa6a41da0cc3276303e541c8a20dd6ac486f41b52e820ce847c941a079b8addd7fb34187072a1e2dff12416cabfcad6ee028414f739186fad88c412df5c1ffe28f8c41084ed7e313066e40e059eff91eac9240b1877e65423e7e407c1bffb724490f403e0000000000003ff0000000000000403dfbbb6e049232407c0bfd6ed063fd40b170fff8a9409c40e0348fecb7599e4107f7ce664ed93d412d5acc1794ca1d414e9551ca0fde08416ba2328a9d987d4185f7a0e7d1ff9a419f110301dd361741b3b4d7def039f241c6939811118be941d77a1d0d96c13041e63f39e26c278841f34435e2d77e8d41fe8ed7876bdf854206374d265d7de7420d9f11887ca7df421218ee26b1412142143bc60549eade4214a46d0cfd917f421323297b10cad1421006ce310ec6a942080a35499629fd41ffe47acfafcc0241f25bcc3e9aa89641e1c86e94992de641cb5c74c2faf1be41acfcffefa33d6b,
  0x41acfcffefa33d6b41cb5c74c2faf1be41e1c86e94992de641f25bcc3e9aa89641ffe47acfafcc0242080a35499629fd421006ce310ec6a9421323297b10cad14214a46d0cfd917f42143bc60549eade421218ee26b14121420d9f11887ca7df4206374d265d7de741fe8ed7876bdf8541f34435e2d77e8d41e63f39e26c278841d77a1d0d96c13041c6939811118be941b3b4d7def039f2419f110301dd36174185f7a0e7d1ff9a416ba2328a9d987d414e9551ca0fde08412d5acc1794ca1d4107f7ce664ed93d40e0348fecb7599e40b170fff8a9409c407c0bfd6ed063fd403dfbbb6e0492323ff0000000000000403e000000000000407c1bffb724490f40b1877e65423e7e40e059eff91eac9241084ed7e313066e412df5c1ffe28f8c414f739186fad88c416cabfcad6ee0284187072a1e2dff1241a079b8addd7fb341b52e820ce847c941c8a20dd6ac486f41da0cc3276303e541e92768456aaa6a41f63f39e26c278842020ff284aa06a4420af681eff5c5394212836af54de8eb421762a20d6fe2d8421b25653a09e1b1421ce7ad2c207418421c260911b6ddae4218f6361af482fa42140881bd527853420cd90cbeb4326342026646da47e20141f465ff62012d1941e30d9b0ced437641cc4dfd33a27e7e41acfcffefa33d6b,
  0x41ac099f2c2e804e41c98d2098af1e1841e00377850e476f41efd6d882c3aa7541fa9784200e83f542033e1aa04a7f2d420896775b09db65420c156ed1d817ee420cea4f562bd137420afe346b3025cd4206efa42b0744394201c85ef2b977cd41f931312d3169b741f04e808dda53f441e346f3f0ee62a041d4c67ffa5a355f41c45ba9441bb88041b2123efdbf5c65419ceb37ac03601d4184b8f4b2790303416a601b40cdd858414d7e019686e882412c8f6d8a35978241077f2e342bf2ab40dff99fb360bbe940b14b97ee206b1a407bebf8d64f04c1403deeea11683f493ff0000000000000403dfbbb6e049232407c1bffb724490f40b18f000000000040e06cafff3d2b794108836ab625df6c412e5e3b449dec0e41500a83f98f8769416d7826974a42fe4187e141bb526dae41a142ea9899f5c041b6743dfd3ae0aa41ca765e4b2e2ac241dc682c3995710b41ebe521c2f0cb3241f923d43096fab24204d84eb130cbd6420fdb5f5daf98a2421674e4a53bf698421d3721fac03d3e4221877ac9a68b25422361186c8944784223b26e257d1b96422258fa09e7424b421f2f53473ed136421806c9c76e158d4210a23cec8749ff42046ebb82f8561341f5d7e36276879441e3b2feb5f7271d41cc49f65fe6739b41ac099f2c2e804e,
  0x41aa3a0ce57f247d41c70c23ffbec28f41dbd19600eb933541ea9784200e83f541f55227d790bd9241fd92336cf9f4e14202123bdf0a876d4203b3d2f1cc5894420351e05857980a42012238953c8efe41fb95adfc84dd5541f432db75d2e4cf41eaee79f26e866941e057cf53d9778141d20839c9fc467e41c20ba4d694f42f41b052a0088f3e6e419a904a1ab00f054183527b94a5a0574168ec2411d95d0b414c324e30a0e907412b966255b06f824106e62f13b1365040df661f7f03c20e40b117666533a508407bbbf1dda90943403dd980e67d1d1a3ff0000000000000403deeea11683f49407c0bfd6ed063fd40b1877e65423e7e40e06cafff3d2b794108950000000000412e92d1e6bebb2f41503b8064e6c496416e02964ab22e47418880ce5b57996f41a1debe1241a06241b77c63b702915b41cc01514bb145d541de773077e1f9d741ee5e4799836a8d41fbd53eba19249f4207842aa9dec84e42125a0811d3232f421a7d063fb6c3944221b080ba59aebf4225dcded59ce4ba4228fc6c61d7e0d4422a5e14698d051b4229a273703e0f4b4226e228c1ae3e5f4222ab56c1e80386421ba9464522f7dd421270d9836ca53e4205d7e36276879441f68bd7bca8185c41e3a7c69cbade2941cb50c25e83456741aa3a0ce57f247d,
  0x41a7b9164a3913ec41c4133741ca2db341d74c8d7acb28e041e56172eafd70dd41f06daacac3c0ef41f5cb72aed8394041f96d5b2151982141fa66fa7d47395541f898566615107e41f4a9fb4a02d05941ef6b8e4580f22541e5a75e189a898b41db11359ec12bee41cea91f660cb14941bf69c48f6a194841ad04aab9e2361a41980f86737145944181cc5d899f177841674daec1bdd569414ab7c4b568e152412a730677468dcd41062e5ed81e388640deaf9f3ad7851c40b0d49897534fbc407b7be86c3d7dd9403dbb6d5ce3a42e3ff0000000000000403dd980e67d1d1a407bebf8d64f04c140b170fff8a9409c40e059eff91eac924108836ab625df6c412e92d1e6bebb2f41504bec00000000416e48827a14295e4188e2108f6f341e41a24905be47dc1041b83f03f037d71a41cd35d0a65acc2f41e013697cd770af41f03d31a7b8cdb841fe374f84cfde314209f66f0779313c4214a549140d8795421e6ecdccc5f4284224ce9b1a1bac81422a66b4852f7123422f13737c6633bc4230f35643daa7da42311c28d3b27038422fe1f1fea3f9b3422b528dc44e7d7842256efabaed2ec6421e94a4bd0c57694213a8b30bd1139f42067bb73974b2c441f66ee93726465f41e2ed0d500dca8f41c97ad9d3809c7741a7b9164a3913ec,
  0x41a4bec2b57e611e41c0e1436b2a508d41d2cea1796f4b2d41e08a1dbe7852d241e84fe221d6a9f941eec9999a42c44141f11aaaab08a5eb41f0df407bbb450c41edc7acc51c0e9d41e7a1534cf48e5441e0e88b7e3c733841d5d94f0ed4aabd41c97d86e6a2c73241bacfdbd00a7ddf41a95b5fc5915b84419578c4b14cad0f41802f58539427eb41658ce5bfb6d221414914b94ed824c04129294beb72459a4105599f125ac99040ddd75ee4d5dc6240b083691a20df4e407b2bdc5fe3ef4b403d949505f8b2b83ff0000000000000403dbb6d5ce3a42e407bbbf1dda9094340b14b97ee206b1a40e0348fecb7599e41084ed7e313066e412e5e3b449dec0e41503b8064e6c496416e48827a14295e418902bdc000000041a27ee4173843a941b8b637e2a3dcda41ce097e3cfc984f41e0b39ab504b4c841f111fff9904fc6420018134eaadfd7420c131a8d29547c4216b4233e794dfa42210d14274062744227cfb799401564422eee91a37ff53a4232b08aac4280574234ffbd7a3b98394235e977cd75d67e423532500ab0bdf34232f5710c392f5d422f3e94087256af42279a3558b5333a42203c7840a12023421427c16ab65cdd420648530a16aa0841f584086b1683c841e195ae04bdd1cf41c6f4eb0c9ff2ab41a4bec2b57e611e,
  0x41a1886972625d8241bb6418f51bb7f441cd3f278909d9e141d89a208a1a654841e14284d2b446a141e4d0ef29709a8841e5f8fc72da6a3b41e488a007cba46b41e11d5cfe907c2a41d990250f05e09141d125f21d70832f41c4ae794ac1bc4e41b667ae10fc8bff41a5c0fa8315fde84192dbddf0a40449417d08fcc7feac0f4163b28ae62ebb1d4147502a635ce5354127bdaeadc009f641046a2235616d6840dcdede7a5484a840b024203762f239407acbcd8bae77a0403d64d51e0db1c53ff0000000000000403d949505f8b2b8407b7be86c3d7dd940b117666533a50840dff99fb360bbe94107f7ce664ed93d412df5c1ffe28f8c41500a83f98f8769416e02964ab22e474188e2108f6f341e41a27ee4173843a941b8de5cac00000041ce752b513c9afe41e116329443820841f1a4ee75ad5d8b4200d4e0c562892d420dc1179762dddd42186cdd53b020004222a7b445e32d4d422a8bd47ab660db42319bd7f9529a424235c9029a2dad874239211edb9c5d65423b01c3349cde0b423b01c3349cde0b4239147fee36ebba423591cc319924f842311d80a4747c0a4228ef3f66599c5442208fa803acada64213df966acf36c84205431a58e57fd141f3e38e7ac6baec41df866496084cb541c3f8fcdd64362241a1886972625d82,
  0x419ca18bc2ea6cc341b56ecc16eacdcb41c5e3ccb6c47cdb41d193996e8df8cd41d77cd7b0e313b441dae92c43eab99841dae92c43eab99841d7c05b4b5f9d4241d2a1d2fc3dfc0f41ca1716fba9223641c055c58b3a8b5f41b24b29beada9b641a24b29beada9b641904821868e389b4179a9e50f79137e4161c7c1b184cdf4414571a001e138d141263526b899c01541036268274a65ac40dbc7ddf7db079740af6e28b9b5614e407a5bbbb6354700403d2c01eb6e97633ff0000000000000403d64d51e0db1c5407b2bdc5fe3ef4b40b0d49897534fbc40df661f7f03c20e41077f2e342bf2ab412d5acc1794ca1d414f739186fad88c416d7826974a42fe418880ce5b57996f41a24905be47dc1041b8b637e2a3dcda41ce752b513c9afe41e1377b3c00000041f1eff36df855c4420149abc2604b1b420eebea142211964219b92c311070834223f17149d451a5422cdc3c1bc5c4f5423381e50f1ad1984238a5aaaed72c56423d1b5c8354cabb42400ebf2ef716fe424089cc2f3214ee423fc0e431a7d644423c5a976be6fe1c42377b5f318364654231f79e9647b56d422945f1d6f09401422039ff7359b0594212d7ff5caa3825420387cf2d852ad141f1b72b5724d96041db411015232f2f41c0c603e569d8b5419ca18bc2ea6cc3,
  0x419692d530df3e6241b029dea4d8c9b941bf8405cf563f2241c819c56a9f0de341ce9877e4c8b83441d09ad72b68f6e341cf5d5d8ae2b5e741ca0dd274d4cbcf41c329395794e4d441b90ac6643be9e741ad1e29b279b2aa419e19c3bc44b6f3418b979e173efd0a417653447f11f1eb415fababdb4a199041438107d76711c44124951804ff58794102453a36f9c9e440da945d58e8305140ae79554dddba054079dba6974b7275403ce9e5ec2bda7f3ff0000000000000403d2c01eb6e9763407acbcd8bae77a040b083691a20df4e40deaf9f3ad7851c4106e62f13b13650412c8f6d8a359782414e9551ca0fde08416cabfcad6ee0284187e141bb526dae41a1debe1241a06241b83f03f037d71a41ce097e3cfc984f41e116329443820841f1eff36df855c442017132ca800000420f8513fba155dc421a87d50e17bfb04224d82ad920728b422e9eb5a3493d7c42350c38d26d1b72423b1935e1ddcf9c4240574b99ed7af04242757189335e4f42438498aab85b9f42434c51499bdd104241d04b08dea4ac423ea27aa79e777e423876f85bdce884423212e28266c2ca4228935a83acee8f421e8a10f9c1cc1042112da98c7d02c9420143d1210664e241ee6653321fe5e241d6b7435b4326db41bb2f24fdf83bfd419692d530df3e62,
  0x41912d084dd673d341a77aabcbcbd4a141b5ccc49b2ed48941bfacaafbad9db141c30c0c689f463641c386a017e94aff41c15b38f8cf5f1c41bb086b2acfb03f41b28e385af508d541a684c0e5603cae41982b61faf8bc804186e7352c2e463c41731601a4d13a88415bcbfff4da5e1a4141868e0840394e4122e3408a253d1f410115a66c83cecc40d9469c97a0398240ad6aaf14101b7a40794b8dd4eee02b403c9e40c8fdbe803ff0000000000000403ce9e5ec2bda7f407a5bbbb635470040b024203762f23940ddd75ee4d5dc6241062e5ed81e3886412b966255b06f82414d7e019686e882416ba2328a9d987d4187072a1e2dff1241a142ea9899f5c041b77c63b702915b41cd35d0a65acc2f41e0b39ab504b4c841f1a4ee75ad5d8b420149abc2604b1b420f8513fba155dc421acdf59550000042254ee8f4e1f22f422fb86ddc3a92b3423622253c243e03423cfab9d03edab14241cea3f045555b42448ae308ffb8a442463ce979e52a17424692cbe3bf6874424575f30ae694ca42431382b45b2eec423fa262d785e24a42386453240fe9d042316b56ffe6d46c4226ebf033c45e82421b98079391b036420e1a36cf87a8f541fd5d3dcbf58c3f41e91d03e87589d341d23e924143890841b53e39e92621e741912d084dd673d3,
  0x4189351453c893cf41a06898ce70bb1941acf24c07681bda41b3ec1dbcff361b41b6a104f5280d7341b5d550bd24186d41b231c34848bf0641aa72ee91c100a541a0dba3a569e2254192e27ba24bc7fa4182948096c6be204170018a891e09304158024fcdad0dc9413f14e6aa31d683412125a43ced54e840ffadf4500af9bf40d7e11bac59546840ac433f3f3cadf44078ab70ff311610403c48c6001f0abf3ff0000000000000403c9e40c8fdbe804079dba6974b727540af6e28b9b5614e40dcdede7a5484a84105599f125ac990412a730677468dcd414c324e30a0e907416a601b40cdd8584185f7a0e7d1ff9a41a079b8addd7fb341b6743dfd3ae0aa41cc01514bb145d541e013697cd770af41f111fff9904fc64200d4e0c562892d420eebea14221196421a87d50e17bfb042254ee8f4e1f22f42300c258d9a00004236b1cbf8fba61b423e29a7980c42f34242d93c853136124246282c38c7c57b42487ed2aa36ecb1424974d4909262f84248d8b74698e8f44246bf371801364842437f53cb6ec0d0423f37c28d54ac32423744b4c871d279423014b71a639a5242247fcd872432e94217ee0cbdf87a7142095667d834456841f802905db7dc9441e3f6bdccdb79f341cc390a20d24e5a41afff29f8f56cd74189351453c893cf,
  0x4181d304260e98be41960b8398d4fa0741a26be25610ac7b41a7f2c1640baece41a99a0da15b3b5e41a7285d3d5be1dc41a202f32fb93de44198501a7a6b5fa7418c9be1f5cd95dc417d60b0c37dd9e6416a46b5c6b14db441545f5185aea806413b29c207938ab2411ec4ee1e527cfe40fd1977ffa6ed1f40d6669a8cf67e1e40ab04313ae6d6354077fb4f8ab91707403be91b364d18793ff0000000000000403c48c6001f0abf40794b8dd4eee02b40ae79554dddba0540dbc7ddf7db079741046a2235616d684129294beb72459a414ab7c4b568e1524168ec2411d95d0b4184b8f4b2790303419f110301dd361741b52e820ce847c941ca765e4b2e2ac241de773077e1f9d741f03d31a7b8cdb8420018134eaadfd7420dc1179762dddd4219b92c311070834224d82ad920728b422fb86ddc3a92b34236b1cbf8fba61b423e910a93d00000424363aae8b69b3c42472dd6c4158f39424a1cb83d1ce54b424bb6a051976a36424bb16075da3b5e424a0744674f1ffe4246fa55edf008b942430423cdbdd241423d6eb41c4f19c942353adfbd45f277422c6d64a69e27c8422191e32277981f4213e8339a468049420479cead4fd46841f2dd325b5cb65541de85b5393c10fc41c501c339b9307a41a7348a85eda8df4181d304260e98be,
  0x41784481bf63d3c4418c6f320b3ceb3a419670c761baaffd419b750708e09049419b84b3262410d541973b5bfe0f22a24190c750a943d1e64184e80a1fcec26341768ceace63ede141650d224dc0d1ce4150f22b4fc80d0a41375b762b362a72411b4009dd1486db40fa754996998be240d4da192bf7542b40a9aed4fecee01040773b28c951d79f403b7ed6159fadc73ff0000000000000403be91b364d18794078ab70ff31161040ad6aaf14101b7a40da945d58e8305141036268274a65ac4127bdaeadc009f6414914b94ed824c041674daec1bdd5694183527b94a5a057419ceb37ac03601d41b3b4d7def039f241c8a20dd6ac486f41dc682c3995710b41ee5e4799836a8d41fe374f84cfde31420c131a8d29547c42186cdd53b020004223f17149d451a5422e9eb5a3493d7c423622253c243e03423e29a7980c42f3424363aae8b69b3c4247876d132c0000424af4b3944b1cf5424d26f94ed746ed424dbff6df1d9db2424ca077111e6e944249f1fc4d2d55d842461d5b5d66f8144241b115e4526010423a7fcd7a7e8280423284538280710c42280b09536197cb421cd89facd2e1e2420fbfe14119dcdf41ffbfe14119dcdf41ec75b5d3b509c641d66b149135785141be1140b01ef27e41a03118f110e98141784481bf63d3c4,
  0x416fc614af17b8604181949c3a3580bb418a1df0527c2e59418df54c3855f274418c05f89bfa27de4185f7e337e409e9417d4a844a85628c4170ba56eae186114160672debf2a9f3414b90085f98407c4133b8e2d1b1860e4117c92f86245b2840f7c92f86245b2840d33ed77714073240a844a1dde9660940766afbdfb3f778403b097998c4bf813ff0000000000000403b7ed6159fadc74077fb4f8ab9170740ac433f3f3cadf440d9469c97a039824102453a36f9c9e441263526b899c0154147502a635ce53541658ce5bfb6d2214181cc5d899f1778419a904a1ab00f0541b2123efdbf5c6541c6939811118be941da0cc3276303e541ebe521c2f0cb3241fbd53eba19249f4209f66f0779313c4216b4233e794dfa4222a7b445e32d4d422cdc3c1bc5c4f542350c38d26d1b72423cfab9d03edab14242d93c8531361242472dd6c4158f39424af4b3944b1cf5424da584507a0000424ed439a802ea3d424e4bb7ed3eae66424c1c68ed66477342489964b7937fe3424444b824148e31423f6225612815fa4236c4dde1034d32422edb3cd9f05a9642237183ee3c761b4216a93ec7f55a0b42083fc5540459f541f797fe43e88ee141e497ae91ad1e0041cf9c3ca89e739741b4aafc88ce09624195b793cf6f44ab416fc614af17b860,
  0x4163fa72879d8d5c4174cec132a92263417cfaa6bdffab29417f067550501bcf417af2cfc429fa9d4173802afb60212b4167d589dde744fc4158bf859e6fa7604145d73dc9613d6e41304fa0f5ffbde541146cb6d972bb7340f51d3332f51f3740d1985555219a0340a6c739ede3343240758ac7b74ca3e1403a887293fd6f343ff0000000000000403b097998c4bf8140773b28c951d79f40ab04313ae6d63540d7e11bac595468410115a66c83cecc4124951804ff5879414571a001e138d14163b28ae62ebb1d41802f58539427eb41980f867371459441b052a0088f3e6e41c45ba9441bb88041d77a1d0d96c13041e92768456aaa6a41f923d43096fab24207842aa9dec84e4214a549140d879542210d1427406274422a8bd47ab660db423381e50f1ad198423b1935e1ddcf9c4241cea3f045555b4246282c38c7c57b424a1cb83d1ce54b424d26f94ed746ed424ed439a802ea3d424edf0b3d310000424d40fafa1c9789424a354a4ed5a29d42462b6c5e962b684241ad66ee4917cd423a841a656da3b44232a79c379f2f6842288985e31b8fac421e0a1f50c4cc6f421104e5f0753c064201b83463b525eb41f0c9750024e08d41dc8d41f9382b3741c55dbf64025e5a41ab422b3deae366418bf5d39c1346364163fa72879d8d5c,
  0x4158184170cd3ee1416786c9e30fc6b1416e94d38e2c3bb7416e66e8bc34689641686035ba38297641602b4975b2c9914151f7352d7151be4140ca057ba846fd412a574a717b3d354111367f7f8adf0440f2798ccc967b5040cfd4a54594e1a240a5386e2e63411740749a8aea1331594039fb1339d2c7df3ff0000000000000403a887293fd6f3440766afbdfb3f77840a9aed4fecee01040d6669a8cf67e1e40ffadf4500af9bf4122e3408a253d1f41438107d76711c44161c7c1b184cdf4417d08fcc7feac0f419578c4b14cad0f41ad04aab9e2361a41c20ba4d694f42f41d4c67ffa5a355f41e63f39e26c278841f63f39e26c27884204d84eb130cbd642125a0811d3232f421e6ecdccc5f4284227cfb79940156442319bd7f9529a424238a5aaaed72c564240574b99ed7af042448ae308ffb8a442487ed2aa36ecb1424bb6a051976a36424dbff6df1d9db2424e4bb7ed3eae66424d40fafa1c9789424ac3e66f10000042472deb6981d3eb4242f99ce1b2b655423d5087c51eb836423551d71aff119b422d1d9a79695461422299eebb618253421623d55a665790420868bbd0e72ca141f8beb0a4ca479641e6d767fa9355c641d2f069be85809f41bba774311a029441a1385ff6c2f6f5418140b62f0b91b54158184170cd3ee1,
  0x414bd27cf3b8c1c241595ae1fdccc72a415e9a9f95580445415c158b21aa94494154a4165e84bf6c4148e4d962bdd1cc4138e4d962bdd1cc4124adca1beae92d410c6361fb72601b40efcd18d88f7f6a40cc719e5a9bb06440a39a43a558df0f40739a43a558df0f4039608d3c41fb4b3ff00000000000004039fb1339d2c7df40758ac7b74ca3e140a844a1dde9660940d4da192bf7542b40fd1977ffa6ed1f412125a43ced54e84141868e0840394e415fababdb4a19904179a9e50f79137e4192dbddf0a4044941a95b5fc5915b8441bf69c48f6a194841d20839c9fc467e41e346f3f0ee62a041f34435e2d77e8d42020ff284aa06a4420fdb5f5daf98a2421a7d063fb6c3944224ce9b1a1bac81422eee91a37ff53a4235c9029a2dad87423d1b5c8354cabb4242757189335e4f42463ce979e52a17424974d4909262f8424bb16075da3b5e424ca077111e6e94424c1c68ed664773424a354a4ed5a29d42472deb6981d3eb42436d2740180000423ecfc7bab9648e423714490f41452c42304a8deca68b2e42259cdd9a3d1cc7421ad941f1b282b4420f17b5b64e799e4200b0492e0bd2f241f07c007ce780d441ddac00e0d3e7e441c800a82a86fb8641b11b46bf5787774194cf1d090fe3f541745fe350848dc2414bd27cf3b8c1c2,
  0x413eb2a1393505624149fa31232b2032414cf17535b341aa414858c4f9e5249541404471ba76832e4131a84203aa4123411f640394bce5934106d0ed43f285f040ead8fffd5175a940c910155398714540a1eef9ba12323b407289ef7e83d15e4038b7e9fe0517283ff00000000000004039608d3c41fb4b40749a8aea13315940a6c739ede3343240d33ed77714073240fa754996998be2411ec4ee1e527cfe413f14e6aa31d683415bcbfff4da5e1a417653447f11f1eb41904821868e389b41a5c0fa8315fde841bacfdbd00a7ddf41cea91f660cb14941e057cf53d9778141f04e808dda53f441fe8ed7876bdf85420af681eff5c539421674e4a53bf6984221b080ba59aebf422a66b4852f71234232b08aac4280574239211edb9c5d6542400ebf2ef716fe42438498aab85b9f424692cbe3bf68744248d8b74698e8f4424a0744674f1ffe4249f1fc4d2d55d842489964b7937fe342462b6c5e962b684242f99ce1b2b655423ecfc7bab9648e4237b1bd73060000423139dded1e661e42279fd145310113421e7877505825dc42126a279a62743f4204c3a7022d05b241f5b7ebcafdfbeb41e4ea950726bf9e41d25d9595e3958441bd016ca13e154a41a43100e56608cd418800dce5c40bff4166fadcb2cd88c9413eb2a139350562,
  0x4130250a29b0bd06413938e9479b5f3a4139c299caaa47e64133b304697a67794127b11d1cceaabc4116dbd78698ccdd4101c76ebe05111e40e6272aa2cd5ace40c5b9094c8c597940a03912371173824071698b311e50fa40380000000000003ff00000000000004038b7e9fe05172840739a43a558df0f40a5386e2e63411740d1985555219a0340f7c92f86245b28411b4009dd1486db413b29c207938ab24158024fcdad0dc941731601a4d13a88418b979e173efd0a41a24b29beada9b641b667ae10fc8bff41c97d86e6a2c73241db11359ec12bee41eaee79f26e866941f931312d3169b74206374d265d7de74212836af54de8eb421d3721fac03d3e4225dcded59ce4ba422f13737c6633bc4234ffbd7a3b9839423b01c3349cde0b424089cc2f3214ee42434c51499bdd10424575f30ae694ca4246bf37180136484246fa55edf008b942461d5b5d66f814424444b824148e314241ad66ee4917cd423d5087c51eb836423714490f41452c423139dded1e661e422854da352600004220389178c4000042145b3865b6d0cd4207f4f84c70338841fa522de93f3c6a41ead79f206c126a41d9386da1e1640641c59e14d3e5c37241b0ac7b5270c7d34196afb52c04829e417a5eb911a5199a4158b2646b72cd3e4130250a29b0bd06,
  0x4120250a29b0bd0641271ed5d6f9174b4125778028e33bea411d8c869e379b36410f96d17bbe38fb40faab261d0799ad40e1c76ebe05111e40c275f8dd007656409cf6b710bb21f7407039123711738240373764417dc14d3ff00000000000004038000000000000407289ef7e83d15e40a39a43a558df0f40cfd4a54594e1a240f51d3332f51f374117c92f86245b2841375b762b362a7241545f5185aea8064170018a891e09304186e7352c2e463c419e19c3bc44b6f341b24b29beada9b641c4ae794ac1bc4e41d5d94f0ed4aabd41e5a75e189a898b41f432db75d2e4cf4201c85ef2b977cd420d9f11887ca7df421762a20d6fe2d84221877ac9a68b254228fc6c61d7e0d44230f35643daa7da4235e977cd75d67e423b01c3349cde0b423fc0e431a7d6444241d04b08dea4ac42431382b45b2eec42437f53cb6ec0d042430423cdbdd2414241b115e4526010423f6225612815fa423a841a656da3b4423551d71aff119b42304a8deca68b2e42279fd1453101134220389178c4000042150b1d95c000004209b69814b107bf41fd7c454a62b59341ef95d0b17f154c41df6cd3452d5a3d41ccd2c66fdd049941b8219445d6ce4441a23086887b0889418832e36226f1ba416b843b8cd8cccd414938e9479b5f3a4120250a29b0bd06,
  0x410e98fed19002014113ead87f7066834110a4be52162d1741045d3c302bd69c40f30c88f02a000d40db91963d72cffb40bea1c360b87550409971fc260a8e29406df0fc3e1ed32d40365c55827df1d13ff000000000000040373764417dc14d4071698b311e50fa40a1eef9ba12323b40cc719e5a9bb06440f2798ccc967b5041146cb6d972bb734133b8e2d1b1860e4150f22b4fc80d0a416a46b5c6b14db44182948096c6be2041982b61faf8bc8041ad1e29b279b2aa41c055c58b3a8b5f41d125f21d70832f41e0e88b7e3c733841ef6b8e4580f22541fb95adfc84dd554206efa42b074439421218ee26b14121421b25653a09e1b1422361186c894478422a5e14698d051b42311c28d3b27038423532500ab0bdf34239147fee36ebba423c5a976be6fe1c423ea27aa79e777e423fa262d785e24a423f37c28d54ac32423d6eb41c4f19c9423a7fcd7a7e82804236c4dde1034d324232a79c379f2f68422d1d9a7969546142259cdd9a3d1cc7421e7877505825dc42145b3865b6d0cd4209b69814b107bf41fe9d205480000041f11d1637661a5441e1e29e0267d16d41d15ef1ca15886d41bf1fd5226c1fad41a97722bf12a58d4192c4c8a818d95141786d2aba505105415b2f36db687cda4138661602834a60410e98fed1900201,
  0x40fb5e0b477b4cf14100087dda12018440f7d17acae891fb40e98000bffffd2d40d4720be81e2f0640b8a87f62f91e4e4095eb1be632c59b406b4f8ad56cf64e40356c9df5e1f2da3ff000000000000040365c55827df1d1407039123711738240a039123711738240c910155398714540efcd18d88f7f6a4111367f7f8adf0441304fa0f5ffbde5414b90085f98407c41650d224dc0d1ce417d60b0c37dd9e64192e27ba24bc7fa41a684c0e5603cae41b90ac6643be9e741ca1716fba9223641d990250f05e09141e7a1534cf48e5441f4a9fb4a02d05942012238953c8efe420afe346b3025cd42143bc60549eade421ce7ad2c2074184223b26e257d1b964229a273703e0f4b422fe1f1fea3f9b34232f5710c392f5d423591cc319924f842377b5f31836465423876f85bdce88442386453240fe9d0423744b4c871d27942353adfbd45f277423284538280710c422edb3cd9f05a9642288985e31b8fac422299eebb618253421ad941f1b282b442126a279a62743f4207f4f84c70338841fd7c454a62b59341f11d1637661a5441e2aabc4c80000041d30b49107b789841c210f67eacd7ab41afa27622c4bc5341994ec4e89d637541823f3a3ccc0c9441673e00aefffd6d414953dd766edd02412644aecb51e5a940fb5e0b477b4cf1,
  0x40e6fe411ef46a3640e7f299b26697f340df20f7a5ca427240cc90d37442817f40b316165f4e940a40926a464534a00040688db306f0d555403465655f122ff63ff000000000000040356c9df5e1f2da406df0fc3e1ed32d409cf6b710bb21f740c5b9094c8c597940ead8fffd5175a9410c6361fb72601b412a574a717b3d354145d73dc9613d6e4160672debf2a9f341768ceace63ede1418c9be1f5cd95dc41a0dba3a569e22541b28e385af508d541c329395794e4d441d2a1d2fc3dfc0f41e11d5cfe907c2a41edc7acc51c0e9d41f898566615107e420351e05857980a420cea4f562bd1374214a46d0cfd917f421c260911b6ddae422258fa09e7424b4226e228c1ae3e5f422b528dc44e7d78422f3e94087256af42311d80a4747c0a4231f79e9647b56d423212e28266c2ca42316b56ffe6d46c423014b71a639a52422c6d64a69e27c842280b09536197cb42237183ee3c761b421e0a1f50c4cc6f421623d55a665790420f17b5b64e799e4204c3a7022d05b241fa522de93f3c6a41ef95d0b17f154c41e1e29e0267d16d41d30b49107b789841c2fa1dd500000041b197eed30b48b2419e1f471923f061418792e9baa1b0fe4170a2a03fd15cc74154bf7095410dee413625e27c633146411315527a29c11640e6fe411ef46a36,
  0x40d2098ece6251a240d0701572cdfdc540c250877cbb483c40ac02d0dbc0c544408df1ecb2b395a94065ab45922f8859403342e881f15cc13ff0000000000000403465655f122ff6406b4f8ad56cf64e409971fc260a8e2940c275f8dd00765640e6272aa2cd5ace4106d0ed43f285f04124adca1beae92d4140ca057ba846fd4158bf859e6fa7604170ba56eae186114184e80a1fcec2634198501a7a6b5fa741aa72ee91c100a541bb086b2acfb03f41ca0dd274d4cbcf41d7c05b4b5f9d4241e488a007cba46b41f0df407bbb450c41fa66fa7d4739554203b3d2f1cc5894420c156ed1d817ee421323297b10cad14218f6361af482fa421f2f53473ed1364222ab56c1e8038642256efabaed2ec642279a3558b5333a4228ef3f66599c54422945f1d6f094014228935a83acee8f4226ebf033c45e8242247fcd872432e9422191e32277981f421cd89facd2e1e24216a93ec7f55a0b421104e5f0753c06420868bbd0e72ca14200b0492e0bd2f241f5b7ebcafdfbeb41ead79f206c126a41df6cd3452d5a3d41d15ef1ca15886d41c210f67eacd7ab41b197eed30b48b2419fe58fc0000000418ab640ce5edfc5417475cf989fd186415c4645b65b80f7414145bc80a6275b412211bc87a1eab240fe870342ec450040d2098ece6251a2,
  0x40ba387c8652086e40b47b590878ec3740a3045381e9c4b1408744a4b2972ea14062a7f0900e323040320000000000003ff0000000000000403342e881f15cc140688db306f0d5554095eb1be632c59b40bea1c360b8755040e1c76ebe05111e4101c76ebe05111e411f640394bce5934138e4d962bdd1cc4151f7352d7151be4167d589dde744fc417d4a844a85628c4190c750a943d1e641a202f32fb93de441b231c34848bf0641c15b38f8cf5f1c41cf5d5d8ae2b5e741dae92c43eab99841e5f8fc72da6a3b41f11aaaab08a5eb41f96d5b215198214202123bdf0a876d420896775b09db65421006ce310ec6a942140881bd527853421806c9c76e158d421ba9464522f7dd421e94a4bd0c576942203c7840a1202342208fa803acada6422039ff7359b059421e8a10f9c1cc10421b98079391b0364217ee0cbdf87a714213e8339a468049420fbfe14119dcdf42083fc5540459f54201b83463b525eb41f8beb0a4ca479641f07c007ce780d441e4ea950726bf9e41d9386da1e1640641ccd2c66fdd049941bf1fd5226c1fad41afa27622c4bc53419e1f471923f061418ab640ce5edfc54175e4da8000000041606ba3e000000041463a91fb39ff7f412a9d7e16c7c782410b4c1399f238bc40e69d87a40584d240ba387c8652086e,
  0x40a17afdaee15af44096c1f125dbb1214080e766ac5e042b405f0630ee1ee8d6403095479c7e65803ff000000000000040320000000000004065ab45922f885940926a464534a00040b8a87f62f91e4e40db91963d72cffb40faab261d0799ad4116dbd78698ccdd4131a84203aa41234148e4d962bdd1cc41602b4975b2c9914173802afb60212b4185f7e337e409e941973b5bfe0f22a241a7285d3d5be1dc41b5d550bd24186d41c386a017e94aff41d09ad72b68f6e341dae92c43eab99841e4d0ef29709a8841eec9999a42c44141f5cb72aed8394041fd92336cf9f4e142033e1aa04a7f2d42080a35499629fd420cd90cbeb432634210a23cec8749ff421270d9836ca53e4213a8b30bd1139f421427c16ab65cdd4213df966acf36c84212d7ff5caa382542112da98c7d02c9420e1a36cf87a8f542095667d8344568420479cead4fd46841ffbfe14119dcdf41f797fe43e88ee141f0c9750024e08d41e6d767fa9355c641ddac00e0d3e7e441d25d9595e3958441c59e14d3e5c37241b8219445d6ce4441a97722bf12a58d41994ec4e89d6375418792e9baa1b0fe417475cf989fd18641606ba3e0000000414820c70000000041300135e81547514112c9862e32aaf340f2e5e62f804ea940ceb9058cb5625340a17afdaee15af4,
  0x4085150aca8807854075f514900fe038405876d9b85a0f96402deeea11683f493ff0000000000000403095479c7e65804062a7f0900e3230408df1ecb2b395a940b316165f4e940a40d4720be81e2f0640f30c88f02a000d410f96d17bbe38fb4127b11d1cceaabc41404471ba76832e4154a4165e84bf6c41686035ba382976417af2cfc429fa9d418c05f89bfa27de419b84b3262410d541a99a0da15b3b5e41b6a104f5280d7341c30c0c689f463641ce9877e4c8b83441d77cd7b0e313b441e14284d2b446a141e84fe221d6a9f941f06daacac3c0ef41f55227d790bd9241fa9784200e83f541ffe47acfafcc0242026646da47e20142046ebb82f856134205d7e36276879442067bb73974b2c4420648530a16aa084205431a58e57fd1420387cf2d852ad1420143d1210664e241fd5d3dcbf58c3f41f802905db7dc9441f2dd325b5cb65541ec75b5d3b509c641e497ae91ad1e0041dc8d41f9382b3741d2f069be85809f41c800a82a86fb8641bd016ca13e154a41b0ac7b5270c7d341a23086887b08894192c4c8a818d95141823f3a3ccc0c944170a2a03fd15cc7415c4645b65b80f741463a91fb39ff7f41300135e81547514114d0fc0000000040f7f7261acbcc9b40d7a6e77dbb121140b2de9dabcda4b04085150aca880785,
  0x406689ae45e06cfb40519ae4068085ef402a2744ce9674f43ff0000000000000402deeea11683f49405f0630ee1ee8d6408744a4b2972ea140ac02d0dbc0c54440cc90d37442817f40e98000bffffd2d41045d3c302bd69c411d8c869e379b364133b304697a6779414858c4f9e52495415c158b21aa9449416e66e8bc346896417f067550501bcf418df54c3855f274419b750708e0904941a7f2c1640baece41b3ec1dbcff361b41bfacaafbad9db141c819c56a9f0de341d193996e8df8cd41d89a208a1a654841e08a1dbe7852d241e56172eafd70dd41ea9784200e83f541efd6d882c3aa7541f25bcc3e9aa89641f465ff62012d1941f5d7e36276879441f68bd7bca8185c41f66ee93726465f41f584086b1683c841f3e38e7ac6baec41f1b72b5724d96041ee6653321fe5e241e91d03e87589d341e3f6bdccdb79f341de85b5393c10fc41d66b149135785141cf9c3ca89e739741c55dbf64025e5a41bba774311a029441b11b46bf57877741a43100e56608cd4196afb52c04829e418832e36226f1ba41786d2aba50510541673e00aefffd6d4154bf7095410dee414145bc80a6275b412a9d7e16c7c7824112c9862e32aaf340f7f7261acbcc9b40db12000000000040ba38b451cad94240948a0a0795f197406689ae45e06cfb,
  0x4044ae9f4702630440258a68a4a8d9f33ff0000000000000402a2744ce9674f4405876d9b85a0f964080e766ac5e042b40a3045381e9c4b140c250877cbb483c40df20f7a5ca427240f7d17acae891fb4110a4be52162d174125778028e33bea4139c299caaa47e6414cf17535b341aa415e9a9f95580445416e94d38e2c3bb7417cfaa6bdffab29418a1df0527c2e59419670c761baaffd41a26be25610ac7b41acf24c07681bda41b5ccc49b2ed48941bf8405cf563f2241c5e3ccb6c47cdb41cd3f278909d9e141d2cea1796f4b2d41d74c8d7acb28e041dbd19600eb933541e00377850e476f41e1c86e94992de641e30d9b0ced437641e3b2feb5f7271d41e3a7c69cbade2941e2ed0d500dca8f41e195ae04bdd1cf41df866496084cb541db411015232f2f41d6b7435b4326db41d23e924143890841cc390a20d24e5a41c501c339b9307a41be1140b01ef27e41b4aafc88ce096241ab422b3deae36641a1385ff6c2f6f54194cf1d090fe3f5418800dce5c40bff417a5eb911a5199a416b843b8cd8cccd415b2f36db687cda414953dd766edd02413625e27c633146412211bc87a1eab2410b4c1399f238bc40f2e5e62f804ea940d7a6e77dbb121140ba38b451cad9424098f0000000000040732f4532a6621c4044ae9f47026304,
  0x401eb97e455b9edb3ff000000000000040258a68a4a8d9f340519ae4068085ef4075f514900fe0384096c1f125dbb12140b47b590878ec3740d0701572cdfdc540e7f299b26697f34100087dda1201844113ead87f70668341271ed5d6f9174b413938e9479b5f3a4149fa31232b203241595ae1fdccc72a416786c9e30fc6b14174cec132a922634181949c3a3580bb418c6f320b3ceb3a41960b8398d4fa0741a06898ce70bb1941a77aabcbcbd4a141b029dea4d8c9b941b56ecc16eacdcb41bb6418f51bb7f441c0e1436b2a508d41c4133741ca2db341c70c23ffbec28f41c98d2098af1e1841cb5c74c2faf1be41cc4dfd33a27e7e41cc49f65fe6739b41cb50c25e83456741c97ad9d3809c7741c6f4eb0c9ff2ab41c3f8fcdd64362241c0c603e569d8b541bb2f24fdf83bfd41b53e39e92621e741afff29f8f56cd741a7348a85eda8df41a03118f110e9814195b793cf6f44ab418bf5d39c134636418140b62f0b91b541745fe350848dc24166fadcb2cd88c94158b2646b72cd3e414938e9479b5f3a4138661602834a60412644aecb51e5a9411315527a29c11640fe870342ec450040e69d87a40584d240ceb9058cb5625340b2de9dabcda4b040948a0a0795f19740732f4532a6621c404d000000000000401eb97e455b9edb,
  0x3ff0000000000000401eb97e455b9edb4044ae9f47026304406689ae45e06cfb4085150aca88078540a17afdaee15af440ba387c8652086e40d2098ece6251a240e6fe411ef46a3640fb5e0b477b4cf1410e98fed19002014120250a29b0bd064130250a29b0bd06413eb2a139350562414bd27cf3b8c1c24158184170cd3ee14163fa72879d8d5c416fc614af17b86041784481bf63d3c44181d304260e98be4189351453c893cf41912d084dd673d3419692d530df3e62419ca18bc2ea6cc341a1886972625d8241a4bec2b57e611e41a7b9164a3913ec41aa3a0ce57f247d41ac099f2c2e804e41acfcffefa33d6b41acfcffefa33d6b41ac099f2c2e804e41aa3a0ce57f247d41a7b9164a3913ec41a4bec2b57e611e41a1886972625d82419ca18bc2ea6cc3419692d530df3e6241912d084dd673d34189351453c893cf4181d304260e98be41784481bf63d3c4416fc614af17b8604163fa72879d8d5c4158184170cd3ee1414bd27cf3b8c1c2413eb2a1393505624130250a29b0bd064120250a29b0bd06410e98fed190020140fb5e0b477b4cf140e6fe411ef46a3640d2098ece6251a240ba387c8652086e40a17afdaee15af44085150aca880785406689ae45e06cfb4044ae9f47026304401eb97e455b9edb3ff0000000000000]

/-- The coefficients for `2 ell = 60`: one number for each of the 61 values of `mp`, consisting of the doubles for the 61 values of `m`. -/
def wigner60 : List Nat := [
  0x3ff0000000000000401efbdeb14f4ed94045092295a3641840671f914b12ae724085d2782880eaa940a241f9c18e8ac640bba394fafe758440d331097868cb6c40e8b2d9f9e4c18640fdaf1f297965554110c24eea7962704121dd7be5f6f70b41320ce0fcf7014441415798c832e9c4414fc67462b80f27415bd27cf3b8c1c24167546348d514a14172c42fd0bf0d4f417d015dab494d4441858ff5091bce5a418edf603b3f442141954dd8f6abff25419c5d75c7ef2aa041a23ad416d222b941a6a283cd1e954e41ab296af624b32b41af839fdcfabf9241b1ae9ca196884a41b3322e8332620e41b42a1bfdfffe8e41b47f707277cbb241b42a1bfdfffe8e41b3322e8332620e41b1ae9ca196884a41af839fdcfabf9241ab296af624b32b41a6a283cd1e954e41a23ad416d222b9419c5d75c7ef2aa041954dd8f6abff25418edf603b3f442141858ff5091bce5a417d015dab494d444172c42fd0bf0d4f4167546348d514a1415bd27cf3b8c1c2414fc67462b80f2741415798c832e9c441320ce0fcf701444121dd7be5f6f70b4110c24eea79627040fdaf1f2979655540e8b2d9f9e4c18640d331097868cb6c40bba394fafe758440a241f9c18e8ac64085d2782880eaa940671f914b12ae724045092295a36418401efbdeb14f4ed93ff0000000000000,
  0x401efbdeb14f4ed9404d8000000000004073b0548492e9ed409545044d4abe2f40b3b8787d245f5b40d0346d79bdcfef40e815cfff7b236b41006a0a82d5c3f14114b9cc49708e0e41286e2530e3b0d9413b0b74877be4ee414c40d1c8f54aca415bf6a27ed423b4416a4e81a50e2a124177966210d2eaa94184343d5540babf419090acfd8d1b3b419a0b5783491f4441a3a8b4aaa4a9a741ac8863d182d6ed41b3ed9b720fcca341bad0dd5c86dad841c164e3c420610241c5c4fc65caaaf441ca4c9e2b938c4341ceaeb8882c23a441d14a7c1d27196f41d2d5290e59bd3041d3d358538cf0ce41d42ccc18232cd841d3d8cfab01f7d441d2df95a2f79d9041d158ed491b52b441ced12be8efefc341ca71eaff68f9b841c5ea83cefaf4e341c1886972625d8241bb1093bcd273ac41b423fa4168dc1d41ace0ee63a4ebae41a3ed9b720fcca3419a71ec1fd6ecaa4190d9bf6db1b5fd418497da088d2a954178184170cd3ee1416af051c700f8ff415cb71335df6075414d1af17ab3134f413bf6a27ed423b441295ec6d3cc96c04115a2c39f9650be41013eb0d7374fa840e9823681c59b2540d157e476eb869440b568b8e3181f7b4097921399ce45ba407689ae45e06cfb4051e946fdb8345d4025b9be5d52a9da3ff0000000000000401efbdeb14f4ed9,
  0x4045092295a364184073b0548492e9ed4099d4000000000040bb698fdd40bd7640d8f64ddeac987240f42390b13e6d21410d60d1e3f4bb5c4123a4c7b104909c41385396995446fc414c1cc25e1dbc69415e7f9b83241cf8416f3605207a21d1417e3f5147bd6509418bd98edb17119341986da1450eefbe41a4759362b1307741b064a5d89cdefb41b92cacc9f92e6741c28cce412f0aa841ca443c679581bc41d1e2fff678689c41d773a3a1718a1441dd9f8d497c2c9741e209507ff1d0ac41e52f2478d2265741e8023a66cc095241ea4399cd95bd5a41ebbd2e3b4d9b7c41ec49f65fe6739b41ebdbdf3314806641ea7e0913a9e12a41e852f7bb302e0b41e58f1380d3c16541e270abd30f3a4541de6e44af3a0b4e41d835e08a14be1b41d28fb4ae20f82541cb681974c4c6b141c377c901513db641ba95beaca6053441b16d96f0268d5041a5e8ff2fb128c8419a5eea57504119418e550337f5842b4180a2c1326a270541715c00eee3eb0f41612eb0426210c34150137d539ab249413c51102d5f9a8141275aed326cce6c4111ecf60c4b8f7640f9667bd084e1a740e0701572cdfdc540c328b3e6fbe81240a3b569ec1cef7840815bdaabbd22974058e5b4bb84ea80402a61be6cfec9963ff00000000000004025b9be5d52a9da4045092295a36418,
  0x40671f914b12ae72409545044d4abe2f40bb698fdd40bd7640dc93000000000040f98c0b48cc2fca41143aa9629d881b412cf3f9785c1a764142fcb16efd235741570d67324e9216416a1b6a47a04565417bbeb7e4f6de5f418bcd3b57093f7d419a5eb911a5199a41a7c08459b5a82d41b45ef37b673a6641c0ac63fe92911841ca19168c6e989141d38fd67e3415b941dc201edf3e17b741e36a307a83988741e9c38750fc531741f071feff649f3641f4362b140bc49141f7eda8eb70483d41fb4d2a4ff1224841fe0814f1893f4f41ffdb7011ca082242004c20cc0be0344200159690b9238341fe9fa77df0d50e41fc1e06e53aa1d941f8e4e157835c4341f53f337c48cb6741f1796a1c185ea841ebaef1d07c39b841e51b6366ad83ea41def4f83031b06841d5d0d5f852fefa41cd846544f7d10541c3257363e2411441b7c82e235f119f41ac3cb02c784f4a419ffc91b76c423841913efb0a8d22114181a7f99b153d8a41711bb00731e69a415f4321119143d6414acfe0c9cdd56a4135778028e33bea411fdeb3d97d6dcb4105be36407e974740eaf5540416a72c40cde856112be0ca40ad0c7db941b6bc4087e7de891c727d405f954e20de87e7402e3307cc56cf5b3ff0000000000000402a61be6cfec9964051e946fdb8345d40671f914b12ae72,
  0x4085d2782880eaa940b3b8787d245f5b40d8f64ddeac987240f98c0b48cc2fca41166ae80000000041316a8c5765e14c41487297affa8ecc415f6fae7e07bac44172b3aac81d99ba4184bf7095410dee4195971226b98e6241a52c86f5e2138241b3a59f56295ab941c14d9ce2513b8641cd016ca13e154a41d7304d7340f75341e1b7466f74a9a741e9e90b14f8df0541f2292fbaa89e1f41f86e048f19250741ff90caac26cb9a42039aa5ffb9e00a42076caf23ac0d6e420af096e775eddf420dd555b82a1862420fd27d913df7e0421059d46890c53042103096c9903f67420ee41fc90f04de420c64b68879d56f42092376957ab13842056eb4b9991311420196bfa8e77bd441fbc637fbf2f56841f51575d3fb5efa41eec0a8aca0fe9a41e586dc78d7189f41dce54bb677b53441d29220c255a9c841c6d2eac6bba9d441bac66498694a3d41adebb4824e3ffc419fc684c66b2890418ffae60954dc15417e66e8bc346896416b313edbf1fa844156c638d1d91e0e4141c1b6dcb959e64129971251705ba44110e296114458b140f428d6e6b00feb40d56c9e9731e11f40b3ce8852fee1c3408ec7e6028e5e294062ff9434b346384030bbb307acafda3ff0000000000000402e3307cc56cf5b4058e5b4bb84ea80407689ae45e06cfb4085d2782880eaa9,
  0x40a241f9c18e8ac640d0346d79bdcfef40f42390b13e6d2141143aa9629d881b41316a8c5765e14c414a8a748000000041624347d0aecaa241770386ddbf7e3f418ad2d3fb23eb33419d235a2435ed5a41adad07bf1e61d041bc789d85b10fe441c9d4b415b874aa41d63b7adfeb757041e2336ab2d225da41ec689e9dc840ef41f52cb0caec36a041fe31cd933ed4f642049effa51e4319420b025b80b0c6c74210fa46ebd370e6421480a0cf5f07f54217cc4c13c284bb421a9079d1dc1aa7421c86b05a846990421d7a1ca1cd17bf421d5088ffd51921421c0ee914ebf8504219d8694f9af6024216e83f4e05d6d5421387b3cc83c3dc421002aade72304d42093a2d454d13264203168b2d1a904b41fbb8519e33ba5641f34c0de2e11a3c41e9babd2e81785041e067b17a23a02141d3fa0af3b0b70d41c7301413836d9641b99a0da15b3b5e41aad252f2d5bd21419a95d39b8451c14188d863d7e1ff564175cd69d3c708d74161e027666d73bd414b3872b5190aae413319d9dbb9b92b41187805c39563db40fc4111f6bd72ba40dcea0f3f69e43940b99b5fc70ff2654092f05b3e81f78f406612f7d2b13efe40322a788fc76de53ff00000000000004030bbb307acafda405f954e20de87e740815bdaabbd22974097921399ce45ba40a241f9c18e8ac6,
  0x40bba394fafe758440e815cfff7b236b410d60d1e3f4bb5c412cf3f9785c1a7641487297affa8ecc41624347d0aecaa24178a175d0000000418e67a10a2dd51341a15993619fecab41b2722c864c657641c260c7ecf3719f41d13d79cadbf5d241de925f772c3f3441e9b36b3c45eac041f48a18644455c341ff46e401c0365a4206bac8c9df6e6c420f94b8ad38e2dc421500165463150f421ac336174c3a4f42205af4f35eab6b42232fc45adfbb5f42259d9a8ccfd9fb422765a9792286dc422856ff2d068886422856ff2d0688864227661c44ee213142259fafd98a8368422334fd5c8267264220649c467906cf421ae09d27e71685421526fb31a46be3420ff0c061bdcd6b42071de5f3ee683c420005b6f5f67e6141f53ed21aabd5e441eae92c43eab99841e04156cf7a7aff41d2b1d1c5e4322541c46c5367a64d0a41b523d4d3778d3341a4abb3a69029824193066df40a5c12418069890d7785cc416a676d62bcfad44153ae2dfc8d465b413af8ced5a741f04120d2d6ca28f1ba4102db85f4fe218e40e2aa02475dd69940bfd5663cbe4de040968dc893fef1f1406905700c730d5d40337135779c8dca3ff000000000000040322a788fc76de54062ff9434b346384087e7de891c727d40a3b569ec1cef7840b568b8e3181f7b40bba394fafe7584,
  0x40d331097868cb6c41006a0a82d5c3f14123a4c7b104909c4142fcb16efd2357415f6fae7e07bac441770386ddbf7e3f418e67a10a2dd51341a26012d000000041b486599f156b7541c558dabb1423bb41d4cbbb685977bb41e31099db56987841f082b975d8182d41fb196156d434f2420520f1dcb74f49420f5eaf719a9e394216366ef74afddb421e0cea06c73fe14223714a23f5228c422816cb83d84890422c9a07aaeb1f5f4230487629a0e2e54231c9e2c4a896f64232a7297bf4e4104232c75181a3b145423227130e6280b14230d95f5ba81494422e079347de6cfc4229af781ba07871422514423df87dce422096ce9d978c31421905e1a119c53d4212123bdf0a876d4208f80f888021f342007b63873cea7841f4c31cbf4326c441e8ea227f1d61b841dc6d3afaf4340f41cec4fdde8b65fc41bf837b5af7fd7a41ae71ed8cf3e3a7419ba491ec0b42b241877c304f1a71ba41729247d0c8a06d415b29593702716941423872ae4f0faa41263251ea86d7b741083a8e9ddac74840e747395e9f7be540c33315cf831b5a409a328ed81327dc406bd750273465bf4034975cd57680873ff000000000000040337135779c8dca406612f7d2b13efe408ec7e6028e5e2940ad0c7db941b6bc40c328b3e6fbe81240d157e476eb869440d331097868cb6c,
  0x40e8b2d9f9e4c1864114b9cc49708e0e41385396995446fc41570d67324e92164172b3aac81d99ba418ad2d3fb23eb3341a15993619fecab41b486599f156b7541c66d691300000041d6cebabb2ec17e41e5b6ae3c9aea8841f3717b5027891c42006ffddcbab814420a522de93f3c6a4214024a71d833f3421cf216294472f24223f4ea7eb1f122422a44d11fe1b330423086131c783c534233e3433deb417c4236eb38d1652b6c42394e0749c469c7423ac7d7f6c74a2b423b2d12325e5250423a7274e0c6349f4238af17c0b8fde9423617d9530773984232f5710c392f5d422f2f53473ed13642289192621dbcf642228797deb6bb06421abc22de6152da42126e10b9b5cfb442084084a68f33c241fe6aa45f26dfe041f2263e7c55d58d41e491be48a58b9f41d6169de66d8bf941c66a1ba5413f3141b56d14ed9c4aa941a33895f786897941901c06004599514179178260524919416209c3f57330614147be51f75f7ebf412c50d1de020b4e410e2ed1e4879afb40ec3d58e383411d40c69c1c30c2ba08409dd6530d6ca1dd406e88c82da644314035a220734903763ff00000000000004034975cd5768087406905700c730d5d4092f05b3e81f78f40b3ce8852fee1c340cde856112be0ca40e0701572cdfdc540e9823681c59b2540e8b2d9f9e4c186,
  0x40fdaf1f2979655541286e2530e3b0d9414c1cc25e1dbc69416a1b6a47a045654184bf7095410dee419d235a2435ed5a41b2722c864c657641c558dabb1423bb41d6cebabb2ec17e41e6aac013c0000041f513f3bfd9b70642026cb9bcdf7717420e64944dc9e2634217b9b678aa25c9422192c8133bee634228c0d494cf80f142309ae003ccc1ac42353ff55f921f7b4239f832fd7d551a423e56579398da1f4240f3661d5f10c64242216d95a83faa424291ac1832363942423710c4f0082542411d80a4747c0a423eceb45b381278423a8d7c03cbd9a14235e8c2ab32115c42314c5a241f843e422a1eeaf9cdccb94222d7ffb4e5eaa94219f3c6c6a4d54f421109da5a8a1d0642054cc9c8e4132741f94ee0b998e79241ec8645a846244641de6d1719e46af541cea18ae8fcbc8641bd02d5f6eeb2e741a9c03f720cf941419552e65b0ac67a418061ed57e7e3b741673289539ed359414e046d1d371f8341318f86f65228ce411253134cb2389b40f0be1189f05ccf40ca1b88abbf0da240a0b8e34422653a40708cfae4fd37fb4036954b41cd42933ff00000000000004035a22073490376406bd750273465bf40968dc893fef1f140b99b5fc70ff26540d56c9e9731e11f40eaf5540416a72c40f9667bd084e1a741013eb0d7374fa840fdaf1f29796555,
  0x4110c24eea796270413b0b74877be4ee415e7f9b83241cf8417bbeb7e4f6de5f4195971226b98e6241adad07bf1e61d041c260c7ecf3719f41d4cbbb685977bb41e5b6ae3c9aea8841f513f3bfd9b7064203223434d0000042105133cd0e56d3421a3e54f9b7854d4223f6059cdf8189422ccabf63e752b94233bacacd28f3774239bc1ded156484423ffe1a9d7d62f34242f96390d815a942457e63f9f98b49424744b4c871d279424815c6d446aded4247d8636171faa74246958d6460e3964244766feb9618ae4241bbfa98f98cdb423d64f1165dcab5423748a45e6e21c542319e16341fb29c4229723cc6cea92a422185d0c180973d4216fbd3cc579089420cab8d35c915484200fa29d2f2e68141f30d1f3ecf892c41e43599c729e0d241d43599c729e0d241c2fd35f779a9c141b0b34170371337419b5dd4d4df65104184c5ee65b9c260416d0468988509aa41527d54a4966dad4135445a92d205454115c5d3fff6d07040f3796228a1607140cda79cb5b4f6e740a27f3acb7638084071c576254bd94c403773bb6fa96c503ff00000000000004036954b41cd4293406e88c82da64431409a328ed81327dc40bfd5663cbe4de040dcea0f3f69e43940f428d6e6b00feb4105be36407e97474111ecf60c4b8f764115a2c39f9650be4110c24eea796270,
  0x4121dd7be5f6f70b414c40d1c8f54aca416f3605207a21d1418bcd3b57093f7d41a52c86f5e2138241bc789d85b10fe441d13d79cadbf5d241e31099db56987841f3717b5027891c42026cb9bcdf771742105133cd0e56d3421b228b33a00000422542f12cc00221422f7e01a89a6ede4236193718ab2cb5423d71d3dd5446024242a79c379f2f684246823fb86257ab4249e3d5129cc7a7424c694de9436dcc424dc3d81a644b22424dc860e07856b1424c782cf7b67645424a003539b36fa94246af8f7e1d5e5b4242e7a23e6dcea1423e14c011203b1c4236d5bd9347f6a7423086d61cde127a4226c920db2ec95a421de30854c516b242129edb89d3a74c4206014585d4d1b241f89cea3c81ad9841e9fec202f75f3741d9da179d722b6241c820e2d7375bb141b50d59d1d0eecb41a11723ea10061a4189ac0d688ef30b4171b725a1bfbf3441564578a7a773a741393a8e83134fbf411964250d34d68740f6480d4a4e9df240d09b8c9d617b8840a43b51a1bc495f4072eddc64dfe30740383fab8b4d43153ff0000000000000403773bb6fa96c5040708cfae4fd37fb409dd6530d6ca1dd40c33315cf831b5a40e2aa02475dd69940fc4111f6bd72ba4110e296114458b1411fdeb3d97d6dcb41275aed326cce6c41295ec6d3cc96c04121dd7be5f6f70b,
  0x41320ce0fcf70144415bf6a27ed423b4417e3f5147bd6509419a5eb911a5199a41b3a59f56295ab941c9d4b415b874aa41de925f772c3f3441f082b975d8182d42006ffddcbab814420e64944dc9e263421a3e54f9b7854d422542f12cc002214230389178c400004237607cdf800094423fe57ca0999fc54244a487f670b0de4249631d2a6165b0424db4324c2c345442508c92524c977842519330b33655b14251cc7007474942425131efdb0c5169424fb319deae6644424be0ee9d06ed164247637e756f1ce94242b5fec458e3ed423c883149b83af64234b7a252eecd28422ca006085e0eca4222cb154ab6791242176af128303283420ba4f2b9dfd17841feda9d6cf8516f41f03d869273e72841e01490571bfd2941cdd9ea28731ece41b9defe230e700841a4d612f1dec934418f02d21d781d4641752c8995be4fca415a4cf2793a1f1e413d63fda7ffe813411d21b2ea145a0a40f921798dc137b040d2609f6b03511e40a5ea9709600290407406323d7b40f34038fae0c15ad3893ff000000000000040383fab8b4d43154071c576254bd94c40a0b8e34422653a40c69c1c30c2ba0840e747395e9f7be54102db85f4fe218e41187805c39563db4129971251705ba44135778028e33bea413c51102d5f9a81413bf6a27ed423b441320ce0fcf70144,
  0x41415798c832e9c4416a4e81a50e2a12418bd98edb17119341a7c08459b5a82d41c14d9ce2513b8641d63b7adfeb757041e9b36b3c45eac041fb196156d434f2420a522de93f3c6a4217b9b678aa25c94223f6059cdf8189422f7e01a89a6ede4237607cdf8000944240607f2d9e80004245b4fa78ab4409424b452b10fa0f39425042c3b38ee2bc42526e60c66f90f94253dff5377900324254673dae1673354253f34c2f63c6f3425295e65501805d42507f3b843e822d424be6a6036da829424678991fc57c3a42413a53430656b5423920d6774abcd942316a9ef696acd14226eb1d4acdac7b421c96b42776f3be4210dfd0c3f18cbd4202d02de1d0c16e41f3c3299a8b315941e38106de24b77c41d2063e8e80a16b41bf11f4fca0a57c41a8db2a63b3b797419259beacba33bf4178d424c05c0d90415e83d36cb9610c4140d8899fd44a6b412078cf469d4a2540fbfd201539094040d41ee6f855d16540a78abd8bace9f640750e7b01ebcb5c4039a6c96759af483ff00000000000004038fae0c15ad3894072eddc64dfe30740a27f3acb76380840ca1b88abbf0da240ec3d58e383411d41083a8e9ddac7484120d2d6ca28f1ba413319d9dbb9b92b4141c1b6dcb959e6414acfe0c9cdd56a4150137d539ab249414d1af17ab3134f41415798c832e9c4,
  0x414fc67462b80f274177966210d2eaa941986da1450eefbe41b45ef37b673a6641cd016ca13e154a41e2336ab2d225da41f48a18644455c3420520f1dcb74f494214024a71d833f3422192c8133bee63422ccabf63e752b94236193718ab2cb5423fe57ca0999fc54245b4fa78ab4409424bece86c22800042510277e67bb87a4253a6b99f22df2f42558e3eec3076ae42567820d3091552425645729bb5d64f4254ffc93f67b5064252d689cf120881425013f7f558acab424a1ac94a034b34424425f8aa9f007e423d8d064f93de96423492573390cd71422b289b0bbbdff54220f9c1366eeb0142140fa145ec5b5242065dbbe6f81e3e41f77822858da15741e71cccf8629ec941d54a28195a171541c244ee6a45e3b241ad11dc52870e2b4195515d4d963d97417c9d7c8588afc141616c305e0916c9414308963ceb859b4122635dbaff78f340fed2a41e9c037240d5d28369f7fd1340a919b2cab5f573407606b9278cfb5f403a4491e34f47d93ff00000000000004039a6c96759af48407406323d7b40f340a43b51a1bc495f40cda79cb5b4f6e740f0be1189f05ccf410e2ed1e4879afb41263251ea86d7b7413af8ced5a741f0414b3872b5190aae4156c638d1d91e0e415f4321119143d641612eb0426210c3415cb71335df6075414fc67462b80f27,
  0x415bd27cf3b8c1c24184343d5540babf41a4759362b1307741c0ac63fe92911841d7304d7340f75341ec689e9dc840ef41ff46e401c0365a420f5eaf719a9e39421cf216294472f24228c0d494cf80f14233bacacd28f377423d71d3dd5446024244a487f670b0de424b452b10fa0f3942510277e67bb87a425412ecd34c00004256717e306de5924257cc346cac30f44257f36f0e1e31324256e45c64858d7d4254c8f83d318fa84251edc5bc17bd7e424d613a523f589c4246db6a1c761dfb4240dfeef9bcd58542379fe82a6ec487422f53724b02a7944223a4f13a5d360d421743d78cf344e24209f757d6a9e19a41fb3f32efc4e5f841eacdc606e0e8e141d8a2f70d6dd1ea41c51294f3ec2e7d41b0b12544014f9a419858bfdb052bc941803b2a9203728641639bc6eb648d634145397cda6adc00412449e4d8af09884100ccf3e9b8de9740d777d4da01ec0940aa9599029b23e64076eeee8953be07403ad5336963eefb3ff0000000000000403a4491e34f47d940750e7b01ebcb5c40a5ea970960029040d09b8c9d617b8840f3796228a16071411253134cb2389b412c50d1de020b4e41423872ae4f0faa4153ae2dfc8d465b4161e027666d73bd416b313edbf1fa8441711bb00731e69a41715c00eee3eb0f416af051c700f8ff415bd27cf3b8c1c2,
  0x4167546348d514a1419090acfd8d1b3b41b064a5d89cdefb41ca19168c6e989141e1b7466f74a9a741f52cb0caec36a04206bac8c9df6e6c4216366ef74afddb4223f4ea7eb1f12242309ae003ccc1ac4239bc1ded1564844242a79c379f2f684249631d2a6165b0425042c3b38ee2bc4253a6b99f22df2f4256717e306de59242584188d4a680004258d534b489a39e425819a2e1d7ac9942562e78be95d40f42535d85531f832b425009379ccb4f0442492ee41c67df3f4242bd868a2ab692423a69c3f5fbe76442319bd7f9529a4242262e79b0839f30421a5b08baab963d420d7aada420ce8141fef76b53a45a6341ee7682706cc7a341dbf83fe8736a6a41c7df36e64c1d6741b2d90f893fa8c5419b5f08412e23a34182259dfcff2b894165c6bd95ff010b4147626ef4daef87412625d5eea10e704102258f597f014a40d90b7b5b69ff9740abfcc1cfeca5994077c71c93ce05c0403b597ea47fdda23ff0000000000000403ad5336963eefb407606b9278cfb5f40a78abd8bace9f640d2609f6b03511e40f6480d4a4e9df24115c5d3fff6d07041318f86f65228ce4147be51f75f7ebf415b295937027169416a676d62bcfad44175cd69d3c708d7417e66e8bc3468964181a7f99b153d8a4180a2c1326a27054178184170cd3ee14167546348d514a1,
  0x4172c42fd0bf0d4f419a0b5783491f4441b92cacc9f92e6741d38fd67e3415b941e9e90b14f8df0541fe31cd933ed4f6420f94b8ad38e2dc421e0cea06c73fe1422a44d11fe1b33042353ff55f921f7b423ffe1a9d7d62f34246823fb86257ab424db4324c2c345442526e60c66f90f942558e3eec3076ae4257cc346cac30f44258d534b489a39e425883f2563d80004256e930b8eb2f96425446a31d78a2cf4250fe5b9f8dc604424af8ac89275c8e424441e0843a246b423cc76d13e6207d423350b150151c3c42287746ff09ac4d421d3285bacea6bc421061d4fce196f642013ef132a8a77f41f0fbd3cb000a0041df2ff80d5d726141ca96ebc9a6dfc241b4f2c1500b3960419e528dee446ffc4184040ca91c57af4167e2fb27c807c741497aa57fc44c904127f0cc955fc85b41036f6ef176159440da8a56fc33e0bc40ad4da9efcf273640788f4462d1c555403bd22395cd344d3ff0000000000000403b597ea47fdda24076eeee8953be0740a919b2cab5f57340d41ee6f855d16540f921798dc137b0411964250d34d6874135445a92d20545414e046d1d371f83416209c3f573306141729247d0c8a06d418069890d7785cc4188d863d7e1ff56418ffae60954dc1541913efb0a8d2211418e550337f5842b418497da088d2a954172c42fd0bf0d4f,
  0x417d015dab494d4441a3a8b4aaa4a9a741c28cce412f0aa841dc201edf3e17b741f2292fbaa89e1f42049effa51e4319421500165463150f4223714a23f5228c423086131c783c534239f832fd7d551a4242f96390d815a94249e3d5129cc7a742508c92524c97784253dff53779003242567820d30915524257f36f0e1e3132425819a2e1d7ac994256e930b8eb2f964254967f70c6800042517dc4331659be424c1909a984be9042455408ccc8ddf5423e94e7ae5b8b734234b0554f4321a5422a61dd9a68e650421fa8a386177ac74211d7531fa8699e4202d7d04dc8fae341f298c12ca0877641e117d2ec49aae641cd256c7d122b1b41b6f012c97853fe41a090b9bdef6a074185cc629810156c4169e67c4d3fa48c414b798cf33cfd2a4129a4a5afd285e24104a715516cbddd40dbf187c6e1571240ae86f5c36452c540794766d5ffefa5403c3fb780c4f5833ff0000000000000403bd22395cd344d4077c71c93ce05c040aa9599029b23e640d5d28369f7fd1340fbfd2015390940411d21b2ea145a0a41393a8e83134fbf41527d54a4966dad41673289539ed359417917826052491941877c304f1a71ba4193066df40a5c12419a95d39b8451c1419fc684c66b2890419ffc91b76c4238419a5eea575041194190d9bf6db1b5fd417d015dab494d44,
  0x41858ff5091bce5a41ac8863d182d6ed41ca443c679581bc41e36a307a83988741f86e048f192507420b025b80b0c6c7421ac336174c3a4f422816cb83d848904233e3433deb417c423e56579398da1f42457e63f9f98b49424c694de9436dcc42519330b33655b14254673dae167335425645729bb5d64f4256e45c64858d7d42562e78be95d40f425446a31d78a2cf42517dc4331659be424c7b8409bc00004245e1e087ab5bc1423fb5e41fd8b3154235a6cdfe2740c4422bd48cdce696b34220cf843b96cc8242130d5198de1afa420435cf30cd852641f402d5a8a014ca41e26ecf0d343b4341cf76edea17de4741b8c3282c95c9a741a1dd1f05baf86a418774cd63192cf2416bc790d34e6c06414d56eebffff92e412b3b946bcbe9354105c943896fedc440dd3e6dc36b2c8d40afa76e6e647b3e4079ef849f3d42a0403ca2b9714180f63ff0000000000000403c3fb780c4f58340788f4462d1c55540abfcc1cfeca59940d777d4da01ec0940fed2a41e9c0372412078cf469d4a25413d63fda7ffe81341564578a7a773a7416d0468988509aa418061ed57e7e3b741901c0600459951419ba491ec0b42b241a4abb3a690298241aad252f2d5bd2141adebb4824e3ffc41ac3cb02c784f4a41a5e8ff2fb128c8419a71ec1fd6ecaa41858ff5091bce5a,
  0x418edf603b3f442141b3ed9b720fcca341d1e2fff678689c41e9c38750fc531741ff90caac26cb9a4210fa46ebd370e642205af4f35eab6b422c9a07aaeb1f5f4236eb38d1652b6c4240f3661d5f10c6424744b4c871d279424dc3d81a644b224251cc70074749424253f34c2f63c6f34254ffc93f67b5064254c8f83d318fa842535d85531f832b4250fe5b9f8dc604424c1909a984be904245e1e087ab5bc142400c258d9a0000423625c7f57d9343422cbb662d15d2e142217e66ccc0c3534213f5b3649ce07e42054a58f3da890f41f52c515a033d0e41e3911ebb22e1cb41d0bc7c9a4a6ee241ba5ef7d0ba81be41a3063486550a054188f403442156fc416d7d15a2ca5699414f0b17bcba54c6412cb0354270dc834106d2feb9f154b440de6ea8f7ec70f140b056ffb97f5ae6407a879e4d17a66c403cfb95bb9dcc0c3ff0000000000000403ca2b9714180f640794766d5ffefa540ad4da9efcf273640d90b7b5b69ff974100ccf3e9b8de974122635dbaff78f34140d8899fd44a6b415a4cf2793a1f1e4171b725a1bfbf344184c5ee65b9c260419552e65b0ac67a41a33895f786897941ae71ed8cf3e3a741b523d4d3778d3341b99a0da15b3b5e41bac66498694a3d41b7c82e235f119f41b16d96f0268d5041a3ed9b720fcca3418edf603b3f4421,
  0x41954dd8f6abff2541bad0dd5c86dad841d773a3a1718a1441f071feff649f3642039aa5ffb9e00a421480a0cf5f07f542232fc45adfbb5f4230487629a0e2e542394e0749c469c74242216d95a83faa424815c6d446aded424dc860e07856b1425131efdb0c5169425295e65501805d4252d689cf1208814251edc5bc17bd7e425009379ccb4f04424af8ac89275c8e42455408ccc8ddf5423fb5e41fd8b315423625c7f57d9343422d09ca0c6c00004221d82308a2b5f5421485aa05fb56df420609a546f8ab4241f609a546f8ab4241e47486439452fa41d18d9b8b1e9fcd41bbb7c8be6588f841a40478b994249c418a41858f2ecf31416efeaa69ab93874150477d96d5f94f412dfd9ef8840e774107c1950082cedd40df8019691a528040b0ccda5a302c00407b0fb4525ba789403d4aa8b979af2e3ff0000000000000403cfb95bb9dcc0c4079ef849f3d42a040ae86f5c36452c540da8a56fc33e0bc4102258f597f014a412449e4d8af0988414308963ceb859b415e83d36cb9610c41752c8995be4fca4189ac0d688ef30b419b5dd4d4df651041a9c03f720cf94141b56d14ed9c4aa941bf837b5af7fd7a41c46c5367a64d0a41c7301413836d9641c6d2eac6bba9d441c3257363e2411441ba95beaca6053441ace0ee63a4ebae41954dd8f6abff25,
  0x419c5d75c7ef2aa041c164e3c420610241dd9f8d497c2c9741f4362b140bc49142076caf23ac0d6e4217cc4c13c284bb42259d9a8ccfd9fb4231c9e2c4a896f6423ac7d7f6c74a2b424291ac183236394247d8636171faa7424c782cf7b67645424fb319deae664442507f3b843e822d425013f7f558acab424d613a523f589c42492ee41c67df3f424441e0843a246b423e94e7ae5b8b734235a6cdfe2740c4422cbb662d15d2e14221d82308a2b5f54214b66c5078000042066b6daa690b6b41f6921402ca3c4741e510df7a12162041d228126ab55af341bcc3a4a9fb808941a4d169e79f4659418b55dcee2e84994170227100f9c0044150ee290a6f644b412f1f719e9dcff7410892a1bdeba43240e0386f8d4c954240b134dc674d60c3407b87c70baf0139403d9040f230cfdf3ff0000000000000403d4aa8b979af2e407a879e4d17a66c40afa76e6e647b3e40dbf187c6e1571241036f6ef1761594412625d5eea10e704145397cda6adc0041616c305e0916c94178d424c05c0d90418f02d21d781d4641a11723ea10061a41b0b3417037133741bd02d5f6eeb2e741c66a1ba5413f3141cec4fdde8b65fc41d2b1d1c5e4322541d3fa0af3b0b70d41d29220c255a9c841cd846544f7d10541c377c901513db641b423fa4168dc1d419c5d75c7ef2aa0,
  0x41a23ad416d222b941c5c4fc65caaaf441e209507ff1d0ac41f7eda8eb70483d420af096e775eddf421a9079d1dc1aa7422765a9792286dc4232a7297bf4e410423b2d12325e525042423710c4f008254246958d6460e396424a003539b36fa9424be0ee9d06ed16424be6a6036da829424a1ac94a034b344246db6a1c761dfb4242bd868a2ab692423cc76d13e6207d4234b0554f4321a5422bd48cdce696b342217e66ccc0c353421485aa05fb56df42066b6daa690b6b41f6c02bfd00000041e5607fdcfc0b0941d286d536fc921941bd7ab8e09d32da41a567bca1b3ab55418c2acde5bc7b984170a4b66323938f415176db42a9a930413008f1c8aacf21410944113ffa1c8340e09fad079cbffb40b18ea9db4b7134407befd6c3bf34c7403dcca0d0cbf4083ff0000000000000403d9040f230cfdf407b0fb4525ba78940b056ffb97f5ae640dd3e6dc36b2c8d4104a715516cbddd4127f0cc955fc85b4147626ef4daef8741639bc6eb648d63417c9d7c8588afc1419259beacba33bf41a4d612f1dec93441b50d59d1d0eecb41c2fd35f779a9c141cea18ae8fcbc8641d6169de66d8bf941dc6d3afaf4340f41e04156cf7a7aff41e067b17a23a02141dce54bb677b53441d5d0d5f852fefa41cb681974c4c6b141bb1093bcd273ac41a23ad416d222b9,
  0x41a6a283cd1e954e41ca4c9e2b938c4341e52f2478d2265741fb4d2a4ff12248420dd555b82a1862421c86b05a846990422856ff2d0688864232c75181a3b145423a7274e0c6349f42411d80a4747c0a4244766feb9618ae4246af8f7e1d5e5b4247637e756f1ce9424678991fc57c3a424425f8aa9f007e4240dfeef9bcd585423a69c3f5fbe764423350b150151c3c422a61dd9a68e6504220cf843b96cc824213f5b3649ce07e420609a546f8ab4241f6921402ca3c4741e5607fdcfc0b0941d2a6c58100000041bdd7a26800000041a5c387f7269daa418cbb846255d6314171039e121f1afd4151df5d5f643488413068e63cb07bfd4109d423d77b577a40e0f51524920b8640b1d9f4cbe3d62e407c47e3b665d4bd403e0000000000003ff0000000000000403dcca0d0cbf408407b87c70baf013940b0ccda5a302c0040de6ea8f7ec70f14105c943896fedc44129a4a5afd285e241497aa57fc44c904165c6bd95ff010b41803b2a920372864195515d4d963d9741a8db2a63b3b79741b9defe230e700841c820e2d7375bb141d43599c729e0d241de6d1719e46af541e491be48a58b9f41e8ea227f1d61b841eae92c43eab99841e9babd2e81785041e586dc78d7189f41def4f83031b06841d28fb4ae20f82541c1886972625d8241a6a283cd1e954e,
  0x41ab296af624b32b41ceaeb8882c23a441e8023a66cc095241fe0814f1893f4f420fd27d913df7e0421d7a1ca1cd17bf422856ff2d068886423227130e6280b14238af17c0b8fde9423eceb45b3812784241bbfa98f98cdb4242e7a23e6dcea14242b5fec458e3ed42413a53430656b5423d8d064f93de9642379fe82a6ec48742319bd7f9529a4242287746ff09ac4d421fa8a386177ac742130d5198de1afa42054a58f3da890f41f609a546f8ab4241e510df7a12162041d286d536fc921941bdd7a26800000041a5e26608000000418d04b54988d23841713d4f6e338083415225fdf1323eec4130ae5725d4fdd4410a4170611a5ffc40e13817e4fce4fc40b2167cf3cefb39407c8fee1306237d403e2a8c7e4a7c853ff0000000000000403e000000000000407befd6c3bf34c740b134dc674d60c340df8019691a52804106d2feb9f154b4412b3b946bcbe935414b798cf33cfd2a4167e2fb27c807c74182259dfcff2b89419858bfdb052bc941ad11dc52870e2b41bf11f4fca0a57c41cdd9ea28731ece41d9da179d722b6241e43599c729e0d241ec8645a846244641f2263e7c55d58d41f4c31cbf4326c441f53ed21aabd5e441f34c0de2e11a3c41eec0a8aca0fe9a41e51b6366ad83ea41d835e08a14be1b41c5ea83cefaf4e341ab296af624b32b,
  0x41af839fdcfabf9241d14a7c1d27196f41ea4399cd95bd5a41ffdb7011ca0822421059d46890c530421d5088ffd519214227661c44ee21314230d95f5ba81494423617d953077398423a8d7c03cbd9a1423d64f1165dcab5423e14c011203b1c423c883149b83af6423920d6774abcd9423492573390cd71422f53724b02a79442262e79b0839f30421d3285bacea6bc4211d7531fa8699e420435cf30cd852641f52c515a033d0e41e47486439452fa41d228126ab55af341bd7ab8e09d32da41a5c387f7269daa418d04b54988d238417150aac0000000415249980d518be84130d85e24afc37e410a8ae6467a7c3440e1684549752e0240b2440f544947b5407cc7f5fe5350dc403e4c6b77882ab73ff0000000000000403e2a8c7e4a7c85407c47e3b665d4bd40b18ea9db4b713440e0386f8d4c95424107c1950082cedd412cb0354270dc83414d56eebffff92e4169e67c4d3fa48c4184040ca91c57af419b5f08412e23a341b0b12544014f9a41c244ee6a45e3b241d2063e8e80a16b41e01490571bfd2941e9fec202f75f3741f30d1f3ecf892c41f94ee0b998e79241fe6aa45f26dfe042007b63873cea78420005b6f5f67e6141fbb8519e33ba5641f51575d3fb5efa41ebaef1d07c39b841de6e44af3a0b4e41ca71eaff68f9b841af839fdcfabf92,
  0x41b1ae9ca196884a41d2d5290e59bd3041ebbd2e3b4d9b7c42004c20cc0be03442103096c9903f67421c0ee914ebf85042259fafd98a8368422e079347de6cfc4232f5710c392f5d4235e8c2ab32115c423748a45e6e21c54236d5bd9347f6a74234b7a252eecd2842316a9ef696acd1422b289b0bbbdff54223a4f13a5d360d421a5b08baab963d421061d4fce196f64202d7d04dc8fae341f402d5a8a014ca41e3911ebb22e1cb41d18d9b8b1e9fcd41bcc3a4a9fb808941a567bca1b3ab55418cbb846255d63141713d4f6e338083415249980d518be84130e67000000000410aafcefba09fd640e1854d526236dd40b26285ec08ba67407ceffb93a08f77403e65b9edeba38d3ff0000000000000403e4c6b77882ab7407c8fee1306237d40b1d9f4cbe3d62e40e09fad079cbffb410892a1bdeba432412dfd9ef8840e77414f0b17bcba54c6416bc790d34e6c064185cc629810156c419e528dee446ffc41b2d90f893fa8c541c51294f3ec2e7d41d54a28195a171541e38106de24b77c41f03d869273e72841f89cea3c81ad984200fa29d2f2e68142054cc9c8e4132742084084a68f33c24208f80f888021f342071de5f3ee683c4203168b2d1a904b41fbc637fbf2f56841f1796a1c185ea841e270abd30f3a4541ced12be8efefc341b1ae9ca196884a,
  0x41b3322e8332620e41d3d358538cf0ce41ec49f65fe6739b4200159690b92383420ee41fc90f04de4219d8694f9af602422334fd5c8267264229af781ba07871422f2f53473ed13642314c5a241f843e42319e16341fb29c423086d61cde127a422ca006085e0eca4226eb1d4acdac7b4220f9c1366eeb01421743d78cf344e2420d7aada420ce8142013ef132a8a77f41f298c12ca0877641e26ecf0d343b4341d0bc7c9a4a6ee241bbb7c8be6588f841a4d169e79f4659418c2acde5bc7b984171039e121f1afd415225fdf1323eec4130d85e24afc37e410aafcefba09fd640e18f000000000040b271c781e285ef407d07fee5d23c3a403e768d399dc46f3ff0000000000000403e65b9edeba38d407cc7f5fe5350dc40b2167cf3cefb3940e0f51524920b86410944113ffa1c83412f1f719e9dcff74150477d96d5f94f416d7d15a2ca5699418774cd63192cf241a090b9bdef6a0741b4f2c1500b396041c7df36e64c1d6741d8a2f70d6dd1ea41e71cccf8629ec941f3c3299a8b315941feda9d6cf8516f4206014585d4d1b2420cab8d35c91548421109da5a8a1d0642126e10b9b5cfb44212123bdf0a876d420ff0c061bdcd6b42093a2d454d1326420196bfa8e77bd441f53f337c48cb6741e58f1380d3c16541d158ed491b52b441b3322e8332620e,
  0x41b42a1bfdfffe8e41d42ccc18232cd841ebdbdf3314806641fe9fa77df0d50e420c64b68879d56f4216e83f4e05d6d54220649c467906cf422514423df87dce42289192621dbcf6422a1eeaf9cdccb94229723cc6cea92a4226c920db2ec95a4222cb154ab67912421c96b42776f3be42140fa145ec5b524209f757d6a9e19a41fef76b53a45a6341f0fbd3cb000a0041e117d2ec49aae641cf76edea17de4741ba5ef7d0ba81be41a40478b994249c418b55dcee2e84994170a4b66323938f4151df5d5f6434884130ae5725d4fdd4410a8ae6467a7c3440e1854d526236dd40b271c781e285ef407d100000000000403e7ef3644c39313ff0000000000000403e768d399dc46f407ceffb93a08f7740b2440f544947b540e13817e4fce4fc4109d423d77b577a413008f1c8aacf214150ee290a6f644b416efeaa69ab93874188f403442156fc41a1dd1f05baf86a41b6f012c97853fe41ca96ebc9a6dfc241dbf83fe8736a6a41eacdc606e0e8e141f77822858da1574202d02de1d0c16e420ba4f2b9dfd17842129edb89d3a74c4216fbd3cc5790894219f3c6c6a4d54f421abc22de6152da421905e1a119c53d421526fb31a46be3421002aade72304d42056eb4b999131141f8e4e157835c4341e852f7bb302e0b41d2df95a2f79d9041b42a1bfdfffe8e,
  0x41b47f707277cbb241d3d8cfab01f7d441ea7e0913a9e12a41fc1e06e53aa1d942092376957ab138421387b3cc83c3dc421ae09d27e71685422096ce9d978c3142228797deb6bb064222d7ffb4e5eaa9422185d0c180973d421de30854c516b242176af1283032834210dfd0c3f18cbd42065dbbe6f81e3e41fb3f32efc4e5f841ee7682706cc7a341df2ff80d5d726141cd256c7d122b1b41b8c3282c95c9a741a3063486550a05418a41858f2ecf314170227100f9c004415176db42a9a930413068e63cb07bfd410a4170611a5ffc40e1684549752e0240b26285ec08ba67407d07fee5d23c3a403e7ef3644c39313ff0000000000000403e7ef3644c3931407d07fee5d23c3a40b26285ec08ba6740e1684549752e02410a4170611a5ffc413068e63cb07bfd415176db42a9a9304170227100f9c004418a41858f2ecf3141a3063486550a0541b8c3282c95c9a741cd256c7d122b1b41df2ff80d5d726141ee7682706cc7a341fb3f32efc4e5f842065dbbe6f81e3e4210dfd0c3f18cbd42176af128303283421de30854c516b2422185d0c180973d4222d7ffb4e5eaa942228797deb6bb06422096ce9d978c31421ae09d27e71685421387b3cc83c3dc42092376957ab13841fc1e06e53aa1d941ea7e0913a9e12a41d3d8cfab01f7d441b47f707277cbb2,
  0x41b42a1bfdfffe8e41d2df95a2f79d9041e852f7bb302e0b41f8e4e157835c4342056eb4b9991311421002aade72304d421526fb31a46be3421905e1a119c53d421abc22de6152da4219f3c6c6a4d54f4216fbd3cc57908942129edb89d3a74c420ba4f2b9dfd1784202d02de1d0c16e41f77822858da15741eacdc606e0e8e141dbf83fe8736a6a41ca96ebc9a6dfc241b6f012c97853fe41a1dd1f05baf86a4188f403442156fc416efeaa69ab93874150ee290a6f644b413008f1c8aacf214109d423d77b577a40e13817e4fce4fc40b2440f544947b5407ceffb93a08f77403e768d399dc46f3ff0000000000000403e7ef3644c3931407d10000000000040b271c781e285ef40e1854d526236dd410a8ae6467a7c344130ae5725d4fdd44151df5d5f6434884170a4b66323938f418b55dcee2e849941a40478b994249c41ba5ef7d0ba81be41cf76edea17de4741e117d2ec49aae641f0fbd3cb000a0041fef76b53a45a634209f757d6a9e19a42140fa145ec5b52421c96b42776f3be4222cb154ab679124226c920db2ec95a4229723cc6cea92a422a1eeaf9cdccb942289192621dbcf6422514423df87dce4220649c467906cf4216e83f4e05d6d5420c64b68879d56f41fe9fa77df0d50e41ebdbdf3314806641d42ccc18232cd841b42a1bfdfffe8e,
  0x41b3322e8332620e41d158ed491b52b441e58f1380d3c16541f53f337c48cb67420196bfa8e77bd442093a2d454d1326420ff0c061bdcd6b4212123bdf0a876d42126e10b9b5cfb4421109da5a8a1d06420cab8d35c915484206014585d4d1b241feda9d6cf8516f41f3c3299a8b315941e71cccf8629ec941d8a2f70d6dd1ea41c7df36e64c1d6741b4f2c1500b396041a090b9bdef6a07418774cd63192cf2416d7d15a2ca56994150477d96d5f94f412f1f719e9dcff7410944113ffa1c8340e0f51524920b8640b2167cf3cefb39407cc7f5fe5350dc403e65b9edeba38d3ff0000000000000403e768d399dc46f407d07fee5d23c3a40b271c781e285ef40e18f0000000000410aafcefba09fd64130d85e24afc37e415225fdf1323eec4171039e121f1afd418c2acde5bc7b9841a4d169e79f465941bbb7c8be6588f841d0bc7c9a4a6ee241e26ecf0d343b4341f298c12ca0877642013ef132a8a77f420d7aada420ce81421743d78cf344e24220f9c1366eeb014226eb1d4acdac7b422ca006085e0eca423086d61cde127a42319e16341fb29c42314c5a241f843e422f2f53473ed1364229af781ba07871422334fd5c8267264219d8694f9af602420ee41fc90f04de4200159690b9238341ec49f65fe6739b41d3d358538cf0ce41b3322e8332620e,
  0x41b1ae9ca196884a41ced12be8efefc341e270abd30f3a4541f1796a1c185ea841fbc637fbf2f5684203168b2d1a904b42071de5f3ee683c4208f80f888021f342084084a68f33c242054cc9c8e413274200fa29d2f2e68141f89cea3c81ad9841f03d869273e72841e38106de24b77c41d54a28195a171541c51294f3ec2e7d41b2d90f893fa8c5419e528dee446ffc4185cc629810156c416bc790d34e6c06414f0b17bcba54c6412dfd9ef8840e77410892a1bdeba43240e09fad079cbffb40b1d9f4cbe3d62e407c8fee1306237d403e4c6b77882ab73ff0000000000000403e65b9edeba38d407ceffb93a08f7740b26285ec08ba6740e1854d526236dd410aafcefba09fd64130e67000000000415249980d518be841713d4f6e338083418cbb846255d63141a567bca1b3ab5541bcc3a4a9fb808941d18d9b8b1e9fcd41e3911ebb22e1cb41f402d5a8a014ca4202d7d04dc8fae3421061d4fce196f6421a5b08baab963d4223a4f13a5d360d422b289b0bbbdff542316a9ef696acd14234b7a252eecd284236d5bd9347f6a7423748a45e6e21c54235e8c2ab32115c4232f5710c392f5d422e079347de6cfc42259fafd98a8368421c0ee914ebf85042103096c9903f6742004c20cc0be03441ebbd2e3b4d9b7c41d2d5290e59bd3041b1ae9ca196884a,
  0x41af839fdcfabf9241ca71eaff68f9b841de6e44af3a0b4e41ebaef1d07c39b841f51575d3fb5efa41fbb8519e33ba56420005b6f5f67e6142007b63873cea7841fe6aa45f26dfe041f94ee0b998e79241f30d1f3ecf892c41e9fec202f75f3741e01490571bfd2941d2063e8e80a16b41c244ee6a45e3b241b0b12544014f9a419b5f08412e23a34184040ca91c57af4169e67c4d3fa48c414d56eebffff92e412cb0354270dc834107c1950082cedd40e0386f8d4c954240b18ea9db4b7134407c47e3b665d4bd403e2a8c7e4a7c853ff0000000000000403e4c6b77882ab7407cc7f5fe5350dc40b2440f544947b540e1684549752e02410a8ae6467a7c344130d85e24afc37e415249980d518be8417150aac0000000418d04b54988d23841a5c387f7269daa41bd7ab8e09d32da41d228126ab55af341e47486439452fa41f52c515a033d0e420435cf30cd85264211d7531fa8699e421d3285bacea6bc42262e79b0839f30422f53724b02a794423492573390cd71423920d6774abcd9423c883149b83af6423e14c011203b1c423d64f1165dcab5423a8d7c03cbd9a1423617d9530773984230d95f5ba814944227661c44ee2131421d5088ffd51921421059d46890c53041ffdb7011ca082241ea4399cd95bd5a41d14a7c1d27196f41af839fdcfabf92,
  0x41ab296af624b32b41c5ea83cefaf4e341d835e08a14be1b41e51b6366ad83ea41eec0a8aca0fe9a41f34c0de2e11a3c41f53ed21aabd5e441f4c31cbf4326c441f2263e7c55d58d41ec8645a846244641e43599c729e0d241d9da179d722b6241cdd9ea28731ece41bf11f4fca0a57c41ad11dc52870e2b419858bfdb052bc94182259dfcff2b894167e2fb27c807c7414b798cf33cfd2a412b3b946bcbe9354106d2feb9f154b440df8019691a528040b134dc674d60c3407befd6c3bf34c7403e0000000000003ff0000000000000403e2a8c7e4a7c85407c8fee1306237d40b2167cf3cefb3940e13817e4fce4fc410a4170611a5ffc4130ae5725d4fdd4415225fdf1323eec41713d4f6e338083418d04b54988d23841a5e2660800000041bdd7a26800000041d286d536fc921941e510df7a12162041f609a546f8ab4242054a58f3da890f42130d5198de1afa421fa8a386177ac742287746ff09ac4d42319bd7f9529a4242379fe82a6ec487423d8d064f93de9642413a53430656b54242b5fec458e3ed4242e7a23e6dcea14241bbfa98f98cdb423eceb45b3812784238af17c0b8fde9423227130e6280b1422856ff2d068886421d7a1ca1cd17bf420fd27d913df7e041fe0814f1893f4f41e8023a66cc095241ceaeb8882c23a441ab296af624b32b,
  0x41a6a283cd1e954e41c1886972625d8241d28fb4ae20f82541def4f83031b06841e586dc78d7189f41e9babd2e81785041eae92c43eab99841e8ea227f1d61b841e491be48a58b9f41de6d1719e46af541d43599c729e0d241c820e2d7375bb141b9defe230e700841a8db2a63b3b7974195515d4d963d9741803b2a920372864165c6bd95ff010b41497aa57fc44c904129a4a5afd285e24105c943896fedc440de6ea8f7ec70f140b0ccda5a302c00407b87c70baf0139403dcca0d0cbf4083ff0000000000000403e000000000000407c47e3b665d4bd40b1d9f4cbe3d62e40e0f51524920b864109d423d77b577a413068e63cb07bfd4151df5d5f6434884171039e121f1afd418cbb846255d63141a5c387f7269daa41bdd7a26800000041d2a6c58100000041e5607fdcfc0b0941f6921402ca3c47420609a546f8ab424213f5b3649ce07e4220cf843b96cc82422a61dd9a68e650423350b150151c3c423a69c3f5fbe7644240dfeef9bcd585424425f8aa9f007e424678991fc57c3a4247637e756f1ce94246af8f7e1d5e5b4244766feb9618ae42411d80a4747c0a423a7274e0c6349f4232c75181a3b145422856ff2d068886421c86b05a846990420dd555b82a186241fb4d2a4ff1224841e52f2478d2265741ca4c9e2b938c4341a6a283cd1e954e,
  0x41a23ad416d222b941bb1093bcd273ac41cb681974c4c6b141d5d0d5f852fefa41dce54bb677b53441e067b17a23a02141e04156cf7a7aff41dc6d3afaf4340f41d6169de66d8bf941cea18ae8fcbc8641c2fd35f779a9c141b50d59d1d0eecb41a4d612f1dec934419259beacba33bf417c9d7c8588afc141639bc6eb648d634147626ef4daef874127f0cc955fc85b4104a715516cbddd40dd3e6dc36b2c8d40b056ffb97f5ae6407b0fb4525ba789403d9040f230cfdf3ff0000000000000403dcca0d0cbf408407befd6c3bf34c740b18ea9db4b713440e09fad079cbffb410944113ffa1c83413008f1c8aacf21415176db42a9a9304170a4b66323938f418c2acde5bc7b9841a567bca1b3ab5541bd7ab8e09d32da41d286d536fc921941e5607fdcfc0b0941f6c02bfd00000042066b6daa690b6b421485aa05fb56df42217e66ccc0c353422bd48cdce696b34234b0554f4321a5423cc76d13e6207d4242bd868a2ab6924246db6a1c761dfb424a1ac94a034b34424be6a6036da829424be0ee9d06ed16424a003539b36fa94246958d6460e39642423710c4f00825423b2d12325e52504232a7297bf4e410422765a9792286dc421a9079d1dc1aa7420af096e775eddf41f7eda8eb70483d41e209507ff1d0ac41c5c4fc65caaaf441a23ad416d222b9,
  0x419c5d75c7ef2aa041b423fa4168dc1d41c377c901513db641cd846544f7d10541d29220c255a9c841d3fa0af3b0b70d41d2b1d1c5e4322541cec4fdde8b65fc41c66a1ba5413f3141bd02d5f6eeb2e741b0b3417037133741a11723ea10061a418f02d21d781d464178d424c05c0d9041616c305e0916c94145397cda6adc00412625d5eea10e7041036f6ef176159440dbf187c6e1571240afa76e6e647b3e407a879e4d17a66c403d4aa8b979af2e3ff0000000000000403d9040f230cfdf407b87c70baf013940b134dc674d60c340e0386f8d4c9542410892a1bdeba432412f1f719e9dcff74150ee290a6f644b4170227100f9c004418b55dcee2e849941a4d169e79f465941bcc3a4a9fb808941d228126ab55af341e510df7a12162041f6921402ca3c4742066b6daa690b6b4214b66c507800004221d82308a2b5f5422cbb662d15d2e14235a6cdfe2740c4423e94e7ae5b8b73424441e0843a246b42492ee41c67df3f424d613a523f589c425013f7f558acab42507f3b843e822d424fb319deae6644424c782cf7b676454247d8636171faa7424291ac18323639423ac7d7f6c74a2b4231c9e2c4a896f642259d9a8ccfd9fb4217cc4c13c284bb42076caf23ac0d6e41f4362b140bc49141dd9f8d497c2c9741c164e3c4206102419c5d75c7ef2aa0,
  0x41954dd8f6abff2541ace0ee63a4ebae41ba95beaca6053441c3257363e2411441c6d2eac6bba9d441c7301413836d9641c46c5367a64d0a41bf837b5af7fd7a41b56d14ed9c4aa941a9c03f720cf941419b5dd4d4df65104189ac0d688ef30b41752c8995be4fca415e83d36cb9610c414308963ceb859b412449e4d8af09884102258f597f014a40da8a56fc33e0bc40ae86f5c36452c54079ef849f3d42a0403cfb95bb9dcc0c3ff0000000000000403d4aa8b979af2e407b0fb4525ba78940b0ccda5a302c0040df8019691a52804107c1950082cedd412dfd9ef8840e774150477d96d5f94f416efeaa69ab9387418a41858f2ecf3141a40478b994249c41bbb7c8be6588f841d18d9b8b1e9fcd41e47486439452fa41f609a546f8ab42420609a546f8ab42421485aa05fb56df4221d82308a2b5f5422d09ca0c6c0000423625c7f57d9343423fb5e41fd8b31542455408ccc8ddf5424af8ac89275c8e425009379ccb4f044251edc5bc17bd7e4252d689cf120881425295e65501805d425131efdb0c5169424dc860e07856b1424815c6d446aded4242216d95a83faa42394e0749c469c74230487629a0e2e542232fc45adfbb5f421480a0cf5f07f542039aa5ffb9e00a41f071feff649f3641d773a3a1718a1441bad0dd5c86dad841954dd8f6abff25,
  0x418edf603b3f442141a3ed9b720fcca341b16d96f0268d5041b7c82e235f119f41bac66498694a3d41b99a0da15b3b5e41b523d4d3778d3341ae71ed8cf3e3a741a33895f7868979419552e65b0ac67a4184c5ee65b9c2604171b725a1bfbf34415a4cf2793a1f1e4140d8899fd44a6b4122635dbaff78f34100ccf3e9b8de9740d90b7b5b69ff9740ad4da9efcf273640794766d5ffefa5403ca2b9714180f63ff0000000000000403cfb95bb9dcc0c407a879e4d17a66c40b056ffb97f5ae640de6ea8f7ec70f14106d2feb9f154b4412cb0354270dc83414f0b17bcba54c6416d7d15a2ca56994188f403442156fc41a3063486550a0541ba5ef7d0ba81be41d0bc7c9a4a6ee241e3911ebb22e1cb41f52c515a033d0e42054a58f3da890f4213f5b3649ce07e42217e66ccc0c353422cbb662d15d2e1423625c7f57d934342400c258d9a00004245e1e087ab5bc1424c1909a984be904250fe5b9f8dc60442535d85531f832b4254c8f83d318fa84254ffc93f67b5064253f34c2f63c6f34251cc7007474942424dc3d81a644b22424744b4c871d2794240f3661d5f10c64236eb38d1652b6c422c9a07aaeb1f5f42205af4f35eab6b4210fa46ebd370e641ff90caac26cb9a41e9c38750fc531741d1e2fff678689c41b3ed9b720fcca3418edf603b3f4421,
  0x41858ff5091bce5a419a71ec1fd6ecaa41a5e8ff2fb128c841ac3cb02c784f4a41adebb4824e3ffc41aad252f2d5bd2141a4abb3a6902982419ba491ec0b42b241901c0600459951418061ed57e7e3b7416d0468988509aa41564578a7a773a7413d63fda7ffe813412078cf469d4a2540fed2a41e9c037240d777d4da01ec0940abfcc1cfeca59940788f4462d1c555403c3fb780c4f5833ff0000000000000403ca2b9714180f64079ef849f3d42a040afa76e6e647b3e40dd3e6dc36b2c8d4105c943896fedc4412b3b946bcbe935414d56eebffff92e416bc790d34e6c06418774cd63192cf241a1dd1f05baf86a41b8c3282c95c9a741cf76edea17de4741e26ecf0d343b4341f402d5a8a014ca420435cf30cd852642130d5198de1afa4220cf843b96cc82422bd48cdce696b34235a6cdfe2740c4423fb5e41fd8b3154245e1e087ab5bc1424c7b8409bc000042517dc4331659be425446a31d78a2cf42562e78be95d40f4256e45c64858d7d425645729bb5d64f4254673dae16733542519330b33655b1424c694de9436dcc42457e63f9f98b49423e56579398da1f4233e3433deb417c422816cb83d84890421ac336174c3a4f420b025b80b0c6c741f86e048f19250741e36a307a83988741ca443c679581bc41ac8863d182d6ed41858ff5091bce5a,
  0x417d015dab494d444190d9bf6db1b5fd419a5eea57504119419ffc91b76c4238419fc684c66b2890419a95d39b8451c14193066df40a5c1241877c304f1a71ba417917826052491941673289539ed35941527d54a4966dad41393a8e83134fbf411d21b2ea145a0a40fbfd201539094040d5d28369f7fd1340aa9599029b23e64077c71c93ce05c0403bd22395cd344d3ff0000000000000403c3fb780c4f58340794766d5ffefa540ae86f5c36452c540dbf187c6e157124104a715516cbddd4129a4a5afd285e2414b798cf33cfd2a4169e67c4d3fa48c4185cc629810156c41a090b9bdef6a0741b6f012c97853fe41cd256c7d122b1b41e117d2ec49aae641f298c12ca087764202d7d04dc8fae34211d7531fa8699e421fa8a386177ac7422a61dd9a68e6504234b0554f4321a5423e94e7ae5b8b7342455408ccc8ddf5424c1909a984be9042517dc4331659be4254967f70c680004256e930b8eb2f96425819a2e1d7ac994257f36f0e1e313242567820d30915524253dff53779003242508c92524c97784249e3d5129cc7a74242f96390d815a94239f832fd7d551a423086131c783c534223714a23f5228c421500165463150f42049effa51e431941f2292fbaa89e1f41dc201edf3e17b741c28cce412f0aa841a3a8b4aaa4a9a7417d015dab494d44,
  0x4172c42fd0bf0d4f418497da088d2a95418e550337f5842b41913efb0a8d2211418ffae60954dc154188d863d7e1ff56418069890d7785cc41729247d0c8a06d416209c3f5733061414e046d1d371f834135445a92d20545411964250d34d68740f921798dc137b040d41ee6f855d16540a919b2cab5f5734076eeee8953be07403b597ea47fdda23ff0000000000000403bd22395cd344d40788f4462d1c55540ad4da9efcf273640da8a56fc33e0bc41036f6ef17615944127f0cc955fc85b41497aa57fc44c904167e2fb27c807c74184040ca91c57af419e528dee446ffc41b4f2c1500b396041ca96ebc9a6dfc241df2ff80d5d726141f0fbd3cb000a0042013ef132a8a77f421061d4fce196f6421d3285bacea6bc42287746ff09ac4d423350b150151c3c423cc76d13e6207d424441e0843a246b424af8ac89275c8e4250fe5b9f8dc604425446a31d78a2cf4256e930b8eb2f96425883f2563d80004258d534b489a39e4257cc346cac30f442558e3eec3076ae42526e60c66f90f9424db4324c2c34544246823fb86257ab423ffe1a9d7d62f342353ff55f921f7b422a44d11fe1b330421e0cea06c73fe1420f94b8ad38e2dc41fe31cd933ed4f641e9e90b14f8df0541d38fd67e3415b941b92cacc9f92e67419a0b5783491f444172c42fd0bf0d4f,
  0x4167546348d514a14178184170cd3ee14180a2c1326a27054181a7f99b153d8a417e66e8bc3468964175cd69d3c708d7416a676d62bcfad4415b2959370271694147be51f75f7ebf41318f86f65228ce4115c5d3fff6d07040f6480d4a4e9df240d2609f6b03511e40a78abd8bace9f6407606b9278cfb5f403ad5336963eefb3ff0000000000000403b597ea47fdda24077c71c93ce05c040abfcc1cfeca59940d90b7b5b69ff974102258f597f014a412625d5eea10e704147626ef4daef874165c6bd95ff010b4182259dfcff2b89419b5f08412e23a341b2d90f893fa8c541c7df36e64c1d6741dbf83fe8736a6a41ee7682706cc7a341fef76b53a45a63420d7aada420ce81421a5b08baab963d42262e79b0839f3042319bd7f9529a42423a69c3f5fbe7644242bd868a2ab69242492ee41c67df3f425009379ccb4f0442535d85531f832b42562e78be95d40f425819a2e1d7ac994258d534b489a39e42584188d4a680004256717e306de5924253a6b99f22df2f425042c3b38ee2bc4249631d2a6165b04242a79c379f2f684239bc1ded15648442309ae003ccc1ac4223f4ea7eb1f1224216366ef74afddb4206bac8c9df6e6c41f52cb0caec36a041e1b7466f74a9a741ca19168c6e989141b064a5d89cdefb419090acfd8d1b3b4167546348d514a1,
  0x415bd27cf3b8c1c2416af051c700f8ff41715c00eee3eb0f41711bb00731e69a416b313edbf1fa844161e027666d73bd4153ae2dfc8d465b41423872ae4f0faa412c50d1de020b4e411253134cb2389b40f3796228a1607140d09b8c9d617b8840a5ea970960029040750e7b01ebcb5c403a4491e34f47d93ff0000000000000403ad5336963eefb4076eeee8953be0740aa9599029b23e640d777d4da01ec094100ccf3e9b8de97412449e4d8af09884145397cda6adc0041639bc6eb648d6341803b2a92037286419858bfdb052bc941b0b12544014f9a41c51294f3ec2e7d41d8a2f70d6dd1ea41eacdc606e0e8e141fb3f32efc4e5f84209f757d6a9e19a421743d78cf344e24223a4f13a5d360d422f53724b02a79442379fe82a6ec4874240dfeef9bcd5854246db6a1c761dfb424d613a523f589c4251edc5bc17bd7e4254c8f83d318fa84256e45c64858d7d4257f36f0e1e31324257cc346cac30f44256717e306de592425412ecd34c000042510277e67bb87a424b452b10fa0f394244a487f670b0de423d71d3dd5446024233bacacd28f3774228c0d494cf80f1421cf216294472f2420f5eaf719a9e3941ff46e401c0365a41ec689e9dc840ef41d7304d7340f75341c0ac63fe92911841a4759362b130774184343d5540babf415bd27cf3b8c1c2,
  0x414fc67462b80f27415cb71335df607541612eb0426210c3415f4321119143d64156c638d1d91e0e414b3872b5190aae413af8ced5a741f041263251ea86d7b7410e2ed1e4879afb40f0be1189f05ccf40cda79cb5b4f6e740a43b51a1bc495f407406323d7b40f34039a6c96759af483ff0000000000000403a4491e34f47d9407606b9278cfb5f40a919b2cab5f57340d5d28369f7fd1340fed2a41e9c03724122635dbaff78f3414308963ceb859b41616c305e0916c9417c9d7c8588afc14195515d4d963d9741ad11dc52870e2b41c244ee6a45e3b241d54a28195a171541e71cccf8629ec941f77822858da15742065dbbe6f81e3e42140fa145ec5b524220f9c1366eeb01422b289b0bbbdff5423492573390cd71423d8d064f93de96424425f8aa9f007e424a1ac94a034b34425013f7f558acab4252d689cf1208814254ffc93f67b506425645729bb5d64f42567820d309155242558e3eec3076ae4253a6b99f22df2f42510277e67bb87a424bece86c2280004245b4fa78ab4409423fe57ca0999fc54236193718ab2cb5422ccabf63e752b9422192c8133bee634214024a71d833f3420520f1dcb74f4941f48a18644455c341e2336ab2d225da41cd016ca13e154a41b45ef37b673a6641986da1450eefbe4177966210d2eaa9414fc67462b80f27,
  0x41415798c832e9c4414d1af17ab3134f4150137d539ab249414acfe0c9cdd56a4141c1b6dcb959e6413319d9dbb9b92b4120d2d6ca28f1ba41083a8e9ddac74840ec3d58e383411d40ca1b88abbf0da240a27f3acb7638084072eddc64dfe3074038fae0c15ad3893ff00000000000004039a6c96759af4840750e7b01ebcb5c40a78abd8bace9f640d41ee6f855d16540fbfd2015390940412078cf469d4a254140d8899fd44a6b415e83d36cb9610c4178d424c05c0d90419259beacba33bf41a8db2a63b3b79741bf11f4fca0a57c41d2063e8e80a16b41e38106de24b77c41f3c3299a8b31594202d02de1d0c16e4210dfd0c3f18cbd421c96b42776f3be4226eb1d4acdac7b42316a9ef696acd1423920d6774abcd942413a53430656b5424678991fc57c3a424be6a6036da82942507f3b843e822d425295e65501805d4253f34c2f63c6f34254673dae1673354253dff53779003242526e60c66f90f9425042c3b38ee2bc424b452b10fa0f394245b4fa78ab44094240607f2d9e80004237607cdf800094422f7e01a89a6ede4223f6059cdf81894217b9b678aa25c9420a522de93f3c6a41fb196156d434f241e9b36b3c45eac041d63b7adfeb757041c14d9ce2513b8641a7c08459b5a82d418bd98edb171193416a4e81a50e2a1241415798c832e9c4,
  0x41320ce0fcf70144413bf6a27ed423b4413c51102d5f9a814135778028e33bea4129971251705ba441187805c39563db4102db85f4fe218e40e747395e9f7be540c69c1c30c2ba0840a0b8e34422653a4071c576254bd94c40383fab8b4d43153ff00000000000004038fae0c15ad389407406323d7b40f340a5ea970960029040d2609f6b03511e40f921798dc137b0411d21b2ea145a0a413d63fda7ffe813415a4cf2793a1f1e41752c8995be4fca418f02d21d781d4641a4d612f1dec93441b9defe230e700841cdd9ea28731ece41e01490571bfd2941f03d869273e72841feda9d6cf8516f420ba4f2b9dfd17842176af1283032834222cb154ab67912422ca006085e0eca4234b7a252eecd28423c883149b83af64242b5fec458e3ed4247637e756f1ce9424be0ee9d06ed16424fb319deae6644425131efdb0c51694251cc700747494242519330b33655b142508c92524c9778424db4324c2c34544249631d2a6165b04244a487f670b0de423fe57ca0999fc54237607cdf8000944230389178c40000422542f12cc00221421a3e54f9b7854d420e64944dc9e26342006ffddcbab81441f082b975d8182d41de925f772c3f3441c9d4b415b874aa41b3a59f56295ab9419a5eb911a5199a417e3f5147bd6509415bf6a27ed423b441320ce0fcf70144,
  0x4121dd7be5f6f70b41295ec6d3cc96c041275aed326cce6c411fdeb3d97d6dcb4110e296114458b140fc4111f6bd72ba40e2aa02475dd69940c33315cf831b5a409dd6530d6ca1dd40708cfae4fd37fb403773bb6fa96c503ff000000000000040383fab8b4d43154072eddc64dfe30740a43b51a1bc495f40d09b8c9d617b8840f6480d4a4e9df2411964250d34d68741393a8e83134fbf41564578a7a773a74171b725a1bfbf344189ac0d688ef30b41a11723ea10061a41b50d59d1d0eecb41c820e2d7375bb141d9da179d722b6241e9fec202f75f3741f89cea3c81ad984206014585d4d1b242129edb89d3a74c421de30854c516b24226c920db2ec95a423086d61cde127a4236d5bd9347f6a7423e14c011203b1c4242e7a23e6dcea14246af8f7e1d5e5b424a003539b36fa9424c782cf7b67645424dc860e07856b1424dc3d81a644b22424c694de9436dcc4249e3d5129cc7a74246823fb86257ab4242a79c379f2f68423d71d3dd5446024236193718ab2cb5422f7e01a89a6ede422542f12cc00221421b228b33a0000042105133cd0e56d342026cb9bcdf771741f3717b5027891c41e31099db56987841d13d79cadbf5d241bc789d85b10fe441a52c86f5e21382418bcd3b57093f7d416f3605207a21d1414c40d1c8f54aca4121dd7be5f6f70b,
  0x4110c24eea7962704115a2c39f9650be4111ecf60c4b8f764105be36407e974740f428d6e6b00feb40dcea0f3f69e43940bfd5663cbe4de0409a328ed81327dc406e88c82da644314036954b41cd42933ff0000000000000403773bb6fa96c504071c576254bd94c40a27f3acb76380840cda79cb5b4f6e740f3796228a160714115c5d3fff6d0704135445a92d2054541527d54a4966dad416d0468988509aa4184c5ee65b9c260419b5dd4d4df651041b0b3417037133741c2fd35f779a9c141d43599c729e0d241e43599c729e0d241f30d1f3ecf892c4200fa29d2f2e681420cab8d35c915484216fbd3cc579089422185d0c180973d4229723cc6cea92a42319e16341fb29c423748a45e6e21c5423d64f1165dcab54241bbfa98f98cdb4244766feb9618ae4246958d6460e3964247d8636171faa7424815c6d446aded424744b4c871d27942457e63f9f98b494242f96390d815a9423ffe1a9d7d62f34239bc1ded1564844233bacacd28f377422ccabf63e752b94223f6059cdf8189421a3e54f9b7854d42105133cd0e56d34203223434d0000041f513f3bfd9b70641e5b6ae3c9aea8841d4cbbb685977bb41c260c7ecf3719f41adad07bf1e61d04195971226b98e62417bbeb7e4f6de5f415e7f9b83241cf8413b0b74877be4ee4110c24eea796270,
  0x40fdaf1f2979655541013eb0d7374fa840f9667bd084e1a740eaf5540416a72c40d56c9e9731e11f40b99b5fc70ff26540968dc893fef1f1406bd750273465bf4035a220734903763ff00000000000004036954b41cd429340708cfae4fd37fb40a0b8e34422653a40ca1b88abbf0da240f0be1189f05ccf411253134cb2389b41318f86f65228ce414e046d1d371f8341673289539ed359418061ed57e7e3b7419552e65b0ac67a41a9c03f720cf94141bd02d5f6eeb2e741cea18ae8fcbc8641de6d1719e46af541ec8645a846244641f94ee0b998e79242054cc9c8e41327421109da5a8a1d064219f3c6c6a4d54f4222d7ffb4e5eaa9422a1eeaf9cdccb942314c5a241f843e4235e8c2ab32115c423a8d7c03cbd9a1423eceb45b38127842411d80a4747c0a42423710c4f00825424291ac183236394242216d95a83faa4240f3661d5f10c6423e56579398da1f4239f832fd7d551a42353ff55f921f7b42309ae003ccc1ac4228c0d494cf80f1422192c8133bee634217b9b678aa25c9420e64944dc9e26342026cb9bcdf771741f513f3bfd9b70641e6aac013c0000041d6cebabb2ec17e41c558dabb1423bb41b2722c864c6576419d235a2435ed5a4184bf7095410dee416a1b6a47a04565414c1cc25e1dbc6941286e2530e3b0d940fdaf1f29796555,
  0x40e8b2d9f9e4c18640e9823681c59b2540e0701572cdfdc540cde856112be0ca40b3ce8852fee1c34092f05b3e81f78f406905700c730d5d4034975cd57680873ff00000000000004035a22073490376406e88c82da64431409dd6530d6ca1dd40c69c1c30c2ba0840ec3d58e383411d410e2ed1e4879afb412c50d1de020b4e4147be51f75f7ebf416209c3f5733061417917826052491941901c060045995141a33895f786897941b56d14ed9c4aa941c66a1ba5413f3141d6169de66d8bf941e491be48a58b9f41f2263e7c55d58d41fe6aa45f26dfe042084084a68f33c242126e10b9b5cfb4421abc22de6152da42228797deb6bb0642289192621dbcf6422f2f53473ed1364232f5710c392f5d423617d9530773984238af17c0b8fde9423a7274e0c6349f423b2d12325e5250423ac7d7f6c74a2b42394e0749c469c74236eb38d1652b6c4233e3433deb417c423086131c783c53422a44d11fe1b3304223f4ea7eb1f122421cf216294472f24214024a71d833f3420a522de93f3c6a42006ffddcbab81441f3717b5027891c41e5b6ae3c9aea8841d6cebabb2ec17e41c66d691300000041b486599f156b7541a15993619fecab418ad2d3fb23eb334172b3aac81d99ba41570d67324e921641385396995446fc4114b9cc49708e0e40e8b2d9f9e4c186,
  0x40d331097868cb6c40d157e476eb869440c328b3e6fbe81240ad0c7db941b6bc408ec7e6028e5e29406612f7d2b13efe40337135779c8dca3ff00000000000004034975cd5768087406bd750273465bf409a328ed81327dc40c33315cf831b5a40e747395e9f7be541083a8e9ddac74841263251ea86d7b741423872ae4f0faa415b29593702716941729247d0c8a06d41877c304f1a71ba419ba491ec0b42b241ae71ed8cf3e3a741bf837b5af7fd7a41cec4fdde8b65fc41dc6d3afaf4340f41e8ea227f1d61b841f4c31cbf4326c442007b63873cea784208f80f888021f34212123bdf0a876d421905e1a119c53d422096ce9d978c31422514423df87dce4229af781ba07871422e079347de6cfc4230d95f5ba81494423227130e6280b14232c75181a3b1454232a7297bf4e4104231c9e2c4a896f64230487629a0e2e5422c9a07aaeb1f5f422816cb83d848904223714a23f5228c421e0cea06c73fe14216366ef74afddb420f5eaf719a9e39420520f1dcb74f4941fb196156d434f241f082b975d8182d41e31099db56987841d4cbbb685977bb41c558dabb1423bb41b486599f156b7541a26012d0000000418e67a10a2dd51341770386ddbf7e3f415f6fae7e07bac44142fcb16efd23574123a4c7b104909c41006a0a82d5c3f140d331097868cb6c,
  0x40bba394fafe758440b568b8e3181f7b40a3b569ec1cef784087e7de891c727d4062ff9434b3463840322a788fc76de53ff000000000000040337135779c8dca406905700c730d5d40968dc893fef1f140bfd5663cbe4de040e2aa02475dd6994102db85f4fe218e4120d2d6ca28f1ba413af8ced5a741f04153ae2dfc8d465b416a676d62bcfad4418069890d7785cc4193066df40a5c1241a4abb3a690298241b523d4d3778d3341c46c5367a64d0a41d2b1d1c5e4322541e04156cf7a7aff41eae92c43eab99841f53ed21aabd5e4420005b6f5f67e6142071de5f3ee683c420ff0c061bdcd6b421526fb31a46be3421ae09d27e716854220649c467906cf422334fd5c82672642259fafd98a83684227661c44ee2131422856ff2d068886422856ff2d068886422765a9792286dc42259d9a8ccfd9fb42232fc45adfbb5f42205af4f35eab6b421ac336174c3a4f421500165463150f420f94b8ad38e2dc4206bac8c9df6e6c41ff46e401c0365a41f48a18644455c341e9b36b3c45eac041de925f772c3f3441d13d79cadbf5d241c260c7ecf3719f41b2722c864c657641a15993619fecab418e67a10a2dd5134178a175d000000041624347d0aecaa241487297affa8ecc412cf3f9785c1a76410d60d1e3f4bb5c40e815cfff7b236b40bba394fafe7584,
  0x40a241f9c18e8ac64097921399ce45ba40815bdaabbd2297405f954e20de87e74030bbb307acafda3ff000000000000040322a788fc76de5406612f7d2b13efe4092f05b3e81f78f40b99b5fc70ff26540dcea0f3f69e43940fc4111f6bd72ba41187805c39563db413319d9dbb9b92b414b3872b5190aae4161e027666d73bd4175cd69d3c708d74188d863d7e1ff56419a95d39b8451c141aad252f2d5bd2141b99a0da15b3b5e41c7301413836d9641d3fa0af3b0b70d41e067b17a23a02141e9babd2e81785041f34c0de2e11a3c41fbb8519e33ba564203168b2d1a904b42093a2d454d1326421002aade72304d421387b3cc83c3dc4216e83f4e05d6d54219d8694f9af602421c0ee914ebf850421d5088ffd51921421d7a1ca1cd17bf421c86b05a846990421a9079d1dc1aa74217cc4c13c284bb421480a0cf5f07f54210fa46ebd370e6420b025b80b0c6c742049effa51e431941fe31cd933ed4f641f52cb0caec36a041ec689e9dc840ef41e2336ab2d225da41d63b7adfeb757041c9d4b415b874aa41bc789d85b10fe441adad07bf1e61d0419d235a2435ed5a418ad2d3fb23eb3341770386ddbf7e3f41624347d0aecaa2414a8a748000000041316a8c5765e14c41143aa9629d881b40f42390b13e6d2140d0346d79bdcfef40a241f9c18e8ac6,
  0x4085d2782880eaa9407689ae45e06cfb4058e5b4bb84ea80402e3307cc56cf5b3ff00000000000004030bbb307acafda4062ff9434b34638408ec7e6028e5e2940b3ce8852fee1c340d56c9e9731e11f40f428d6e6b00feb4110e296114458b14129971251705ba44141c1b6dcb959e64156c638d1d91e0e416b313edbf1fa84417e66e8bc346896418ffae60954dc15419fc684c66b289041adebb4824e3ffc41bac66498694a3d41c6d2eac6bba9d441d29220c255a9c841dce54bb677b53441e586dc78d7189f41eec0a8aca0fe9a41f51575d3fb5efa41fbc637fbf2f568420196bfa8e77bd442056eb4b999131142092376957ab138420c64b68879d56f420ee41fc90f04de42103096c9903f67421059d46890c530420fd27d913df7e0420dd555b82a1862420af096e775eddf42076caf23ac0d6e42039aa5ffb9e00a41ff90caac26cb9a41f86e048f19250741f2292fbaa89e1f41e9e90b14f8df0541e1b7466f74a9a741d7304d7340f75341cd016ca13e154a41c14d9ce2513b8641b3a59f56295ab941a52c86f5e213824195971226b98e624184bf7095410dee4172b3aac81d99ba415f6fae7e07bac441487297affa8ecc41316a8c5765e14c41166ae80000000040f98c0b48cc2fca40d8f64ddeac987240b3b8787d245f5b4085d2782880eaa9,
  0x40671f914b12ae724051e946fdb8345d402a61be6cfec9963ff0000000000000402e3307cc56cf5b405f954e20de87e74087e7de891c727d40ad0c7db941b6bc40cde856112be0ca40eaf5540416a72c4105be36407e9747411fdeb3d97d6dcb4135778028e33bea414acfe0c9cdd56a415f4321119143d641711bb00731e69a4181a7f99b153d8a41913efb0a8d2211419ffc91b76c423841ac3cb02c784f4a41b7c82e235f119f41c3257363e2411441cd846544f7d10541d5d0d5f852fefa41def4f83031b06841e51b6366ad83ea41ebaef1d07c39b841f1796a1c185ea841f53f337c48cb6741f8e4e157835c4341fc1e06e53aa1d941fe9fa77df0d50e4200159690b9238342004c20cc0be03441ffdb7011ca082241fe0814f1893f4f41fb4d2a4ff1224841f7eda8eb70483d41f4362b140bc49141f071feff649f3641e9c38750fc531741e36a307a83988741dc201edf3e17b741d38fd67e3415b941ca19168c6e989141c0ac63fe92911841b45ef37b673a6641a7c08459b5a82d419a5eb911a5199a418bcd3b57093f7d417bbeb7e4f6de5f416a1b6a47a0456541570d67324e92164142fcb16efd2357412cf3f9785c1a7641143aa9629d881b40f98c0b48cc2fca40dc93000000000040bb698fdd40bd76409545044d4abe2f40671f914b12ae72,
  0x4045092295a364184025b9be5d52a9da3ff0000000000000402a61be6cfec9964058e5b4bb84ea8040815bdaabbd229740a3b569ec1cef7840c328b3e6fbe81240e0701572cdfdc540f9667bd084e1a74111ecf60c4b8f7641275aed326cce6c413c51102d5f9a814150137d539ab24941612eb0426210c341715c00eee3eb0f4180a2c1326a2705418e550337f5842b419a5eea5750411941a5e8ff2fb128c841b16d96f0268d5041ba95beaca6053441c377c901513db641cb681974c4c6b141d28fb4ae20f82541d835e08a14be1b41de6e44af3a0b4e41e270abd30f3a4541e58f1380d3c16541e852f7bb302e0b41ea7e0913a9e12a41ebdbdf3314806641ec49f65fe6739b41ebbd2e3b4d9b7c41ea4399cd95bd5a41e8023a66cc095241e52f2478d2265741e209507ff1d0ac41dd9f8d497c2c9741d773a3a1718a1441d1e2fff678689c41ca443c679581bc41c28cce412f0aa841b92cacc9f92e6741b064a5d89cdefb41a4759362b1307741986da1450eefbe418bd98edb171193417e3f5147bd6509416f3605207a21d1415e7f9b83241cf8414c1cc25e1dbc6941385396995446fc4123a4c7b104909c410d60d1e3f4bb5c40f42390b13e6d2140d8f64ddeac987240bb698fdd40bd764099d400000000004073b0548492e9ed4045092295a36418,
  0x401efbdeb14f4ed93ff00000000000004025b9be5d52a9da4051e946fdb8345d407689ae45e06cfb4097921399ce45ba40b568b8e3181f7b40d157e476eb869440e9823681c59b2541013eb0d7374fa84115a2c39f9650be41295ec6d3cc96c0413bf6a27ed423b4414d1af17ab3134f415cb71335df6075416af051c700f8ff4178184170cd3ee1418497da088d2a954190d9bf6db1b5fd419a71ec1fd6ecaa41a3ed9b720fcca341ace0ee63a4ebae41b423fa4168dc1d41bb1093bcd273ac41c1886972625d8241c5ea83cefaf4e341ca71eaff68f9b841ced12be8efefc341d158ed491b52b441d2df95a2f79d9041d3d8cfab01f7d441d42ccc18232cd841d3d358538cf0ce41d2d5290e59bd3041d14a7c1d27196f41ceaeb8882c23a441ca4c9e2b938c4341c5c4fc65caaaf441c164e3c420610241bad0dd5c86dad841b3ed9b720fcca341ac8863d182d6ed41a3a8b4aaa4a9a7419a0b5783491f44419090acfd8d1b3b4184343d5540babf4177966210d2eaa9416a4e81a50e2a12415bf6a27ed423b4414c40d1c8f54aca413b0b74877be4ee41286e2530e3b0d94114b9cc49708e0e41006a0a82d5c3f140e815cfff7b236b40d0346d79bdcfef40b3b8787d245f5b409545044d4abe2f4073b0548492e9ed404d800000000000401efbdeb14f4ed9,
  0x3ff0000000000000401efbdeb14f4ed94045092295a3641840671f914b12ae724085d2782880eaa940a241f9c18e8ac640bba394fafe758440d331097868cb6c40e8b2d9f9e4c18640fdaf1f297965554110c24eea7962704121dd7be5f6f70b41320ce0fcf7014441415798c832e9c4414fc67462b80f27415bd27cf3b8c1c24167546348d514a14172c42fd0bf0d4f417d015dab494d4441858ff5091bce5a418edf603b3f442141954dd8f6abff25419c5d75c7ef2aa041a23ad416d222b941a6a283cd1e954e41ab296af624b32b41af839fdcfabf9241b1ae9ca196884a41b3322e8332620e41b42a1bfdfffe8e41b47f707277cbb241b42a1bfdfffe8e41b3322e8332620e41b1ae9ca196884a41af839fdcfabf9241ab296af624b32b41a6a283cd1e954e41a23ad416d222b9419c5d75c7ef2aa041954dd8f6abff25418edf603b3f442141858ff5091bce5a417d015dab494d444172c42fd0bf0d4f4167546348d514a1415bd27cf3b8c1c2414fc67462b80f2741415798c832e9c441320ce0fcf701444121dd7be5f6f70b4110c24eea79627040fdaf1f2979655540e8b2d9f9e4c18640d331097868cb6c40bba394fafe758440a241f9c18e8ac64085d2782880eaa940671f914b12ae724045092295a36418401efbdeb14f4ed93ff0000000000000]

/-- The coefficients for `2 ell = 61`: one number for each of the 62 values of `mp`, consisting of the doubles for the 62 values of `m`. -/
def wigner61 : List Nat := [
  0x3ff0000000000000401f3db2174e7468404563a5dd397da74067b6bad2875362408693299e20c7b140a30e2cb66d63d440bd1b88ed98e77340d465c6252223d640ea7f488d985ceb4100134109a260074112541c8ddb5a644123bb94028ef3da413423bed0d526d041438cd00d04fa404152198e62999c32416004fb16e6d1f6416b298d21661faf417618a39517e1b6418145ff8465b71b4189fc5d16ad41604192d4186abe3e16419a4f013e1257b941a1bcbd45c4eabf41a718d2f70ff4ec41ad1023f65a5dd641b1ada9285810e541b4cd54a2037a4141b7af27d5b3b99f41ba1945a62d92c141bbd72b8feef63341bcc0e8e1be44c341bcc0e8e1be44c341bbd72b8feef63341ba1945a62d92c141b7af27d5b3b99f41b4cd54a2037a4141b1ada9285810e541ad1023f65a5dd641a718d2f70ff4ec41a1bcbd45c4eabf419a4f013e1257b94192d4186abe3e164189fc5d16ad4160418145ff8465b71b417618a39517e1b6416b298d21661faf416004fb16e6d1f64152198e62999c3241438cd00d04fa40413423bed0d526d04123bb94028ef3da4112541c8ddb5a644100134109a2600740ea7f488d985ceb40d465c6252223d640bd1b88ed98e77340a30e2cb66d63d4408693299e20c7b14067b6bad2875362404563a5dd397da7401f3db2174e74683ff0000000000000,
  0x401f3db2174e7468404e000000000000407432803dca609f40960342aae0c6d940b4981d66dca35d40d1141a9559a08440e99f3d72302bc14101a0e9a32478ba411679e1b65b2d1e412ac1c179627c51413debbb7b808613414f94da94faee9d415f9689bab04238416e099b737e005a417b3ae05cb15ed54187966210d2eaa941938fffdb5de83c419f1ed7ad0d34d441a7c66c2c0a70ce41b177ad279f207a41b8b5c987a61b5f41c0d7a52143568d41c62479b7ba04ba41cc1810d18c265441d135d50cb7c46241d45f10389b866041d74e16b84f4c4441d9c69d2d4ab5b041db9174c5c6821c41dc8453362d364441dc882055bf2fda41db9c82637f369141d9d7eb6918f92e41d7642504e67de941d4781367bb540c41d14ff39edbd24141cc4b24c0663aa241c653ac9ae0901141c10117a7409def41b8fb33fd3ae48441b1af3a2fb9e7ae41a81b7fee7c9795419f9b9ad9fb5f584193e79c0d0eb1ca41880c324b8a3475417bd27cf3b8c1c2416ec426de4ac2c6416038dccfbb5e9f4150453433e44031413ef181b1a76fe3412bcaabdf433861411777a21a96ffbf410286237b6b912440eb24156372ee0740d2480ebc25d28840b65c6d7aed87ee409865dcd55b779840771f914b12ae72405237a9ee850e7f4025e8add236a58e3ff0000000000000401f3db2174e7468,
  0x404563a5dd397da7407432803dca609f409abc000000000040bca294060c972d40da51dd5234619040f56fda9b4d1a0b410f9372c8872fa44125529c8873fa9a413aac51149b5e68414f24809055c0f14161123784bb80044171a8831d994ebe41814d2de51faff041901c06aea84b14419c9609787042ea41a8394c22f6962f41b3a4d2a3e51c2241be8a26bcd4cce941c6c9ec92dffb5b41d0581d6e21d7da41d68ea0944c365141ddfb26ed146f9641e333db6d52fecc41e7b9054744b29b41ec478565b4a31e41f0459842edf06141f2155421538d9b41f36989d25f358041f42209886348be41f42ccc18232cd841f388cb1e0ffe9a41f246295e2ffeb141f083a2ee98a9de41ecd3a4ec02853f41e84a9114ef9bef41e3c13ff0c6d6ef41defe775ae9c9de41d77052e3499bf441d11331518590f141c7f1e50cfcbd3441c024c630e39e8b41b4e817f397ce7041a9f7ee89852892419ee3c70cd3bfdf41918fd9a8a9ffd941830c6f2a9097674173a8efe1037d9941634055f2db1d324151d2c095a9db3c413f1271c54894ca41295ec6d3cc96c0411347c63b8e7e8340fb0e5635937a7340e157e476eb869440c406bf06543d7b40a469a9e14fa2ad4081d155488fe0734059548fb52116ae402a9bb78af6cabc3ff00000000000004025e8add236a58e404563a5dd397da7,
  0x4067b6bad287536240960342aae0c6d940bca294060c972d40de22000000000040fb33ac2b2ab8a04115c0a59989946d412f728e84fb5c394144d5d3a304513241598fe889f151bd416d429fe059df40417f6fe5c72b7b37418fdac7b0d1aa7a419e8f8fafccebc841abd98edb17119341b82c252688a77041c4074c727fc13241cfbec60a0408eb41d81a4e7712449841e18eac0a9a90ed41e891f260656cca41f087f6b8980d8c41f5688c34ab612b41fab3b8a7afb31542000c491fed9ce34202995cd3e83a504204caca29b5df4b42066d5e0043565342075888b6bdfda5420774b7cf5455d94206bf2624de28af42054a4c6728f4c242033ad9a77fd4d04200c1e0552c558241fc2af1c10c509341f6d2b3836b887a41f1d183982a8c2941eaca7f1ca5813e41e36121a9559a8741daf3bcf71bfda841d1ff82d290412241c70e20d64268a541bc492f0adcc9da41b0975b98542ff341a2931464bfa65e4193ccee9462338f41840b7e4f91f901417335e21d8c69b541615d3c9d74efd3414d79106e9b9c3141375aed326cce6c4121299884e1cfd541072feda48b04e440ec789d6b0cfd0040cf4958961fe84040ae1aff2faa6c5340888c8f111c6ed440601235a34e5f9f402e768d399dc46f3ff0000000000000402a9bb78af6cabc405237a9ee850e7f4067b6bad2875362,
  0x408693299e20c7b140b4981d66dca35d40da51dd5234619040fb33ac2b2ab8a041181c08000000004132ec31c523e8c2414ad715919215be416170d4eae250554174fa5b9ef063004187885958b035214198c471bfbc1d4741a892cdb7a60f0e41b712e1ef70766741c491e1d6dd5ef541d174fce990e23641dc45688c605f5a41e5e2433e205e7041f03847a1067f2341f70dcb2424e95441ff74a08bad25c042049effa51e4319420a009699c27ecf420f8e2ae9c61aeb421270234e51fdc44214c22dd8a817244216860fb526ef7b42178f070e840d564217c1de9cf10c924217196f8e3b91ed4215a779026ced344213919d5f0cdef442110b367c1377dd420c9abfa4a62f6e42071dc5689cd5694201fb1b0467ebfe41fae7fede1f20a341f3591b1e1f0e4141eab7ffc0561d4d41e1b1e6679153ac41d67375e03843e141cb3ee2fdb81a6e41bf91eb48ad211541b16da4a938f99841a24acb4affef57419233156785803941811bb00731e69a416e44ff1ac82e8f41591491ed71000941435993cb4e481e412b99a4c6db03e4411207425528375440f54ffa9ef7102940d66e408ce0e89840b48a64aeb38981408f9fd37a4ff6fb40635737d0f147244030e1c7047b3b503ff0000000000000402e768d399dc46f4059548fb52116ae40771f914b12ae72408693299e20c7b1,
  0x40a30e2cb66d63d440d1141a9559a08440f56fda9b4d1a0b4115c0a59989946d4132ec31c523e8c2414d24940000000041644559ccf3e7964179d3d85a7a7b65418e71c1e554a15641a0ba383afbefbe41b13d0321214f4f41c0bd4d9204ecbc41cec09ab50378fc41dace53a1aca1b141e63b7adfeb757041f1956c9d56f98a41fa92e9a72efe7b4203373251c6822c420aa10ba5cb47ff4211b37766c73b4b421698f76ac40f0c421bb970d059db2342205af4f35eab6b42229125722c8580422449f300c565ea422558d4fb45d4fc4225a1550d62e9c542251be207de83b14223d715af48c46c4221f5234441411c421f4c164bc2f204421a3fd0a2a380a942152e07039959b242106e764c69917642087f4838c8233b4201881b290974f541f8115484b5a25441efa754dcfafdb341e3ea3bf8c4715841d7f01a67ed058841cb6fa9a755324641bdebb4824e3ffc41aef88c4c5b6c12419e56c6214c0a51418c077cd7a5e87a41785253c9c386de4163b91ecd4d47e0414db66f55cb91d14134a1a48aa499d0411a2885913f9cee40fde6c30f823afa40de4c6c5ba96ea440ba92d54ec6f0bb409377af7548243540667aaa08b30a744032548eb9151e853ff00000000000004030e1c7047b3b5040601235a34e5f9f4081d155488fe073409865dcd55b779840a30e2cb66d63d4,
  0x40bd1b88ed98e77340e99f3d72302bc1410f9372c8872fa4412f728e84fb5c39414ad715919215be41644559ccf3e796417ba58eb0000000419142a5264f9eaf41a3ee363eb203ab41b571ef3becee0e41c5a13d602be6a241d48c1ae2bb741341e27457f266d12441ef70f7da6c51d141f97868d21010c84203aa3e326081a8420cfe96173edd3a42147119f49607c5421b9a1b2a0851964221dd6ae53e9605422630b96c065b37422a77f327a216bb422e562f7ff82f6d4230b689f56b09cd4231b5a68be811c442320d07e8661d164231b34b28ded2394230b2afcf3a0af1422e4e6e173a375e422a73731231609c4226323cc6fc93334221e67314160318421bbb19abd8ed8b42149e120536b5ba420d66c86192f103420415c57f7fff8d41fa428ff4fb890b41f067b17a23a02141e38e5ddda3e94741d6335cc5f7167741c7f2c1640baece41b87c114d546b7341a7a78751ba64794195844263648e51418259759743a0b2416d30d3fa3ece404155850abb352bfb413d2d5eec7023b3412202321c3b1cb44103fa8d8f3c64b340e39337cfaab64940c08779ce7273d9409731ffe9ed33f340697d2d0524285b40339f152d0f54703ff00000000000004032548eb9151e8540635737d0f1472440888c8f111c6ed440a469a9e14fa2ad40b65c6d7aed87ee40bd1b88ed98e773,
  0x40d465c6252223d64101a0e9a32478ba4125529c8873fa9a4144d5d3a3045132416170d4eae250554179d3d85a7a7b65419142a5264f9eaf41a51cae2000000041b7dec54d4af06c41c9233d025fc52041d8cd964884ed5e41e709c14b219ec241f438a8baaaeb124200d33da03f93b7420a9c5f453b2b7e42140b60252d4da8421cd0a7ceed1ff74223cb5e07dfa27a422a0642542b712c4230637e31c5988c4233ca8a00fc26f34236eeaf386c05e9423982b963935a5d423b41bebce7f667423bfabe39ef5619423b99494744a14c423a2925a54ca1b74237d407a619127b4234d9fbdaea23494231865d8331a4a5422c47d74193a0bc4225e509bf27f84f422040bdf37a6d5742171de5f3ee683c420f779b94887a68420478fa919b326c41f96da811d79a2b41ee194d822fbea741e0f18467971ca041d21a6a5db9a45c41c24ec88ef9197a41b1784de3d159b8419f58137f4f7f72418a5172029bc877417492e73f56dfda415dc102fb00c2174143bdcd4b9991654127caca47acd3d84109b2ce268241dc40e86fe1d367ce5540c3f3e807f66a32409af4fdc174a5dd406c5f15699aa7dd4034c8dc2e42397f3ff000000000000040339f152d0f547040667aaa08b30a74408f9fd37a4ff6fb40ae1aff2faa6c5340c406bf06543d7b40d2480ebc25d28840d465c6252223d6,
  0x40ea7f488d985ceb411679e1b65b2d1e413aac51149b5e6841598fe889f151bd4174fa5b9ef06300418e71c1e554a15641a3ee363eb203ab41b7dec54d4af06c41ca6a1b0b00000041db36598e52af6541ea40e1dd1b4aee41f7d4c0522c3e9742046e4dfea5b29942109842ab81f8cc42199b3549d4e9d84222ce3a0b06d6b9422a5747d2edf1bf42319e5ee82f3f6b423689af85156fe9423b98f381bd104142402ffcd1bd8a914242347b51f0fecd4243a35a9394fb394244539cb93802a142443143b9967ab8424340f77e5db0a242419f086e171616423ef42bd788f299423a156ba6874d5c423514423df87dce423053ec8f38b77542283a77cc43a4e04221340b1ec1b79a42175b39aac20dbe420e47831cbe140e4202b6fa3bf22f1641f6058725a5555341e89e44320891b041da160b6b22295141ca2133dc5123b041b8a9cda160cf6641a5da851261987a419218b3d91f0523417bdb6bb92cf0a44163cc147fae6fdc4149c4868ca104b3412e64d64b4f98d24110069b1bc1c25940edac8ccc58297640c783b9b30b6f7b409eb822e59e9229406f20940af6494c4035d71fd8593cee3ff00000000000004034c8dc2e42397f40697d2d0524285b409377af7548243540b48a64aeb3898140cf4958961fe84040e157e476eb869440eb24156372ee0740ea7f488d985ceb,
  0x4100134109a26007412ac1c179627c51414f24809055c0f1416d429fe059df404187885958b0352141a0ba383afbefbe41b571ef3becee0e41c9233d025fc52041db36598e52af6541eb69478900000041f9d8273e1e426a4206ea04b7c6672242132d52d6d9d6c2421e64944dc9e2634226dcc6ad3bfb7c42305c233fc5eb9242364ff11524c345423d0a90971abde842420f136441d91142457b31337920794248756cd831bc1a424aac710abe614c424bdfc9cc08a78b424bebb6085ff9fc424acfd8b91419b24248af17c0b8fde94245c8be03c6844442426cb2895f6a7b423ddb73ba109eb9423729dd7bc4a710423131de4498643d422867d01f4be91d42208a97de0fd6ae42156365fae4e4be420a576e0a91ba9841fed918aed312c341f1241e91df49af41e208f9ac0b97e941d1ea7ff716f93d41c0bfe2b9d1745941ad5c51a871f397419803bb2e03e1b941823a9240fb36ba41698281ad11ac66415050ed0fc72c644132e08be956b23441137ba40b190b8940f19c4a422bc63c40cb2c714eb7e47f40a139fd18f5e3124070e0e3883aefd94036cdb2bbb212eb3ff00000000000004035d71fd8593cee406c5f15699aa7dd409731ffe9ed33f340ba92d54ec6f0bb40d66e408ce0e89840ec789d6b0cfd0040fb0e5635937a73410286237b6b91244100134109a26007,
  0x4112541c8ddb5a64413debbb7b8086134161123784bb8004417f6fe5c72b7b374198c471bfbc1d4741b13d0321214f4f41c5a13d602be6a241d8cd964884ed5e41ea40e1dd1b4aee41f9d8273e1e426a4207cce347f00000421499759fa6c0da4220d1c2f9d6cc184229fd6b4326c08142330c901feba6e6423a8b7e584dc73a42419cbbdeda4b264246497a024b6a4d424aecffe7217b5e424f1621ec1949694251294e78ac41314252216d95a83faa425255e01004b0b94251c0fe7a055355425075fe825e3bac424d39fc1f3ff6884248d676e6d97f574244330588246f26423f6c80488d5a6842375cf60f47fbcb423096c362447c2b422679addff9b07d421d03f7c8a7d9bf4211d22143a0c0164204caf0f94a09a841f6ff47acd50aaf41e80dd1070cd12341d7ba08652474e641c5ffad552b553e41b318f11c835c30419ee6b288dc5e4e41872b1bce483ba9416ff9b5234a7559415422deacc122624136e573499a556541172dcb0ca9b90640f48157263ea56c40cee4105d3719e240a310f688761228407221610d0d1a844037af78e6da9b303ff00000000000004036cdb2bbb212eb406f20940af6494c409af4fdc174a5dd40c08779ce7273d940de4c6c5ba96ea440f54ffa9ef7102941072feda48b04e4411347c63b8e7e83411777a21a96ffbf4112541c8ddb5a64,
  0x4123bb94028ef3da414f94da94faee9d4171a8831d994ebe418fdac7b0d1aa7a41a892cdb7a60f0e41c0bd4d9204ecbc41d48c1ae2bb741341e709c14b219ec241f7d4c0522c3e974206ea04b7c66722421499759fa6c0da422164e9a4600000422bb1c95a3ac33b4234d93e6bbd0966423dc1e14ca1065642442c4eac2b02e5424a068faec73482424ffe1a9d7d62f34252c1dfc451f3b94254ffe1c347a2b44256760d4d1dab144256f6d65f80bce2425673176afe3c4a4254fcea1497b5ff4252c3b44c271f9342500a90bfa90ef0424a375d4fbbbb99424477b266e37b2d423e83b309c52f414235b35c3e75b393422d6a894bb54e544222fa691811dff4421746926c48911f420b1613f5e0dd5841fdd8fb5566801541ef11f4fca0a57c41de777f1b41cc0041cc0c7bf6d349ee41b8260268bc29e641a359def174b373418cb3c7269d9a2b4173903b670be0b041584cd0b0fc3a31413b3470d74ae5da411b112d750b4c8640f77c9940fc1bfa40d1508be9759f1d40a4de0f3d390593407351c93ce03f9b40387eb1990b697a3ff00000000000004037af78e6da9b304070e0e3883aefd9409eb822e59e922940c3f3e807f66a3240e39337cfaab64940fde6c30f823afa41120742552837544121299884e1cfd541295ec6d3cc96c0412bcaabdf4338614123bb94028ef3da,
  0x413423bed0d526d0415f9689bab0423841814d2de51faff0419e8f8fafccebc841b712e1ef70766741cec09ab50378fc41e27457f266d12441f438a8baaaeb1242046e4dfea5b29942132d52d6d9d6c24220d1c2f9d6cc18422bb1c95a3ac33b42357b58de340000423f7e01a89a6ede4245ddf9c992d50a424cd31e640c6aa942520ff6f7a29ac242558ceeed1aa11f425881245cd6c21a425a938da05a3a90425b8258bdc64305425b3012cb7a9e7d4259a979069a1fd54257226786673b784253eadedd479a6842505f3eebcdc76f4249afc47443c336424337ec7cb825c3423b680c6470617242329abab6a3dedb422804a83b09fd41421d7110485ed35842111aa365d8b83d4202cc673f6e243d41f37f118239876941e306c8b4d294bf41d169c897987ca341bdc5b16d64eedb41a7a91b8244143f4191614ced0d3cb141776f6f80d70b11415cc0915be608fb413fbed6c53a8f70411f1904d840b53940fa852e04248c7a40d32d442834023e40a69ea78fec9c2c40747220c51b3f2140393d25dbd52eb43ff000000000000040387eb1990b697a407221610d0d1a8440a139fd18f5e31240c783b9b30b6f7b40e86fe1d367ce554103fa8d8f3c64b3411a2885913f9cee412b99a4c6db03e441375aed326cce6c413f1271c54894ca413ef181b1a76fe3413423bed0d526d0,
  0x41438cd00d04fa40416e099b737e005a41901c06aea84b1441abd98edb17119341c491e1d6dd5ef541dace53a1aca1b141ef70f7da6c51d14200d33da03f93b742109842ab81f8cc421e64944dc9e2634229fd6b4326c0814234d93e6bbd0966423f7e01a89a6ede424675b5bae80000424e52fedf2709ba42536a500583618e42579dde78f8738f425b52d7e8ffcbba425e19143cebfdea425f96ff70603b1c425f9bcf6079b6a4425e298218211aea425b73e238023b304257d50264a4be984253ba9d7c9e5984424f2308a76bee0942476873b503ee5d4240c08efa31d33b4236cdb48439eefc422d7c3f90868285422214c1315ea6994214ff53f744a07042070a973f2f4e7541f7d5945e9bde9441e72c9992a561d241d51ba6522ad78341c1f0381db6dd9d41ac4f9452f1bdd441949fcf3359ea98417b8b8216c83e594160b6b69774e90641423a2e5877476541219bf58b6a9c4240fd923fd247ac7840d503f12149ba6440a850640717e8154075826b06dd28844039ec474a2612633ff000000000000040393d25dbd52eb4407351c93ce03f9b40a310f68876122840cb2c714eb7e47f40edac8ccc5829764109b2ce268241dc412202321c3b1cb44134a1a48aa499d041435993cb4e481e414d79106e9b9c314151d2c095a9db3c4150453433e4403141438cd00d04fa40,
  0x4152198e62999c32417b3ae05cb15ed5419c9609787042ea41b82c252688a77041d174fce990e23641e63b7adfeb757041f97868d21010c8420a9c5f453b2b7e42199b3549d4e9d84226dcc6ad3bfb7c42330c901feba6e6423dc1e14ca106564245ddf9c992d50a424e52fedf2709ba4253e2e392d2c0004258b738953dae07425d272ec98196214260566525935f6c42616a72babd690a4261ab759771049342611213afd06b6b425f6a5183386ece425b88c4da31b32c4256fbc9e3907a1c425243f607883f4e424ba04106a4eaeb4243dd9ad312793b423b244247f52110423197e325f5e14d42259c6b84c5fae042191c1755ae0f36420b8a2a1be831b741fc7160ea3476c841eb9534cd3561f441d907f0b518393541c52bb5476b0a2d41b09b919f918ee6419806cab26beba9417fd2ec38bdafdb416320522c7bd69c4144a1c220182c634123b00d32fb934f41004d8f2799057c40d6d092faa4c26c40a9f124fc9ed1aa407682aa823b26fd403a8d45215b81013ff00000000000004039ec474a26126340747220c51b3f2140a4de0f3d39059340cee4105d3719e240f19c4a422bc63c4110069b1bc1c2594127caca47acd3d8413d2d5eec7023b3414db66f55cb91d141591491ed71000941615d3c9d74efd341634055f2db1d32416038dccfbb5e9f4152198e62999c32,
  0x416004fb16e6d1f64187966210d2eaa941a8394c22f6962f41c4074c727fc13241dc45688c605f5a41f1956c9d56f98a4203aa3e326081a842140b60252d4da84222ce3a0b06d6b942305c233fc5eb92423a8b7e584dc73a42442c4eac2b02e5424cd31e640c6aa942536a500583618e4258b738953dae07425dc98073580000426104bc58512cae4262758b1a9772124263058802af53ee4262a22c62421c0542615bd6b3ec0786425ec32c0e4369904259ecccc806da504254c64faa517a6c424fa4eaa2ebaf9f4246e3d7c8298061423f6c77db6900bf423471bb3cd0eec142292dcbc2c8c62c421d4d11540e6f0f421013a1701db6824200986494c3d52c41f0117d1d944d6b41dd1654e154756941c882c30552328441b322d51813c5b6419b856d5ee4ca924182190b5e38dab6416592f49bfe5e4c41470cfee8e828404125c1d4aa5616284101cba9ec15169b40d88f69cf4e3a1a40ab7efffb58445f407772e11a673b32403b211b1c70d0233ff0000000000000403a8d45215b81014075826b06dd288440a69ea78fec9c2c40d1508be9759f1d40f48157263ea56c41137ba40b190b89412e64d64b4f98d24143bdcd4b9991654155850abb352bfb4163b91ecd4d47e0416e44ff1ac82e8f417335e21d8c69b54173a8efe1037d99416ec426de4ac2c6416004fb16e6d1f6,
  0x416b298d21661faf41938fffdb5de83c41b3a4d2a3e51c2241cfbec60a0408eb41e5e2433e205e7041fa92e9a72efe7b420cfe96173edd3a421cd0a7ceed1ff7422a5747d2edf1bf42364ff11524c34542419cbbdeda4b26424a068faec7348242520ff6f7a29ac242579dde78f8738f425d272ec9819621426104bc58512cae4262d1be061740004263bb63aca310c04263a1d00235220f42628b6f57a600844260a2da8ef05f0b425c59113ed4ae214256ef41af701c8142519cd153a65df14249a9484ba1b84b4241b7ee1fd3136542372a75ebfb33f3422ca2e151c040ef4220b4b6a36e8c9242125c61a33376904202f68874c69e4841f259ef68c0361441e095817aa2188241cbe05c6a4eba2841b5aefa9ad67cd0419f093a4dc2bde8418449f536844f27416803f23856f53241497285dd464b694127ca6167a2849941033f5c44c7b08e40da3cf5b2eddb3f40acf83a6828899540785310426a244a403ba89c325845e73ff0000000000000403b211b1c70d023407682aa823b26fd40a850640717e81540d32d442834023e40f77c9940fc1bfa41172dcb0ca9b9064132e08be956b2344149c4868ca104b3415dc102fb00c217416d30d3fa3ece4041785253c9c386de41811bb00731e69a41840b7e4f91f90141830c6f2a909767417bd27cf3b8c1c2416b298d21661faf,
  0x417618a39517e1b6419f1ed7ad0d34d441be8a26bcd4cce941d81a4e7712449841f03847a1067f234203373251c6822c42147119f49607c54223cb5e07dfa27a42319e5ee82f3f6b423d0a90971abde84246497a024b6a4d424ffe1a9d7d62f342558ceeed1aa11f425b52d7e8ffcbba4260566525935f6c4262758b1a9772124263bb63aca310c04263f9bbfa6b000042632a2216ec8e4e42616ebd9cfcb148425e12f587c8808a4258991da3febe58425312577f309cec424c04bb840a555942437bc562c0582642399fe0458155bc422fd3d15846904f4222a2dfa1e161464214893f2225201242053e2a2c3b2be441f4917af93b7b3541e293eaf1a1147241cf2dd28b3e130041b8306050cf564341a13f503f3fa3c741867134d0bf6e6b416a685dae6d9ca8414bc8f15c4f7f4c4129c2ed10dc0ba24104a4c1906a515940dbd5f6b40c87b140ae5b4529a0ef70407923391b50dab4403c247a85fe81fa3ff0000000000000403ba89c325845e7407772e11a673b3240a9f124fc9ed1aa40d503f12149ba6440fa852e04248c7a411b112d750b4c864136e573499a5565415050ed0fc72c644163cc147fae6fdc417492e73f56dfda418259759743a0b2418c077cd7a5e87a41923315678580394193ccee9462338f41918fd9a8a9ffd941880c324b8a3475417618a39517e1b6,
  0x418145ff8465b71b41a7c66c2c0a70ce41c6c9ec92dffb5b41e18eac0a9a90ed41f70dcb2424e954420aa10ba5cb47ff421b9a1b2a085196422a0642542b712c423689af85156fe942420f136441d911424aecffe7217b5e4252c1dfc451f3b9425881245cd6c21a425e19143cebfdea42616a72babd690a4263058802af53ee4263a1d00235220f42632a2216ec8e4e4261b4a0cc81c000425ef8d44947749e4259a5b1c3251bf742541a70ab9567b9424dd1677f21ff524244e84f9b4574bd423bb14f1e440f7442314cce4d9ddb7942245b5c9b54dc45421683dee95b5971420759dc26f9fefb41f6a51a64000d5541e476d1ccfc891841d129d94091bd4e41ba96ebc9a6dfc241a2e8cd9d246da9418883a73e190dd9416cb54ae8356478414e070339854e20412ba4ed7ca2f2c94105f82bfc95b1a040dd576cdd921ed340afa6b91677eb584079e35c8907dd8f403c954d5f47c90f3ff0000000000000403c247a85fe81fa40785310426a244a40ab7efffb58445f40d6d092faa4c26c40fd923fd247ac78411f1904d840b539413b3470d74ae5da415422deacc1226241698281ad11ac66417bdb6bb92cf0a4418a5172029bc8774195844263648e51419e56c6214c0a5141a24acb4affef5741a2931464bfa65e419ee3c70cd3bfdf4193e79c0d0eb1ca418145ff8465b71b,
  0x4189fc5d16ad416041b177ad279f207a41d0581d6e21d7da41e891f260656cca41ff74a08bad25c04211b37766c73b4b4221dd6ae53e96054230637e31c5988c423b98f381bd104142457b3133792079424f1621ec1949694254ffe1c347a2b4425a938da05a3a90425f96ff70603b1c4261ab75977104934262a22c62421c0542628b6f57a6008442616ebd9cfcb148425ef8d44947749e425a01788e7400004254a33481d7ec21424ef240228f858b4245e83d3df6a840423d422573e8011c42326872711a51844225c9feb50a7cce421836f6c433cb83420934dfbce8f95a41f8822a5837382d41e62ed1a9c4e9d041d29d5c47c49eff41bcd29f66dddd6a41a4772b22680ae9418a7654a3360569416ee0103a870c24415011e83fb90ee5412d6a2ab2d263c84107362b2a52bc6240debe9837c73ba540b06caa00f27172407a937b41134fde403cfb95bb9dcc0c3ff0000000000000403c954d5f47c90f407923391b50dab440acf83a6828899540d88f69cf4e3a1a41004d8f2799057c41219bf58b6a9c42413fbed6c53a8f7041584cd0b0fc3a31416ff9b5234a755941823a9240fb36ba419218b3d91f0523419f58137f4f7f7241a7a78751ba647941aef88c4c5b6c1241b16da4a938f99841b0975b98542ff341a9f7ee89852892419f9b9ad9fb5f584189fc5d16ad4160,
  0x4192d4186abe3e1641b8b5c987a61b5f41d68ea0944c365141f087f6b8980d8c42049effa51e4319421698f76ac40f0c422630b96c065b374233ca8a00fc26f342402ffcd1bd8a914248756cd831bc1a4251294e78ac41314256760d4d1dab14425b8258bdc64305425f9bcf6079b6a442611213afd06b6b42615bd6b3ec07864260a2da8ef05f0b425e12f587c8808a4259a5b1c3251bf74254a33481d7ec21424f54aad782000042466c37422c7025423e3c1b0098a9d542332e41e4b6ec1a4226dd6a5292899542198f9c187ec513420abc4e718d46bb41fa175bf040c57b41e7ad6b6dfa98f341d3e6627715b77441bed42fcda844a941a5e0e81e566246418c3ebd4e2f56f841706f424f2f38e641510b75216a5156412f0cd2ecece82a41085b920cf7c5a140e0047c648352f540b0f8fb23a491dd407b3395d5230135403d57c1d6d9269e3ff0000000000000403cfb95bb9dcc0c4079e35c8907dd8f40ae5b4529a0ef7040da3cf5b2eddb3f4101cba9ec15169b4123b00d32fb934f41423a2e58774765415cc0915be608fb4173903b670be0b041872b1bce483ba9419803bb2e03e1b941a5da851261987a41b1784de3d159b841b87c114d546b7341bdebb4824e3ffc41bf91eb48ad211541bc492f0adcc9da41b4e817f397ce7041a81b7fee7c97954192d4186abe3e16,
  0x419a4f013e1257b941c0d7a52143568d41ddfb26ed146f9641f5688c34ab612b420a009699c27ecf421bb970d059db23422a77f327a216bb4236eeaf386c05e94242347b51f0fecd424aac710abe614c4252216d95a83faa4256f6d65f80bce2425b3012cb7a9e7d425e298218211aea425f6a5183386ece425ec32c0e436990425c59113ed4ae214258991da3febe5842541a70ab9567b9424ef240228f858b42466c37422c7025423e910a93d00000423393dc14bac45b42278847cd690dab421a7e7385a5b481420be02e11a852c141fb5599a45968e241e8e5b1d1f3286641d4fae36b126f4a41c046c9b5bb5c2a41a71d3ae775db50418dd322b70bafa14171539ceabf30904151ec41914a1fdb413043c64b360a474109657c139b9ab640e09a274b1ccb1640b177d05f008ecb407bc3acbacb4f53403daa2fefaae1d73ff0000000000000403d57c1d6d9269e407a937b41134fde40afa6b91677eb5840dbd5f6b40c87b141033f5c44c7b08e4125c1d4aa5616284144a1c220182c634160b6b69774e90641776f6f80d70b11418cb3c7269d9a2b419ee6b288dc5e4e41ad5c51a871f39741b8a9cda160cf6641c24ec88ef9197a41c7f2c1640baece41cb6fa9a755324641cb3ee2fdb81a6e41c70e20d64268a541c024c630e39e8b41b1af3a2fb9e7ae419a4f013e1257b9,
  0x41a1bcbd45c4eabf41c62479b7ba04ba41e333db6d52fecc41fab3b8a7afb315420f8e2ae9c61aeb42205af4f35eab6b422e562f7ff82f6d423982b963935a5d4243a35a9394fb39424bdfc9cc08a78b425255e01004b0b9425673176afe3c4a4259a979069a1fd5425b73e238023b30425b88c4da31b32c4259ecccc806da504256ef41af701c81425312577f309cec424dd1677f21ff524245e83d3df6a840423e3c1b0098a9d5423393dc14bac45b4227c230f2e40000421af8aadbf19afa420c945d44a2a04a41fc30d13bc43be941e9cce4bc1d9e0041d5d249887023ae41c0f9433b7a3e6541a824586371cb99418f2aca9b41049f417218d8bd3e86d04152b0c88f0dc6ea4130eac3267dd28c410a5151aa65826b40e11f4cd198008740b1e8b981d4bfe8407c43c0513b71fd403df33076fb584a3ff0000000000000403daa2fefaae1d7407b3395d523013540b06caa00f2717240dd576cdd921ed34104a4c1906a51594127ca6167a2849941470cfee8e82840416320522c7bd69c417b8b8216c83e594191614ced0d3cb141a359def174b37341b318f11c835c3041c0bfe2b9d1745941ca2133dc5123b041d21a6a5db9a45c41d6335cc5f7167741d7f01a67ed058841d67375e03843e141d1ff82d290412241c7f1e50cfcbd3441b8fb33fd3ae48441a1bcbd45c4eabf,
  0x41a718d2f70ff4ec41cc1810d18c265441e7b9054744b29b42000c491fed9ce3421270234e51fdc442229125722c85804230b689f56b09cd423b41bebce7f6674244539cb93802a1424bebb6085ff9fc4251c0fe7a0553554254fcea1497b5ff4257226786673b784257d50264a4be984256fbc9e3907a1c4254c64faa517a6c42519cd153a65df1424c04bb840a55594244e84f9b4574bd423d422573e8011c42332e41e4b6ec1a42278847cd690dab421af8aadbf19afa420cd148c900000041fca096be24df8a41ea5af351d7060b41d665ce2b5237b141c17c7f31520d2441a8efb3427e58fa41901f1d4c3405e04172bb460e1d5c2e415355f5bbfd4661413179427052cfde410b1ccc1e90e18e40e1930cf970079440b24b5507978850407cb3d0e582ab77403e3307cc56cf5b3ff0000000000000403df33076fb584a407bc3acbacb4f5340b0f8fb23a491dd40debe9837c73ba54105f82bfc95b1a04129c2ed10dc0ba241497285dd464b69416592f49bfe5e4c417fd2ec38bdafdb41949fcf3359ea9841a7a91b8244143f41b8260268bc29e641c5ffad552b553e41d1ea7ff716f93d41da160b6b22295141e0f18467971ca041e38e5ddda3e94741e3ea3bf8c4715841e1b1e6679153ac41daf3bcf71bfda841d11331518590f141c10117a7409def41a718d2f70ff4ec,
  0x41ad1023f65a5dd641d135d50cb7c46241ec478565b4a31e4202995cd3e83a504214c22dd8a81724422449f300c565ea4231b5a68be811c4423bfabe39ef561942443143b9967ab8424acfd8b91419b2425075fe825e3bac4252c3b44c271f934253eadedd479a684253ba9d7c9e5984425243f607883f4e424fa4eaa2ebaf9f4249a9484ba1b84b42437bc562c05826423bb14f1e440f7442326872711a51844226dd6a52928995421a7e7385a5b481420c945d44a2a04a41fca096be24df8a41ea8addfc80000041d6b0c29eadb1b441c1ccc4349f268f41a97a310052ab13419083b5713186a8417337d8d261bff04153d932330b42e54131ed77a9f9a7c6410bc5f8edf89e7740e1f4a7c3ca0d9b40b29f4f81075558407d13deb5c7cd83403e69efa03cd3473ff0000000000000403e3307cc56cf5b407c43c0513b71fd40b177d05f008ecb40e0047c648352f54107362b2a52bc62412ba4ed7ca2f2c9414bc8f15c4f7f4c416803f23856f5324182190b5e38dab6419806cab26beba941ac4f9452f1bdd441bdc5b16d64eedb41cc0c7bf6d349ee41d7ba08652474e641e208f9ac0b97e941e89e44320891b041ee194d822fbea741f067b17a23a02141efa754dcfafdb341eab7ffc0561d4d41e36121a9559a8741d77052e3499bf441c653ac9ae0901141ad1023f65a5dd6,
  0x41b1ada9285810e541d45f10389b866041f0459842edf0614204caca29b5df4b4216860fb526ef7b422558d4fb45d4fc42320d07e8661d16423b99494744a14c424340f77e5db0a24248af17c0b8fde9424d39fc1f3ff68842500a90bfa90ef042505f3eebcdc76f424f2308a76bee09424ba04106a4eaeb4246e3d7c82980614241b7ee1fd3136542399fe0458155bc42314cce4d9ddb794225c9feb50a7cce42198f9c187ec513420be02e11a852c141fc30d13bc43be941ea5af351d7060b41d6b0c29eadb1b441c1e7c7d800000041a9c053139d40904190c0f7768205cc41738c3935ce821d4154386f2dafdc39413245ec6e02df86410c4b3c894ec57540e2437d3186113c40b2e46317c24ae4407d63e9f3b8094e403e98180e9b47f13ff0000000000000403e69efa03cd347407cb3d0e582ab7740b1e8b981d4bfe840e09a274b1ccb1641085b920cf7c5a1412d6a2ab2d263c8414e070339854e20416a685dae6d9ca8418449f536844f27419b856d5ee4ca9241b09b919f918ee641c1f0381db6dd9d41d169c897987ca341de777f1b41cc0041e80dd1070cd12341f1241e91df49af41f6058725a5555341f96da811d79a2b41fa428ff4fb890b41f8115484b5a25441f3591b1e1f0e4141eaca7f1ca5813e41defe775ae9c9de41cc4b24c0663aa241b1ada9285810e5,
  0x41b4cd54a2037a4141d74e16b84f4c4441f2155421538d9b42066d5e0043565342178f070e840d564225a1550d62e9c54231b34b28ded239423a2925a54ca1b742419f086e1716164245c8be03c684444248d676e6d97f57424a375d4fbbbb994249afc47443c33642476873b503ee5d4243dd9ad312793b423f6c77db6900bf42372a75ebfb33f3422fd3d15846904f42245b5c9b54dc45421836f6c433cb83420abc4e718d46bb41fb5599a45968e241e9cce4bc1d9e0041d665ce2b5237b141c1ccc4349f268f41a9c053139d40904190d589900000004173b6d039c0280b4154722e60951bd4413281847053c3e9410cab548eb43c9740e27f0d434afdcd40b31a5729a0ca3b407da3f2c65d6761403ebda87f068e4d3ff0000000000000403e98180e9b47f1407d13deb5c7cd8340b24b550797885040e11f4cd19800874109657c139b9ab6412f0cd2ecece82a415011e83fb90ee5416cb54ae835647841867134d0bf6e6b419f093a4dc2bde841b322d51813c5b641c52bb5476b0a2d41d51ba6522ad78341e306c8b4d294bf41ef11f4fca0a57c41f6ff47acd50aaf41fed918aed312c34202b6fa3bf22f16420478fa919b326c420415c57f7fff8d4201881b290974f541fae7fede1f20a341f1d183982a8c2941e3c13ff0c6d6ef41d14ff39edbd24141b4cd54a2037a41,
  0x41b7af27d5b3b99f41d9c69d2d4ab5b041f36989d25f358042075888b6bdfda54217c1de9cf10c9242251be207de83b14230b2afcf3a0af14237d407a619127b423ef42bd788f29942426cb2895f6a7b4244330588246f26424477b266e37b2d424337ec7cb825c34240c08efa31d33b423b244247f52110423471bb3cd0eec1422ca2e151c040ef4222a2dfa1e16146421683dee95b5971420934dfbce8f95a41fa175bf040c57b41e8e5b1d1f3286641d5d249887023ae41c17c7f31520d2441a97a310052ab134190c0f7768205cc4173b6d039c0280b415485880000000041329f807e2c9d98410ce5598123133740e2a6f7f98f4bab40b340fff95a1c8f407dd3f94b7f0b93403edac054c8f94c3ff0000000000000403ebda87f068e4d407d63e9f3b8094e40b29f4f8107555840e1930cf9700794410a5151aa65826b413043c64b360a4741510b75216a5156416ee0103a870c24418883a73e190dd941a13f503f3fa3c741b5aefa9ad67cd041c882c30552328441d907f0b518393541e72c9992a561d241f37f118239876941fdd8fb556680154204caf0f94a09a8420a576e0a91ba98420e47831cbe140e420f779b94887a68420d66c86192f10342087f4838c8233b4201fb1b0467ebfe41f6d2b3836b887a41e84a9114ef9bef41d4781367bb540c41b7af27d5b3b99f,
  0x41ba1945a62d92c141db9174c5c6821c41f42209886348be420774b7cf5455d94217196f8e3b91ed4223d715af48c46c422e4e6e173a375e4234d9fbdaea2349423a156ba6874d5c423ddb73ba109eb9423f6c80488d5a68423e83b309c52f41423b680c647061724236cdb48439eefc423197e325f5e14d42292dcbc2c8c62c4220b4b6a36e8c924214893f22252012420759dc26f9fefb41f8822a5837382d41e7ad6b6dfa98f341d4fae36b126f4a41c0f9433b7a3e6541a8efb3427e58fa419083b5713186a841738c3935ce821d4154722e60951bd441329f807e2c9d98410cf8c00000000040e2bafd549ee8a940b3583e72942b58407df3fd98a35be3403eef77764a2c093ff0000000000000403edac054c8f94c407da3f2c65d676140b2e46317c24ae440e1f4a7c3ca0d9b410b1ccc1e90e18e4130eac3267dd28c4151ec41914a1fdb41706f424f2f38e6418a7654a336056941a2e8cd9d246da941b8306050cf564341cbe05c6a4eba2841dd1654e154756941eb9534cd3561f441f7d5945e9bde944202cc673f6e243d420b1613f5e0dd584211d22143a0c01642156365fae4e4be42175b39aac20dbe42171de5f3ee683c42149e120536b5ba42106e764c69917642071dc5689cd56941fc2af1c10c509341ecd3a4ec02853f41d7642504e67de941ba1945a62d92c1,
  0x41bbd72b8feef63341dc8453362d364441f42ccc18232cd84206bf2624de28af4215a779026ced344221f5234441411c422a73731231609c4231865d8331a4a5423514423df87dce423729dd7bc4a71042375cf60f47fbcb4235b35c3e75b39342329abab6a3dedb422d7c3f9086828542259c6b84c5fae0421d4d11540e6f0f42125c61a333769042053e2a2c3b2be441f6a51a64000d5541e62ed1a9c4e9d041d3e6627715b77441c046c9b5bb5c2a41a824586371cb9941901f1d4c3405e0417337d8d261bff04154386f2dafdc39413281847053c3e9410ce5598123133740e2bafd549ee8a940b3600000000000407e03ffbbc4d462403efbdeb14f4ed93ff0000000000000403eef77764a2c09407dd3f94b7f0b9340b31a5729a0ca3b40e2437d3186113c410bc5f8edf89e77413179427052cfde4152b0c88f0dc6ea4171539ceabf3090418c3ebd4e2f56f841a4772b22680ae941ba96ebc9a6dfc241cf2dd28b3e130041e095817aa2188241f0117d1d944d6b41fc7160ea3476c842070a973f2f4e7542111aa365d8b83d421746926c48911f421d03f7c8a7d9bf42208a97de0fd6ae4221340b1ec1b79a422040bdf37a6d57421bbb19abd8ed8b42152e07039959b2420c9abfa4a62f6e4200c1e0552c558241f083a2ee98a9de41d9d7eb6918f92e41bbd72b8feef633,
  0x41bcc0e8e1be44c341dc882055bf2fda41f388cb1e0ffe9a42054a4c6728f4c24213919d5f0cdef4421f4c164bc2f2044226323cc6fc9333422c47d74193a0bc423053ec8f38b775423131de4498643d423096c362447c2b422d6a894bb54e54422804a83b09fd41422214c1315ea69942191c1755ae0f36421013a1701db6824202f68874c69e4841f4917af93b7b3541e476d1ccfc891841d29d5c47c49eff41bed42fcda844a941a71d3ae775db50418f2aca9b41049f4172bb460e1d5c2e4153d932330b42e5413245ec6e02df86410cab548eb43c9740e2a6f7f98f4bab40b3583e72942b58407e03ffbbc4d462403f0000000000003ff0000000000000403efbdeb14f4ed9407df3fd98a35be340b340fff95a1c8f40e27f0d434afdcd410c4b3c894ec5754131ed77a9f9a7c6415355f5bbfd4661417218d8bd3e86d0418dd322b70bafa141a5e0e81e56624641bcd29f66dddd6a41d129d94091bd4e41e293eaf1a1147241f259ef68c036144200986494c3d52c420b8a2a1be831b74214ff53f744a070421d7110485ed3584222fa691811dff4422679addff9b07d422867d01f4be91d42283a77cc43a4e04225e509bf27f84f4221e67314160318421a3fd0a2a380a942110b367c1377dd42033ad9a77fd4d041f246295e2ffeb141db9c82637f369141bcc0e8e1be44c3,
  0x41bcc0e8e1be44c341db9c82637f369141f246295e2ffeb142033ad9a77fd4d042110b367c1377dd421a3fd0a2a380a94221e673141603184225e509bf27f84f42283a77cc43a4e0422867d01f4be91d422679addff9b07d4222fa691811dff4421d7110485ed3584214ff53f744a070420b8a2a1be831b74200986494c3d52c41f259ef68c0361441e293eaf1a1147241d129d94091bd4e41bcd29f66dddd6a41a5e0e81e566246418dd322b70bafa1417218d8bd3e86d0415355f5bbfd46614131ed77a9f9a7c6410c4b3c894ec57540e27f0d434afdcd40b340fff95a1c8f407df3fd98a35be3403efbdeb14f4ed93ff0000000000000403f000000000000407e03ffbbc4d46240b3583e72942b5840e2a6f7f98f4bab410cab548eb43c97413245ec6e02df864153d932330b42e54172bb460e1d5c2e418f2aca9b41049f41a71d3ae775db5041bed42fcda844a941d29d5c47c49eff41e476d1ccfc891841f4917af93b7b354202f68874c69e48421013a1701db68242191c1755ae0f36422214c1315ea699422804a83b09fd41422d6a894bb54e54423096c362447c2b423131de4498643d423053ec8f38b775422c47d74193a0bc4226323cc6fc9333421f4c164bc2f2044213919d5f0cdef442054a4c6728f4c241f388cb1e0ffe9a41dc882055bf2fda41bcc0e8e1be44c3,
  0x41bbd72b8feef63341d9d7eb6918f92e41f083a2ee98a9de4200c1e0552c5582420c9abfa4a62f6e42152e07039959b2421bbb19abd8ed8b422040bdf37a6d574221340b1ec1b79a42208a97de0fd6ae421d03f7c8a7d9bf421746926c48911f42111aa365d8b83d42070a973f2f4e7541fc7160ea3476c841f0117d1d944d6b41e095817aa2188241cf2dd28b3e130041ba96ebc9a6dfc241a4772b22680ae9418c3ebd4e2f56f84171539ceabf30904152b0c88f0dc6ea413179427052cfde410bc5f8edf89e7740e2437d3186113c40b31a5729a0ca3b407dd3f94b7f0b93403eef77764a2c093ff0000000000000403efbdeb14f4ed9407e03ffbbc4d46240b360000000000040e2bafd549ee8a9410ce55981231337413281847053c3e94154386f2dafdc39417337d8d261bff041901f1d4c3405e041a824586371cb9941c046c9b5bb5c2a41d3e6627715b77441e62ed1a9c4e9d041f6a51a64000d5542053e2a2c3b2be442125c61a3337690421d4d11540e6f0f42259c6b84c5fae0422d7c3f9086828542329abab6a3dedb4235b35c3e75b39342375cf60f47fbcb423729dd7bc4a710423514423df87dce4231865d8331a4a5422a73731231609c4221f5234441411c4215a779026ced344206bf2624de28af41f42ccc18232cd841dc8453362d364441bbd72b8feef633,
  0x41ba1945a62d92c141d7642504e67de941ecd3a4ec02853f41fc2af1c10c509342071dc5689cd56942106e764c69917642149e120536b5ba42171de5f3ee683c42175b39aac20dbe42156365fae4e4be4211d22143a0c016420b1613f5e0dd584202cc673f6e243d41f7d5945e9bde9441eb9534cd3561f441dd1654e154756941cbe05c6a4eba2841b8306050cf564341a2e8cd9d246da9418a7654a336056941706f424f2f38e64151ec41914a1fdb4130eac3267dd28c410b1ccc1e90e18e40e1f4a7c3ca0d9b40b2e46317c24ae4407da3f2c65d6761403edac054c8f94c3ff0000000000000403eef77764a2c09407df3fd98a35be340b3583e72942b5840e2bafd549ee8a9410cf8c00000000041329f807e2c9d984154722e60951bd441738c3935ce821d419083b5713186a841a8efb3427e58fa41c0f9433b7a3e6541d4fae36b126f4a41e7ad6b6dfa98f341f8822a5837382d420759dc26f9fefb4214893f222520124220b4b6a36e8c9242292dcbc2c8c62c423197e325f5e14d4236cdb48439eefc423b680c64706172423e83b309c52f41423f6c80488d5a68423ddb73ba109eb9423a156ba6874d5c4234d9fbdaea2349422e4e6e173a375e4223d715af48c46c4217196f8e3b91ed420774b7cf5455d941f42209886348be41db9174c5c6821c41ba1945a62d92c1,
  0x41b7af27d5b3b99f41d4781367bb540c41e84a9114ef9bef41f6d2b3836b887a4201fb1b0467ebfe42087f4838c8233b420d66c86192f103420f779b94887a68420e47831cbe140e420a576e0a91ba984204caf0f94a09a841fdd8fb5566801541f37f118239876941e72c9992a561d241d907f0b518393541c882c30552328441b5aefa9ad67cd041a13f503f3fa3c7418883a73e190dd9416ee0103a870c2441510b75216a5156413043c64b360a47410a5151aa65826b40e1930cf970079440b29f4f81075558407d63e9f3b8094e403ebda87f068e4d3ff0000000000000403edac054c8f94c407dd3f94b7f0b9340b340fff95a1c8f40e2a6f7f98f4bab410ce5598123133741329f807e2c9d9841548588000000004173b6d039c0280b4190c0f7768205cc41a97a310052ab1341c17c7f31520d2441d5d249887023ae41e8e5b1d1f3286641fa175bf040c57b420934dfbce8f95a421683dee95b59714222a2dfa1e16146422ca2e151c040ef423471bb3cd0eec1423b244247f521104240c08efa31d33b424337ec7cb825c3424477b266e37b2d4244330588246f2642426cb2895f6a7b423ef42bd788f2994237d407a619127b4230b2afcf3a0af142251be207de83b14217c1de9cf10c9242075888b6bdfda541f36989d25f358041d9c69d2d4ab5b041b7af27d5b3b99f,
  0x41b4cd54a2037a4141d14ff39edbd24141e3c13ff0c6d6ef41f1d183982a8c2941fae7fede1f20a34201881b290974f5420415c57f7fff8d420478fa919b326c4202b6fa3bf22f1641fed918aed312c341f6ff47acd50aaf41ef11f4fca0a57c41e306c8b4d294bf41d51ba6522ad78341c52bb5476b0a2d41b322d51813c5b6419f093a4dc2bde841867134d0bf6e6b416cb54ae8356478415011e83fb90ee5412f0cd2ecece82a4109657c139b9ab640e11f4cd198008740b24b5507978850407d13deb5c7cd83403e98180e9b47f13ff0000000000000403ebda87f068e4d407da3f2c65d676140b31a5729a0ca3b40e27f0d434afdcd410cab548eb43c97413281847053c3e94154722e60951bd44173b6d039c0280b4190d5899000000041a9c053139d409041c1ccc4349f268f41d665ce2b5237b141e9cce4bc1d9e0041fb5599a45968e2420abc4e718d46bb421836f6c433cb8342245b5c9b54dc45422fd3d15846904f42372a75ebfb33f3423f6c77db6900bf4243dd9ad312793b42476873b503ee5d4249afc47443c336424a375d4fbbbb994248d676e6d97f574245c8be03c6844442419f086e171616423a2925a54ca1b74231b34b28ded2394225a1550d62e9c542178f070e840d5642066d5e0043565341f2155421538d9b41d74e16b84f4c4441b4cd54a2037a41,
  0x41b1ada9285810e541cc4b24c0663aa241defe775ae9c9de41eaca7f1ca5813e41f3591b1e1f0e4141f8115484b5a25441fa428ff4fb890b41f96da811d79a2b41f6058725a5555341f1241e91df49af41e80dd1070cd12341de777f1b41cc0041d169c897987ca341c1f0381db6dd9d41b09b919f918ee6419b856d5ee4ca92418449f536844f27416a685dae6d9ca8414e070339854e20412d6a2ab2d263c841085b920cf7c5a140e09a274b1ccb1640b1e8b981d4bfe8407cb3d0e582ab77403e69efa03cd3473ff0000000000000403e98180e9b47f1407d63e9f3b8094e40b2e46317c24ae440e2437d3186113c410c4b3c894ec575413245ec6e02df864154386f2dafdc3941738c3935ce821d4190c0f7768205cc41a9c053139d409041c1e7c7d800000041d6b0c29eadb1b441ea5af351d7060b41fc30d13bc43be9420be02e11a852c142198f9c187ec5134225c9feb50a7cce42314cce4d9ddb7942399fe0458155bc4241b7ee1fd313654246e3d7c8298061424ba04106a4eaeb424f2308a76bee0942505f3eebcdc76f42500a90bfa90ef0424d39fc1f3ff6884248af17c0b8fde9424340f77e5db0a2423b99494744a14c42320d07e8661d16422558d4fb45d4fc4216860fb526ef7b4204caca29b5df4b41f0459842edf06141d45f10389b866041b1ada9285810e5,
  0x41ad1023f65a5dd641c653ac9ae0901141d77052e3499bf441e36121a9559a8741eab7ffc0561d4d41efa754dcfafdb341f067b17a23a02141ee194d822fbea741e89e44320891b041e208f9ac0b97e941d7ba08652474e641cc0c7bf6d349ee41bdc5b16d64eedb41ac4f9452f1bdd4419806cab26beba94182190b5e38dab6416803f23856f532414bc8f15c4f7f4c412ba4ed7ca2f2c94107362b2a52bc6240e0047c648352f540b177d05f008ecb407c43c0513b71fd403e3307cc56cf5b3ff0000000000000403e69efa03cd347407d13deb5c7cd8340b29f4f8107555840e1f4a7c3ca0d9b410bc5f8edf89e774131ed77a9f9a7c64153d932330b42e5417337d8d261bff0419083b5713186a841a97a310052ab1341c1ccc4349f268f41d6b0c29eadb1b441ea8addfc80000041fca096be24df8a420c945d44a2a04a421a7e7385a5b4814226dd6a5292899542326872711a5184423bb14f1e440f7442437bc562c058264249a9484ba1b84b424fa4eaa2ebaf9f425243f607883f4e4253ba9d7c9e59844253eadedd479a684252c3b44c271f93425075fe825e3bac424acfd8b91419b242443143b9967ab8423bfabe39ef56194231b5a68be811c4422449f300c565ea4214c22dd8a817244202995cd3e83a5041ec478565b4a31e41d135d50cb7c46241ad1023f65a5dd6,
  0x41a718d2f70ff4ec41c10117a7409def41d11331518590f141daf3bcf71bfda841e1b1e6679153ac41e3ea3bf8c4715841e38e5ddda3e94741e0f18467971ca041da160b6b22295141d1ea7ff716f93d41c5ffad552b553e41b8260268bc29e641a7a91b8244143f41949fcf3359ea98417fd2ec38bdafdb416592f49bfe5e4c41497285dd464b694129c2ed10dc0ba24105f82bfc95b1a040debe9837c73ba540b0f8fb23a491dd407bc3acbacb4f53403df33076fb584a3ff0000000000000403e3307cc56cf5b407cb3d0e582ab7740b24b550797885040e1930cf9700794410b1ccc1e90e18e413179427052cfde415355f5bbfd46614172bb460e1d5c2e41901f1d4c3405e041a8efb3427e58fa41c17c7f31520d2441d665ce2b5237b141ea5af351d7060b41fca096be24df8a420cd148c9000000421af8aadbf19afa42278847cd690dab42332e41e4b6ec1a423d422573e8011c4244e84f9b4574bd424c04bb840a555942519cd153a65df14254c64faa517a6c4256fbc9e3907a1c4257d50264a4be984257226786673b784254fcea1497b5ff4251c0fe7a055355424bebb6085ff9fc4244539cb93802a1423b41bebce7f6674230b689f56b09cd42229125722c8580421270234e51fdc442000c491fed9ce341e7b9054744b29b41cc1810d18c265441a718d2f70ff4ec,
  0x41a1bcbd45c4eabf41b8fb33fd3ae48441c7f1e50cfcbd3441d1ff82d290412241d67375e03843e141d7f01a67ed058841d6335cc5f7167741d21a6a5db9a45c41ca2133dc5123b041c0bfe2b9d1745941b318f11c835c3041a359def174b3734191614ced0d3cb1417b8b8216c83e59416320522c7bd69c41470cfee8e828404127ca6167a284994104a4c1906a515940dd576cdd921ed340b06caa00f27172407b3395d5230135403daa2fefaae1d73ff0000000000000403df33076fb584a407c43c0513b71fd40b1e8b981d4bfe840e11f4cd1980087410a5151aa65826b4130eac3267dd28c4152b0c88f0dc6ea417218d8bd3e86d0418f2aca9b41049f41a824586371cb9941c0f9433b7a3e6541d5d249887023ae41e9cce4bc1d9e0041fc30d13bc43be9420c945d44a2a04a421af8aadbf19afa4227c230f2e40000423393dc14bac45b423e3c1b0098a9d54245e83d3df6a840424dd1677f21ff52425312577f309cec4256ef41af701c814259ecccc806da50425b88c4da31b32c425b73e238023b304259a979069a1fd5425673176afe3c4a425255e01004b0b9424bdfc9cc08a78b4243a35a9394fb39423982b963935a5d422e562f7ff82f6d42205af4f35eab6b420f8e2ae9c61aeb41fab3b8a7afb31541e333db6d52fecc41c62479b7ba04ba41a1bcbd45c4eabf,
  0x419a4f013e1257b941b1af3a2fb9e7ae41c024c630e39e8b41c70e20d64268a541cb3ee2fdb81a6e41cb6fa9a755324641c7f2c1640baece41c24ec88ef9197a41b8a9cda160cf6641ad5c51a871f397419ee6b288dc5e4e418cb3c7269d9a2b41776f6f80d70b114160b6b69774e9064144a1c220182c634125c1d4aa56162841033f5c44c7b08e40dbd5f6b40c87b140afa6b91677eb58407a937b41134fde403d57c1d6d9269e3ff0000000000000403daa2fefaae1d7407bc3acbacb4f5340b177d05f008ecb40e09a274b1ccb164109657c139b9ab6413043c64b360a474151ec41914a1fdb4171539ceabf3090418dd322b70bafa141a71d3ae775db5041c046c9b5bb5c2a41d4fae36b126f4a41e8e5b1d1f3286641fb5599a45968e2420be02e11a852c1421a7e7385a5b48142278847cd690dab423393dc14bac45b423e910a93d0000042466c37422c7025424ef240228f858b42541a70ab9567b94258991da3febe58425c59113ed4ae21425ec32c0e436990425f6a5183386ece425e298218211aea425b3012cb7a9e7d4256f6d65f80bce24252216d95a83faa424aac710abe614c4242347b51f0fecd4236eeaf386c05e9422a77f327a216bb421bb970d059db23420a009699c27ecf41f5688c34ab612b41ddfb26ed146f9641c0d7a52143568d419a4f013e1257b9,
  0x4192d4186abe3e1641a81b7fee7c979541b4e817f397ce7041bc492f0adcc9da41bf91eb48ad211541bdebb4824e3ffc41b87c114d546b7341b1784de3d159b841a5da851261987a419803bb2e03e1b941872b1bce483ba94173903b670be0b0415cc0915be608fb41423a2e587747654123b00d32fb934f4101cba9ec15169b40da3cf5b2eddb3f40ae5b4529a0ef704079e35c8907dd8f403cfb95bb9dcc0c3ff0000000000000403d57c1d6d9269e407b3395d523013540b0f8fb23a491dd40e0047c648352f541085b920cf7c5a1412f0cd2ecece82a41510b75216a515641706f424f2f38e6418c3ebd4e2f56f841a5e0e81e56624641bed42fcda844a941d3e6627715b77441e7ad6b6dfa98f341fa175bf040c57b420abc4e718d46bb42198f9c187ec5134226dd6a5292899542332e41e4b6ec1a423e3c1b0098a9d542466c37422c7025424f54aad78200004254a33481d7ec214259a5b1c3251bf7425e12f587c8808a4260a2da8ef05f0b42615bd6b3ec078642611213afd06b6b425f9bcf6079b6a4425b8258bdc643054256760d4d1dab144251294e78ac41314248756cd831bc1a42402ffcd1bd8a914233ca8a00fc26f3422630b96c065b37421698f76ac40f0c42049effa51e431941f087f6b8980d8c41d68ea0944c365141b8b5c987a61b5f4192d4186abe3e16,
  0x4189fc5d16ad4160419f9b9ad9fb5f5841a9f7ee8985289241b0975b98542ff341b16da4a938f99841aef88c4c5b6c1241a7a78751ba6479419f58137f4f7f72419218b3d91f052341823a9240fb36ba416ff9b5234a755941584cd0b0fc3a31413fbed6c53a8f7041219bf58b6a9c4241004d8f2799057c40d88f69cf4e3a1a40acf83a68288995407923391b50dab4403c954d5f47c90f3ff0000000000000403cfb95bb9dcc0c407a937b41134fde40b06caa00f2717240debe9837c73ba54107362b2a52bc62412d6a2ab2d263c8415011e83fb90ee5416ee0103a870c24418a7654a336056941a4772b22680ae941bcd29f66dddd6a41d29d5c47c49eff41e62ed1a9c4e9d041f8822a5837382d420934dfbce8f95a421836f6c433cb834225c9feb50a7cce42326872711a5184423d422573e8011c4245e83d3df6a840424ef240228f858b4254a33481d7ec21425a01788e740000425ef8d44947749e42616ebd9cfcb14842628b6f57a600844262a22c62421c054261ab7597710493425f96ff70603b1c425a938da05a3a904254ffe1c347a2b4424f1621ec19496942457b3133792079423b98f381bd10414230637e31c5988c4221dd6ae53e96054211b37766c73b4b41ff74a08bad25c041e891f260656cca41d0581d6e21d7da41b177ad279f207a4189fc5d16ad4160,
  0x418145ff8465b71b4193e79c0d0eb1ca419ee3c70cd3bfdf41a2931464bfa65e41a24acb4affef57419e56c6214c0a514195844263648e51418a5172029bc877417bdb6bb92cf0a441698281ad11ac66415422deacc12262413b3470d74ae5da411f1904d840b53940fd923fd247ac7840d6d092faa4c26c40ab7efffb58445f40785310426a244a403c247a85fe81fa3ff0000000000000403c954d5f47c90f4079e35c8907dd8f40afa6b91677eb5840dd576cdd921ed34105f82bfc95b1a0412ba4ed7ca2f2c9414e070339854e20416cb54ae8356478418883a73e190dd941a2e8cd9d246da941ba96ebc9a6dfc241d129d94091bd4e41e476d1ccfc891841f6a51a64000d55420759dc26f9fefb421683dee95b597142245b5c9b54dc4542314cce4d9ddb79423bb14f1e440f744244e84f9b4574bd424dd1677f21ff5242541a70ab9567b94259a5b1c3251bf7425ef8d44947749e4261b4a0cc81c00042632a2216ec8e4e4263a1d00235220f4263058802af53ee42616a72babd690a425e19143cebfdea425881245cd6c21a4252c1dfc451f3b9424aecffe7217b5e42420f136441d911423689af85156fe9422a0642542b712c421b9a1b2a085196420aa10ba5cb47ff41f70dcb2424e95441e18eac0a9a90ed41c6c9ec92dffb5b41a7c66c2c0a70ce418145ff8465b71b,
  0x417618a39517e1b641880c324b8a347541918fd9a8a9ffd94193ccee9462338f4192331567858039418c077cd7a5e87a418259759743a0b2417492e73f56dfda4163cc147fae6fdc415050ed0fc72c644136e573499a5565411b112d750b4c8640fa852e04248c7a40d503f12149ba6440a9f124fc9ed1aa407772e11a673b32403ba89c325845e73ff0000000000000403c247a85fe81fa407923391b50dab440ae5b4529a0ef7040dbd5f6b40c87b14104a4c1906a51594129c2ed10dc0ba2414bc8f15c4f7f4c416a685dae6d9ca841867134d0bf6e6b41a13f503f3fa3c741b8306050cf564341cf2dd28b3e130041e293eaf1a1147241f4917af93b7b3542053e2a2c3b2be44214893f222520124222a2dfa1e16146422fd3d15846904f42399fe0458155bc42437bc562c05826424c04bb840a5559425312577f309cec4258991da3febe58425e12f587c8808a42616ebd9cfcb14842632a2216ec8e4e4263f9bbfa6b00004263bb63aca310c04262758b1a9772124260566525935f6c425b52d7e8ffcbba42558ceeed1aa11f424ffe1a9d7d62f34246497a024b6a4d423d0a90971abde842319e5ee82f3f6b4223cb5e07dfa27a42147119f49607c54203373251c6822c41f03847a1067f2341d81a4e7712449841be8a26bcd4cce9419f1ed7ad0d34d4417618a39517e1b6,
  0x416b298d21661faf417bd27cf3b8c1c241830c6f2a90976741840b7e4f91f90141811bb00731e69a41785253c9c386de416d30d3fa3ece40415dc102fb00c2174149c4868ca104b34132e08be956b23441172dcb0ca9b90640f77c9940fc1bfa40d32d442834023e40a850640717e815407682aa823b26fd403b211b1c70d0233ff0000000000000403ba89c325845e740785310426a244a40acf83a6828899540da3cf5b2eddb3f41033f5c44c7b08e4127ca6167a2849941497285dd464b69416803f23856f532418449f536844f27419f093a4dc2bde841b5aefa9ad67cd041cbe05c6a4eba2841e095817aa2188241f259ef68c036144202f68874c69e4842125c61a33376904220b4b6a36e8c92422ca2e151c040ef42372a75ebfb33f34241b7ee1fd313654249a9484ba1b84b42519cd153a65df14256ef41af701c81425c59113ed4ae214260a2da8ef05f0b42628b6f57a600844263a1d00235220f4263bb63aca310c04262d1be06174000426104bc58512cae425d272ec981962142579dde78f8738f42520ff6f7a29ac2424a068faec7348242419cbbdeda4b2642364ff11524c345422a5747d2edf1bf421cd0a7ceed1ff7420cfe96173edd3a41fa92e9a72efe7b41e5e2433e205e7041cfbec60a0408eb41b3a4d2a3e51c2241938fffdb5de83c416b298d21661faf,
  0x416004fb16e6d1f6416ec426de4ac2c64173a8efe1037d99417335e21d8c69b5416e44ff1ac82e8f4163b91ecd4d47e04155850abb352bfb4143bdcd4b999165412e64d64b4f98d241137ba40b190b8940f48157263ea56c40d1508be9759f1d40a69ea78fec9c2c4075826b06dd2884403a8d45215b81013ff0000000000000403b211b1c70d023407772e11a673b3240ab7efffb58445f40d88f69cf4e3a1a4101cba9ec15169b4125c1d4aa56162841470cfee8e82840416592f49bfe5e4c4182190b5e38dab6419b856d5ee4ca9241b322d51813c5b641c882c30552328441dd1654e154756941f0117d1d944d6b4200986494c3d52c421013a1701db682421d4d11540e6f0f42292dcbc2c8c62c423471bb3cd0eec1423f6c77db6900bf4246e3d7c8298061424fa4eaa2ebaf9f4254c64faa517a6c4259ecccc806da50425ec32c0e43699042615bd6b3ec07864262a22c62421c054263058802af53ee4262758b1a977212426104bc58512cae425dc980735800004258b738953dae0742536a500583618e424cd31e640c6aa942442c4eac2b02e5423a8b7e584dc73a42305c233fc5eb924222ce3a0b06d6b942140b60252d4da84203aa3e326081a841f1956c9d56f98a41dc45688c605f5a41c4074c727fc13241a8394c22f6962f4187966210d2eaa9416004fb16e6d1f6,
  0x4152198e62999c32416038dccfbb5e9f41634055f2db1d3241615d3c9d74efd341591491ed710009414db66f55cb91d1413d2d5eec7023b34127caca47acd3d84110069b1bc1c25940f19c4a422bc63c40cee4105d3719e240a4de0f3d39059340747220c51b3f214039ec474a2612633ff0000000000000403a8d45215b8101407682aa823b26fd40a9f124fc9ed1aa40d6d092faa4c26c41004d8f2799057c4123b00d32fb934f4144a1c220182c63416320522c7bd69c417fd2ec38bdafdb419806cab26beba941b09b919f918ee641c52bb5476b0a2d41d907f0b518393541eb9534cd3561f441fc7160ea3476c8420b8a2a1be831b742191c1755ae0f3642259c6b84c5fae0423197e325f5e14d423b244247f521104243dd9ad312793b424ba04106a4eaeb425243f607883f4e4256fbc9e3907a1c425b88c4da31b32c425f6a5183386ece42611213afd06b6b4261ab759771049342616a72babd690a4260566525935f6c425d272ec98196214258b738953dae074253e2e392d2c000424e52fedf2709ba4245ddf9c992d50a423dc1e14ca1065642330c901feba6e64226dcc6ad3bfb7c42199b3549d4e9d8420a9c5f453b2b7e41f97868d21010c841e63b7adfeb757041d174fce990e23641b82c252688a770419c9609787042ea417b3ae05cb15ed54152198e62999c32,
  0x41438cd00d04fa404150453433e440314151d2c095a9db3c414d79106e9b9c3141435993cb4e481e4134a1a48aa499d0412202321c3b1cb44109b2ce268241dc40edac8ccc58297640cb2c714eb7e47f40a310f688761228407351c93ce03f9b40393d25dbd52eb43ff00000000000004039ec474a2612634075826b06dd288440a850640717e81540d503f12149ba6440fd923fd247ac7841219bf58b6a9c4241423a2e587747654160b6b69774e906417b8b8216c83e5941949fcf3359ea9841ac4f9452f1bdd441c1f0381db6dd9d41d51ba6522ad78341e72c9992a561d241f7d5945e9bde9442070a973f2f4e754214ff53f744a070422214c1315ea699422d7c3f908682854236cdb48439eefc4240c08efa31d33b42476873b503ee5d424f2308a76bee094253ba9d7c9e59844257d50264a4be98425b73e238023b30425e298218211aea425f9bcf6079b6a4425f96ff70603b1c425e19143cebfdea425b52d7e8ffcbba42579dde78f8738f42536a500583618e424e52fedf2709ba424675b5bae80000423f7e01a89a6ede4234d93e6bbd09664229fd6b4326c081421e64944dc9e26342109842ab81f8cc4200d33da03f93b741ef70f7da6c51d141dace53a1aca1b141c491e1d6dd5ef541abd98edb17119341901c06aea84b14416e099b737e005a41438cd00d04fa40,
  0x413423bed0d526d0413ef181b1a76fe3413f1271c54894ca41375aed326cce6c412b99a4c6db03e4411a2885913f9cee4103fa8d8f3c64b340e86fe1d367ce5540c783b9b30b6f7b40a139fd18f5e312407221610d0d1a8440387eb1990b697a3ff000000000000040393d25dbd52eb440747220c51b3f2140a69ea78fec9c2c40d32d442834023e40fa852e04248c7a411f1904d840b539413fbed6c53a8f70415cc0915be608fb41776f6f80d70b114191614ced0d3cb141a7a91b8244143f41bdc5b16d64eedb41d169c897987ca341e306c8b4d294bf41f37f11823987694202cc673f6e243d42111aa365d8b83d421d7110485ed358422804a83b09fd4142329abab6a3dedb423b680c64706172424337ec7cb825c34249afc47443c33642505f3eebcdc76f4253eadedd479a684257226786673b784259a979069a1fd5425b3012cb7a9e7d425b8258bdc64305425a938da05a3a90425881245cd6c21a42558ceeed1aa11f42520ff6f7a29ac2424cd31e640c6aa94245ddf9c992d50a423f7e01a89a6ede42357b58de340000422bb1c95a3ac33b4220d1c2f9d6cc1842132d52d6d9d6c242046e4dfea5b29941f438a8baaaeb1241e27457f266d12441cec09ab50378fc41b712e1ef707667419e8f8fafccebc841814d2de51faff0415f9689bab04238413423bed0d526d0,
  0x4123bb94028ef3da412bcaabdf43386141295ec6d3cc96c04121299884e1cfd5411207425528375440fde6c30f823afa40e39337cfaab64940c3f3e807f66a32409eb822e59e92294070e0e3883aefd94037af78e6da9b303ff000000000000040387eb1990b697a407351c93ce03f9b40a4de0f3d39059340d1508be9759f1d40f77c9940fc1bfa411b112d750b4c86413b3470d74ae5da41584cd0b0fc3a314173903b670be0b0418cb3c7269d9a2b41a359def174b37341b8260268bc29e641cc0c7bf6d349ee41de777f1b41cc0041ef11f4fca0a57c41fdd8fb55668015420b1613f5e0dd58421746926c48911f4222fa691811dff4422d6a894bb54e544235b35c3e75b393423e83b309c52f41424477b266e37b2d424a375d4fbbbb9942500a90bfa90ef04252c3b44c271f934254fcea1497b5ff425673176afe3c4a4256f6d65f80bce24256760d4d1dab144254ffe1c347a2b44252c1dfc451f3b9424ffe1a9d7d62f3424a068faec7348242442c4eac2b02e5423dc1e14ca106564234d93e6bbd0966422bb1c95a3ac33b422164e9a4600000421499759fa6c0da4206ea04b7c6672241f7d4c0522c3e9741e709c14b219ec241d48c1ae2bb741341c0bd4d9204ecbc41a892cdb7a60f0e418fdac7b0d1aa7a4171a8831d994ebe414f94da94faee9d4123bb94028ef3da,
  0x4112541c8ddb5a64411777a21a96ffbf411347c63b8e7e8341072feda48b04e440f54ffa9ef7102940de4c6c5ba96ea440c08779ce7273d9409af4fdc174a5dd406f20940af6494c4036cdb2bbb212eb3ff00000000000004037af78e6da9b30407221610d0d1a8440a310f68876122840cee4105d3719e240f48157263ea56c41172dcb0ca9b9064136e573499a5565415422deacc12262416ff9b5234a755941872b1bce483ba9419ee6b288dc5e4e41b318f11c835c3041c5ffad552b553e41d7ba08652474e641e80dd1070cd12341f6ff47acd50aaf4204caf0f94a09a84211d22143a0c016421d03f7c8a7d9bf422679addff9b07d423096c362447c2b42375cf60f47fbcb423f6c80488d5a684244330588246f264248d676e6d97f57424d39fc1f3ff688425075fe825e3bac4251c0fe7a055355425255e01004b0b94252216d95a83faa4251294e78ac4131424f1621ec194969424aecffe7217b5e4246497a024b6a4d42419cbbdeda4b26423a8b7e584dc73a42330c901feba6e64229fd6b4326c0814220d1c2f9d6cc18421499759fa6c0da4207cce347f0000041f9d8273e1e426a41ea40e1dd1b4aee41d8cd964884ed5e41c5a13d602be6a241b13d0321214f4f4198c471bfbc1d47417f6fe5c72b7b374161123784bb8004413debbb7b8086134112541c8ddb5a64,
  0x4100134109a26007410286237b6b912440fb0e5635937a7340ec789d6b0cfd0040d66e408ce0e89840ba92d54ec6f0bb409731ffe9ed33f3406c5f15699aa7dd4035d71fd8593cee3ff00000000000004036cdb2bbb212eb4070e0e3883aefd940a139fd18f5e31240cb2c714eb7e47f40f19c4a422bc63c41137ba40b190b894132e08be956b234415050ed0fc72c6441698281ad11ac6641823a9240fb36ba419803bb2e03e1b941ad5c51a871f39741c0bfe2b9d1745941d1ea7ff716f93d41e208f9ac0b97e941f1241e91df49af41fed918aed312c3420a576e0a91ba9842156365fae4e4be42208a97de0fd6ae422867d01f4be91d423131de4498643d423729dd7bc4a710423ddb73ba109eb942426cb2895f6a7b4245c8be03c684444248af17c0b8fde9424acfd8b91419b2424bebb6085ff9fc424bdfc9cc08a78b424aac710abe614c4248756cd831bc1a42457b313379207942420f136441d911423d0a90971abde842364ff11524c34542305c233fc5eb924226dcc6ad3bfb7c421e64944dc9e26342132d52d6d9d6c24206ea04b7c6672241f9d8273e1e426a41eb69478900000041db36598e52af6541c9233d025fc52041b571ef3becee0e41a0ba383afbefbe4187885958b03521416d429fe059df40414f24809055c0f1412ac1c179627c514100134109a26007,
  0x40ea7f488d985ceb40eb24156372ee0740e157e476eb869440cf4958961fe84040b48a64aeb38981409377af7548243540697d2d0524285b4034c8dc2e42397f3ff00000000000004035d71fd8593cee406f20940af6494c409eb822e59e922940c783b9b30b6f7b40edac8ccc5829764110069b1bc1c259412e64d64b4f98d24149c4868ca104b34163cc147fae6fdc417bdb6bb92cf0a4419218b3d91f052341a5da851261987a41b8a9cda160cf6641ca2133dc5123b041da160b6b22295141e89e44320891b041f6058725a555534202b6fa3bf22f16420e47831cbe140e42175b39aac20dbe4221340b1ec1b79a42283a77cc43a4e0423053ec8f38b775423514423df87dce423a156ba6874d5c423ef42bd788f29942419f086e171616424340f77e5db0a242443143b9967ab84244539cb93802a14243a35a9394fb394242347b51f0fecd42402ffcd1bd8a91423b98f381bd1041423689af85156fe942319e5ee82f3f6b422a5747d2edf1bf4222ce3a0b06d6b942199b3549d4e9d842109842ab81f8cc42046e4dfea5b29941f7d4c0522c3e9741ea40e1dd1b4aee41db36598e52af6541ca6a1b0b00000041b7dec54d4af06c41a3ee363eb203ab418e71c1e554a1564174fa5b9ef0630041598fe889f151bd413aac51149b5e68411679e1b65b2d1e40ea7f488d985ceb,
  0x40d465c6252223d640d2480ebc25d28840c406bf06543d7b40ae1aff2faa6c53408f9fd37a4ff6fb40667aaa08b30a7440339f152d0f54703ff00000000000004034c8dc2e42397f406c5f15699aa7dd409af4fdc174a5dd40c3f3e807f66a3240e86fe1d367ce554109b2ce268241dc4127caca47acd3d84143bdcd4b999165415dc102fb00c217417492e73f56dfda418a5172029bc877419f58137f4f7f7241b1784de3d159b841c24ec88ef9197a41d21a6a5db9a45c41e0f18467971ca041ee194d822fbea741f96da811d79a2b420478fa919b326c420f779b94887a6842171de5f3ee683c422040bdf37a6d574225e509bf27f84f422c47d74193a0bc4231865d8331a4a54234d9fbdaea23494237d407a619127b423a2925a54ca1b7423b99494744a14c423bfabe39ef5619423b41bebce7f667423982b963935a5d4236eeaf386c05e94233ca8a00fc26f34230637e31c5988c422a0642542b712c4223cb5e07dfa27a421cd0a7ceed1ff742140b60252d4da8420a9c5f453b2b7e4200d33da03f93b741f438a8baaaeb1241e709c14b219ec241d8cd964884ed5e41c9233d025fc52041b7dec54d4af06c41a51cae20000000419142a5264f9eaf4179d3d85a7a7b65416170d4eae250554144d5d3a30451324125529c8873fa9a4101a0e9a32478ba40d465c6252223d6,
  0x40bd1b88ed98e77340b65c6d7aed87ee40a469a9e14fa2ad40888c8f111c6ed440635737d0f147244032548eb9151e853ff000000000000040339f152d0f547040697d2d0524285b409731ffe9ed33f340c08779ce7273d940e39337cfaab6494103fa8d8f3c64b3412202321c3b1cb4413d2d5eec7023b34155850abb352bfb416d30d3fa3ece40418259759743a0b24195844263648e5141a7a78751ba647941b87c114d546b7341c7f2c1640baece41d6335cc5f7167741e38e5ddda3e94741f067b17a23a02141fa428ff4fb890b420415c57f7fff8d420d66c86192f10342149e120536b5ba421bbb19abd8ed8b4221e673141603184226323cc6fc9333422a73731231609c422e4e6e173a375e4230b2afcf3a0af14231b34b28ded23942320d07e8661d164231b5a68be811c44230b689f56b09cd422e562f7ff82f6d422a77f327a216bb422630b96c065b374221dd6ae53e9605421b9a1b2a08519642147119f49607c5420cfe96173edd3a4203aa3e326081a841f97868d21010c841ef70f7da6c51d141e27457f266d12441d48c1ae2bb741341c5a13d602be6a241b571ef3becee0e41a3ee363eb203ab419142a5264f9eaf417ba58eb000000041644559ccf3e796414ad715919215be412f728e84fb5c39410f9372c8872fa440e99f3d72302bc140bd1b88ed98e773,
  0x40a30e2cb66d63d4409865dcd55b77984081d155488fe07340601235a34e5f9f4030e1c7047b3b503ff00000000000004032548eb9151e8540667aaa08b30a74409377af7548243540ba92d54ec6f0bb40de4c6c5ba96ea440fde6c30f823afa411a2885913f9cee4134a1a48aa499d0414db66f55cb91d14163b91ecd4d47e041785253c9c386de418c077cd7a5e87a419e56c6214c0a5141aef88c4c5b6c1241bdebb4824e3ffc41cb6fa9a755324641d7f01a67ed058841e3ea3bf8c4715841efa754dcfafdb341f8115484b5a2544201881b290974f542087f4838c8233b42106e764c69917642152e07039959b2421a3fd0a2a380a9421f4c164bc2f2044221f5234441411c4223d715af48c46c42251be207de83b14225a1550d62e9c5422558d4fb45d4fc422449f300c565ea42229125722c858042205af4f35eab6b421bb970d059db23421698f76ac40f0c4211b37766c73b4b420aa10ba5cb47ff4203373251c6822c41fa92e9a72efe7b41f1956c9d56f98a41e63b7adfeb757041dace53a1aca1b141cec09ab50378fc41c0bd4d9204ecbc41b13d0321214f4f41a0ba383afbefbe418e71c1e554a1564179d3d85a7a7b6541644559ccf3e796414d2494000000004132ec31c523e8c24115c0a59989946d40f56fda9b4d1a0b40d1141a9559a08440a30e2cb66d63d4,
  0x408693299e20c7b140771f914b12ae724059548fb52116ae402e768d399dc46f3ff00000000000004030e1c7047b3b5040635737d0f14724408f9fd37a4ff6fb40b48a64aeb3898140d66e408ce0e89840f54ffa9ef710294112074255283754412b99a4c6db03e441435993cb4e481e41591491ed710009416e44ff1ac82e8f41811bb00731e69a419233156785803941a24acb4affef5741b16da4a938f99841bf91eb48ad211541cb3ee2fdb81a6e41d67375e03843e141e1b1e6679153ac41eab7ffc0561d4d41f3591b1e1f0e4141fae7fede1f20a34201fb1b0467ebfe42071dc5689cd569420c9abfa4a62f6e42110b367c1377dd4213919d5f0cdef44215a779026ced344217196f8e3b91ed4217c1de9cf10c9242178f070e840d564216860fb526ef7b4214c22dd8a81724421270234e51fdc4420f8e2ae9c61aeb420a009699c27ecf42049effa51e431941ff74a08bad25c041f70dcb2424e95441f03847a1067f2341e5e2433e205e7041dc45688c605f5a41d174fce990e23641c491e1d6dd5ef541b712e1ef70766741a892cdb7a60f0e4198c471bfbc1d474187885958b035214174fa5b9ef06300416170d4eae25055414ad715919215be4132ec31c523e8c241181c080000000040fb33ac2b2ab8a040da51dd5234619040b4981d66dca35d408693299e20c7b1,
  0x4067b6bad2875362405237a9ee850e7f402a9bb78af6cabc3ff0000000000000402e768d399dc46f40601235a34e5f9f40888c8f111c6ed440ae1aff2faa6c5340cf4958961fe84040ec789d6b0cfd0041072feda48b04e44121299884e1cfd541375aed326cce6c414d79106e9b9c3141615d3c9d74efd3417335e21d8c69b541840b7e4f91f9014193ccee9462338f41a2931464bfa65e41b0975b98542ff341bc492f0adcc9da41c70e20d64268a541d1ff82d290412241daf3bcf71bfda841e36121a9559a8741eaca7f1ca5813e41f1d183982a8c2941f6d2b3836b887a41fc2af1c10c50934200c1e0552c558242033ad9a77fd4d042054a4c6728f4c24206bf2624de28af420774b7cf5455d942075888b6bdfda542066d5e004356534204caca29b5df4b4202995cd3e83a5042000c491fed9ce341fab3b8a7afb31541f5688c34ab612b41f087f6b8980d8c41e891f260656cca41e18eac0a9a90ed41d81a4e7712449841cfbec60a0408eb41c4074c727fc13241b82c252688a77041abd98edb171193419e8f8fafccebc8418fdac7b0d1aa7a417f6fe5c72b7b37416d429fe059df4041598fe889f151bd4144d5d3a3045132412f728e84fb5c394115c0a59989946d40fb33ac2b2ab8a040de22000000000040bca294060c972d40960342aae0c6d94067b6bad2875362,
  0x404563a5dd397da74025e8add236a58e3ff0000000000000402a9bb78af6cabc4059548fb52116ae4081d155488fe07340a469a9e14fa2ad40c406bf06543d7b40e157e476eb869440fb0e5635937a73411347c63b8e7e8341295ec6d3cc96c0413f1271c54894ca4151d2c095a9db3c41634055f2db1d324173a8efe1037d9941830c6f2a90976741918fd9a8a9ffd9419ee3c70cd3bfdf41a9f7ee8985289241b4e817f397ce7041c024c630e39e8b41c7f1e50cfcbd3441d11331518590f141d77052e3499bf441defe775ae9c9de41e3c13ff0c6d6ef41e84a9114ef9bef41ecd3a4ec02853f41f083a2ee98a9de41f246295e2ffeb141f388cb1e0ffe9a41f42ccc18232cd841f42209886348be41f36989d25f358041f2155421538d9b41f0459842edf06141ec478565b4a31e41e7b9054744b29b41e333db6d52fecc41ddfb26ed146f9641d68ea0944c365141d0581d6e21d7da41c6c9ec92dffb5b41be8a26bcd4cce941b3a4d2a3e51c2241a8394c22f6962f419c9609787042ea41901c06aea84b1441814d2de51faff04171a8831d994ebe4161123784bb8004414f24809055c0f1413aac51149b5e684125529c8873fa9a410f9372c8872fa440f56fda9b4d1a0b40da51dd5234619040bca294060c972d409abc0000000000407432803dca609f404563a5dd397da7,
  0x401f3db2174e74683ff00000000000004025e8add236a58e405237a9ee850e7f40771f914b12ae72409865dcd55b779840b65c6d7aed87ee40d2480ebc25d28840eb24156372ee07410286237b6b9124411777a21a96ffbf412bcaabdf433861413ef181b1a76fe34150453433e44031416038dccfbb5e9f416ec426de4ac2c6417bd27cf3b8c1c241880c324b8a34754193e79c0d0eb1ca419f9b9ad9fb5f5841a81b7fee7c979541b1af3a2fb9e7ae41b8fb33fd3ae48441c10117a7409def41c653ac9ae0901141cc4b24c0663aa241d14ff39edbd24141d4781367bb540c41d7642504e67de941d9d7eb6918f92e41db9c82637f369141dc882055bf2fda41dc8453362d364441db9174c5c6821c41d9c69d2d4ab5b041d74e16b84f4c4441d45f10389b866041d135d50cb7c46241cc1810d18c265441c62479b7ba04ba41c0d7a52143568d41b8b5c987a61b5f41b177ad279f207a41a7c66c2c0a70ce419f1ed7ad0d34d441938fffdb5de83c4187966210d2eaa9417b3ae05cb15ed5416e099b737e005a415f9689bab04238414f94da94faee9d413debbb7b808613412ac1c179627c51411679e1b65b2d1e4101a0e9a32478ba40e99f3d72302bc140d1141a9559a08440b4981d66dca35d40960342aae0c6d9407432803dca609f404e000000000000401f3db2174e7468,
  0x3ff0000000000000401f3db2174e7468404563a5dd397da74067b6bad2875362408693299e20c7b140a30e2cb66d63d440bd1b88ed98e77340d465c6252223d640ea7f488d985ceb4100134109a260074112541c8ddb5a644123bb94028ef3da413423bed0d526d041438cd00d04fa404152198e62999c32416004fb16e6d1f6416b298d21661faf417618a39517e1b6418145ff8465b71b4189fc5d16ad41604192d4186abe3e16419a4f013e1257b941a1bcbd45c4eabf41a718d2f70ff4ec41ad1023f65a5dd641b1ada9285810e541b4cd54a2037a4141b7af27d5b3b99f41ba1945a62d92c141bbd72b8feef63341bcc0e8e1be44c341bcc0e8e1be44c341bbd72b8feef63341ba1945a62d92c141b7af27d5b3b99f41b4cd54a2037a4141b1ada9285810e541ad1023f65a5dd641a718d2f70ff4ec41a1bcbd45c4eabf419a4f013e1257b94192d4186abe3e164189fc5d16ad4160418145ff8465b71b417618a39517e1b6416b298d21661faf416004fb16e6d1f64152198e62999c3241438cd00d04fa40413423bed0d526d04123bb94028ef3da4112541c8ddb5a644100134109a2600740ea7f488d985ceb40d465c6252223d640bd1b88ed98e77340a30e2cb66d63d4408693299e20c7b14067b6bad2875362404563a5dd397da7401f3db2174e74683ff0000000000000]

end SF
