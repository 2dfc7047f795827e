/-
Generated by tools/gen_tables.py from spherical_functions/Wigner_coefficients.npy: bytes 129648 to 219472 after the header.
-/
set_option autoImplicit false
namespace SF

/-- The coefficients for `2 ell = 36`: one number for each of the 37 values of `mp`, consisting of the doubles for the 37 values of `m`. -/
def wigner36 : List Nat := [
  0x3ff000000000000040180000000000004039198c8b8307c840551fe7c35a9dfa406e56834255e39140832ff954378b3d4095ce8862dcd7b640a692786b34cc3240b57cf09e939a2e40c2f35f7d07482040cf239e895beb7540d7efd51deda3f940e14661d5ee0f0440e778d588fcfda640ee15c32b4d3d2640f237a612742bb340f4dee17d40f2d540f6a32afc15eb1240f741f812a7b5e640f6a32afc15eb1240f4dee17d40f2d540f237a612742bb340ee15c32b4d3d2640e778d588fcfda640e14661d5ee0f0440d7efd51deda3f940cf239e895beb7540c2f35f7d07482040b57cf09e939a2e40a692786b34cc324095ce8862dcd7b640832ff954378b3d406e56834255e39140551fe7c35a9dfa4039198c8b8307c840180000000000003ff0000000000000,
  0x401800000000000040418000000000004061c76e38277ad8407d0bdeac9c9938409439acd6e3ed0b40a8c8a20cc7be8440bb422a7b940da440cb4651818a76bd40d911c363ac33e140e551cb6ca8312440f0ddf5dfbc74df40f8ef28a9d78ace41014661d5ee0f0441067e774df27314410b93f2e7b1780d410fe162a04b4c7a41116466930b75074111ebd75ce6af6e4111717a0dfdc86c411008e91d3a312d410bd3d751abee724106c58f971136a041018cb1d94263ab40f96d91ff1212c940f14661d5ee0f0440e5f12e0619d64f40d9f3041d21eee140cc6d0f3b8aec3140bca69628c4cd9340aa558c7d12ee3b4095ce8862dcd7b6407ffa9f8c5c92bb406439acd6e3ed0b40451fe7c35a9dfa4020bbb307acafda3ff00000000000004018000000000000,
  0x4039198c8b8307c84061c76e38277ad84081880000000000409bc60d2d92272840b2bc177c6b683340c637771509201740d79edd76fd673640e6d1d3a187914d40f439b7f69987514100902729e6f31a4109332ff45f7c7b4111e199b662ad644117be9f107e3de0411d92f3a1885a1c41214e152ea18e1241230d5c4ebabf014123bf8e0a0a406c4123472acec4cc654121b8acfe70745f411eaa172df2ac6b4118f1f6c950516041130d5c4ebabf01410b44bc878a353441023c413a1d6f3640f6b6555db067b540ea39d060d4fe4e40dbe9ee3a035e9040cb2e3323f125e940b7f88e2dbf70f840a2e29d7cda1ff9408a10672232199d406e93e8b71a52b4404d0234e1ae90d3402432f24fb01c7a3ff00000000000004020bbb307acafda4039198c8b8307c8,
  0x40551fe7c35a9dfa407d0bdeac9c9938409bc60d2d92272840b550000000000040cbd341f76da90240dfe592b074ab7540f05f1a1ed3a52540fe80c3d41a04fe410a08b78aeaf34241147ff8a89938d7411df12719733ee541245c5ff302667f4129dc9aeda7c6df412ebf2d5adee7ba4131226f7fbe29214131ebd75ce6af6e4131992bb1ea24b34130398fe86f76eb412c132a5581676c4126c58f971136a041214a21f229676c411886193bc269544110332ce87bef084103dc7cb38b37df40f67d0c4917754840e75ee6577d30a340d61c6ba4845db540c2d6c046eace1940ac7b5074f849954092b2fb7b2878c34074a554a4fbc4ea40522a788fc76de54026fa6ea162d0f03ff0000000000000402432f24fb01c7a40451fe7c35a9dfa40551fe7c35a9dfa,
  0x406e56834255e391409439acd6e3ed0b40b2bc177c6b683340cbd341f76da90240e18f000000000040f36f0da6f5cd3741033ca56ea9e887411141d3ceb32300411c531d4a63086f41256953c880a3a6412df8687072dc4041337e780bdcd4324137a29f3cab0649413ac2faf88a882f413c5603932db924413c13c410515690413a0a1f06964d1a41369856c181cd3e413253b7e7723372412bbf92f69f67d841239030abeab61841199d42959f895b410f053c80c8f5cc4101497a5dc4054940f19dc7c774575e40e045f4e882eb0440caf1781701b71b40b3ad330032fff04098ca46457aff11407a0a740d6dfc3a405590590a698c4b40294c583ada5b523ff00000000000004026fa6ea162d0f0404d0234e1ae90d3406439acd6e3ed0b406e56834255e391,
  0x40832ff954378b3d40a8c8a20cc7be8440c637771509201740dfe592b074ab7540f36f0da6f5cd374104bdb8000000004113c541d05e66a441210dbfbe9d0085412adf02da016965413377600a27b8f1413a1020d0bfd48641402e93e4b885bd4142af6fcc43a1dc4144195de3a94322414429524883855c4142de104d88f4da41407806753ebbda413acb61d290ca76413448c7da213633412c84a1010be1f641228f2fb2e3a02d4116465dbfaa68ab410886193bc2695440f89990ca51776940e648789a8d13b640d202de7d76906740b98f838422e3f2409f1c82e3898446407f5b790b3d041c4058b45a59b5207d402b46bfc05aeb893ff000000000000040294c583ada5b5240522a788fc76de5406e93e8b71a52b4407ffa9f8c5c92bb40832ff954378b3d,
  0x4095ce8862dcd7b640bb422a7b940da440d79edd76fd673640f05f1a1ed3a52541033ca56ea9e8874113c541d05e66a441221ede00000000412e02b1a6e9008c4136a886aaafc6c1413f66c6031c8604414410da94e532b74147baf87f9fffe1414a080888d9e521414a86fa8cf367d041492196f0f510f341462284eca5cc0041421d0270101f52413b815c356e604e413355ca7d9eb014412917b26f9f147d411df039b66be9954110552d81f7d3d141002efe211c9feb40ecdc289a03df5340d6dfcf42f1d92840bfb20c3dd45e3a40a2bdefe2f2905a40823fe3f1e36c14405b973c00c28ed2402cfb95bb9dcc0c3ff0000000000000402b46bfc05aeb89405590590a698c4b4074a554a4fbc4ea408a10672232199d4095ce8862dcd7b64095ce8862dcd7b6,
  0x40a692786b34cc3240cb4651818a76bd40e6d1d3a187914d40fe80c3d41a04fe411141d3ceb3230041210dbfbe9d0085412e02b1a6e9008c4137d0cc00000000414133047f9fe2544146c0a50ed23a76414bb18825f34842414f1d0b15aa9edc41502ac205f9eb7e414f1e932c11c5f6414bbf5b97ce99c54146e9679715cde041417fc6dc36b72e4138acb340ae9f1e413002d0fb74c4c141230c0c9db832f74114a8d1696ed490410449842515af2840f1de4c6b44d85240dbe1a3aa30628540c2f11230023fd840a5df399615c2824084b16d0091eb1d405e3962b701e02a402e768d399dc46f3ff0000000000000402cfb95bb9dcc0c4058b45a59b5207d407a0a740d6dfc3a4092b2fb7b2878c340a2e29d7cda1ff940aa558c7d12ee3b40a692786b34cc32,
  0x40b57cf09e939a2e40d911c363ac33e140f439b7f6998751410a08b78aeaf342411c531d4a63086f412adf02da0169654136a886aaafc6c1414133047f9fe2544147b68480000000414de0221d2d2cee415145c7c7c23e14415262605c0ac97541520b497cf31be3415058400825427b414b535fd183e9af41450f2854094049413ddee7d87c82d94133708a4c6e574f41272035e19971cf41190290fe0738f041086a1a3a0e95bf40f54f8963df3dfe40e06c7199230ef640c5f74ec867d4be40a8df2468462c054086f9b6cb0e610a40604d843988c2c6402fbfbf7ebc755e3ff0000000000000402e768d399dc46f405b973c00c28ed2407f5b790b3d041c4098ca46457aff1140ac7b5074f8499540b7f88e2dbf70f840bca69628c4cd9340b57cf09e939a2e,
  0x40c2f35f7d07482040e551cb6ca831244100902729e6f31a41147ff8a89938d741256953c880a3a6413377600a27b8f1413f66c6031c86044146c0a50ed23a76414de0221d2d2cee4151e0fa40000000415395d3e3462d764153b00e2dcaae0f41522fcdc188c8db414ee37d4da1ff2941481957198dbfa841413ef16aa9d0e6413694846f7b96f1412af0d623df7af9411d22c39c718dd2410c5bd3efddc4d140f89b82da2f80d440e2cb54c37f347f40c8d4857e08c6be40abacb3ab09d16b40891179e445dcdc40615e286b9b117440306e825da8fc2b3ff0000000000000402fbfbf7ebc755e405e3962b701e02a40823fe3f1e36c14409f1c82e389844640b3ad330032fff040c2d6c046eace1940cb2e3323f125e940cc6d0f3b8aec3140c2f35f7d074820,
  0x40cf239e895beb7540f0ddf5dfbc74df4109332ff45f7c7b411df12719733ee5412df8687072dc40413a1020d0bfd486414410da94e532b7414bb18825f34842415145c7c7c23e14415395d3e3462d764154433dc000000041532ba5e65ec60041509a25db88091b414a514863c53f89414310e7363c18074139306fe1cdb493412e3b675efc6f3d41206547f0f0d385410feaaaad19d85740fb9d1ad929d00a40e4f743b98cfb8240cb73661ce9af6340ae38e959eeb655408af2945e4d64f040624ea973ec0d7d4030e95a539f492b3ff000000000000040306e825da8fc2b40604d843988c2c64084b16d0091eb1d40a2bdefe2f2905a40b98f838422e3f240caf1781701b71b40d61c6ba4845db540dbe9ee3a035e9040d9f3041d21eee140cf239e895beb75,
  0x40d7efd51deda3f940f8ef28a9d78ace4111e199b662ad6441245c5ff302667f41337e780bdcd43241402e93e4b885bd4147baf87f9fffe1414f1d0b15aa9edc415262605c0ac9754153b00e2dcaae0f41532ba5e65ec600415100ee00000000414b7cdcc34ebb1541443afd8f0f4666413b0ebb863e968c4130625846e3495f4121e067c852b7f64111736d7ffac73840fe3244335cdf8c40e6dc11af2194af40cdc0f3bfdd36a040b03b63587562d8408c97e4058acaf340631f0f09210cf64031520cd1372fea3ff00000000000004030e95a539f492b40615e286b9b11744086f9b6cb0e610a40a5df399615c28240bfb20c3dd45e3a40d202de7d76906740e045f4e882eb0440e75ee6577d30a340ea39d060d4fe4e40e5f12e0619d64f40d7efd51deda3f9,
  0x40e14661d5ee0f0441014661d5ee0f044117be9f107e3de04129dc9aeda7c6df4137a29f3cab06494142af6fcc43a1dc414a080888d9e52141502ac205f9eb7e41520b497cf31be341522fcdc188c8db41509a25db88091b414b7cdcc34ebb154144a18e00000000413c08383dc7944b41312f10e385def94122eb36550cf36d411293f0a3f47bbc41001ed53d5ff29640e8684cc97192a440cfacdd6223d3ad40b12da63d401ddf408dfd2a8866f4c94063cf5e79cb40e44031a9dc8f6df1033ff00000000000004031520cd1372fea40624ea973ec0d7d40891179e445dcdc40a8df2468462c0540c2f11230023fd840d6dfcf42f1d92840e648789a8d13b640f19dc7c774575e40f67d0c4917754840f6b6555db067b540f14661d5ee0f0440e14661d5ee0f04,
  0x40e778d588fcfda641067e774df27314411d92f3a1885a1c412ebf2d5adee7ba413ac2faf88a882f4144195de3a94322414a86fa8cf367d0414f1e932c11c5f6415058400825427b414ee37d4da1ff29414a514863c53f8941443afd8f0f4666413c08383dc7944b4131750200000000412374f61c70d16d41134778e13e32ed4100d408871f5ac340e98dce334ecfb840d094e248a014c540b1eebd9d44c7a9408f1ef8c94666db40645f9b7b1ae4b64031f1c1799ca8fe3ff00000000000004031a9dc8f6df10340631f0f09210cf6408af2945e4d64f040abacb3ab09d16b40c5f74ec867d4be40dbe1a3aa30628540ecdc289a03df5340f89990ca5177694101497a5dc405494103dc7cb38b37df41023c413a1d6f3640f96d91ff1212c940e778d588fcfda6,
  0x40ee15c32b4d3d26410b93f2e7b1780d41214e152ea18e124131226f7fbe2921413c5603932db924414429524883855c41492196f0f510f3414bbf5b97ce99c5414b535fd183e9af41481957198dbfa8414310e7363c1807413b0ebb863e968c41312f10e385def9412374f61c70d16d4113846800000000410130b0960e77be40ea422a2926968540d116ba0f01780240b27b29a34961f3408ffa9f8c5c92bb4064cfc8a5c43b1040322a788fc76de53ff00000000000004031f1c1799ca8fe4063cf5e79cb40e4408c97e4058acaf340ae38e959eeb65540c8d4857e08c6be40e06c7199230ef640f1de4c6b44d85241002efe211c9feb410886193bc26954410f053c80c8f5cc4110332ce87bef08410b44bc878a353441018cb1d94263ab40ee15c32b4d3d26,
  0x40f237a612742bb3410fe162a04b4c7a41230d5c4ebabf014131ebd75ce6af6e413c13c4105156904142de104d88f4da41462284eca5cc004146e9679715cde041450f285409404941413ef16aa9d0e64139306fe1cdb4934130625846e3495f4122eb36550cf36d41134778e13e32ed410130b0960e77be40ea7f000000000040d158840ea43c2140b2d06a69fcb4b3409047122766db0f40651fe7c35a9dfa4032548eb9151e853ff000000000000040322a788fc76de540645f9b7b1ae4b6408dfd2a8866f4c940b03b63587562d840cb73661ce9af6340e2cb54c37f347f40f54f8963df3dfe410449842515af284110552d81f7d3d14116465dbfaa68ab41199d42959f895b411886193bc2695441130d5c4ebabf014106c58f971136a040f237a612742bb3,
  0x40f4dee17d40f2d541116466930b75074123bf8e0a0a406c4131992bb1ea24b3413a0a1f06964d1a41407806753ebbda41421d0270101f5241417fc6dc36b72e413ddee7d87c82d9413694846f7b96f1412e3b675efc6f3d4121e067c852b7f6411293f0a3f47bbc4100d408871f5ac340ea422a2926968540d158840ea43c2140b2ed000000000040906c1cbde4698140654ff9fe7ec7454032706821902e9a3ff00000000000004032548eb9151e854064cfc8a5c43b10408f1ef8c94666db40b12da63d401ddf40cdc0f3bfdd36a040e4f743b98cfb8240f89b82da2f80d441086a1a3a0e95bf4114a8d1696ed490411df039b66be99541228f2fb2e3a02d41239030abeab61841214a21f229676c4118f1f6c9505160410bd3d751abee7240f4dee17d40f2d5,
  0x40f6a32afc15eb124111ebd75ce6af6e4123472acec4cc654130398fe86f76eb41369856c181cd3e413acb61d290ca76413b815c356e604e4138acb340ae9f1e4133708a4c6e574f412af0d623df7af941206547f0f0d3854111736d7ffac73841001ed53d5ff29640e98dce334ecfb840d116ba0f01780240b2d06a69fcb4b340906c1cbde46981406560000000000040327e451bb944c33ff00000000000004032706821902e9a40651fe7c35a9dfa408ffa9f8c5c92bb40b1eebd9d44c7a940cfacdd6223d3ad40e6dc11af2194af40fb9d1ad929d00a410c5bd3efddc4d141190290fe0738f041230c0c9db832f7412917b26f9f147d412c84a1010be1f6412bbf92f69f67d84126c58f971136a0411eaa172df2ac6b411008e91d3a312d40f6a32afc15eb12,
  0x40f741f812a7b5e64111717a0dfdc86c4121b8acfe70745f412c132a5581676c413253b7e7723372413448c7da213633413355ca7d9eb014413002d0fb74c4c141272035e19971cf411d22c39c718dd2410feaaaad19d85740fe3244335cdf8c40e8684cc97192a440d094e248a014c540b27b29a34961f3409047122766db0f40654ff9fe7ec74540327e451bb944c33ff000000000000040327e451bb944c340654ff9fe7ec745409047122766db0f40b27b29a34961f340d094e248a014c540e8684cc97192a440fe3244335cdf8c410feaaaad19d857411d22c39c718dd241272035e19971cf413002d0fb74c4c1413355ca7d9eb014413448c7da213633413253b7e7723372412c132a5581676c4121b8acfe70745f4111717a0dfdc86c40f741f812a7b5e6,
  0x40f6a32afc15eb12411008e91d3a312d411eaa172df2ac6b4126c58f971136a0412bbf92f69f67d8412c84a1010be1f6412917b26f9f147d41230c0c9db832f741190290fe0738f0410c5bd3efddc4d140fb9d1ad929d00a40e6dc11af2194af40cfacdd6223d3ad40b1eebd9d44c7a9408ffa9f8c5c92bb40651fe7c35a9dfa4032706821902e9a3ff000000000000040327e451bb944c3406560000000000040906c1cbde4698140b2d06a69fcb4b340d116ba0f01780240e98dce334ecfb841001ed53d5ff2964111736d7ffac73841206547f0f0d385412af0d623df7af94133708a4c6e574f4138acb340ae9f1e413b815c356e604e413acb61d290ca7641369856c181cd3e4130398fe86f76eb4123472acec4cc654111ebd75ce6af6e40f6a32afc15eb12,
  0x40f4dee17d40f2d5410bd3d751abee724118f1f6c950516041214a21f229676c41239030abeab61841228f2fb2e3a02d411df039b66be9954114a8d1696ed49041086a1a3a0e95bf40f89b82da2f80d440e4f743b98cfb8240cdc0f3bfdd36a040b12da63d401ddf408f1ef8c94666db4064cfc8a5c43b104032548eb9151e853ff00000000000004032706821902e9a40654ff9fe7ec74540906c1cbde4698140b2ed000000000040d158840ea43c2140ea422a292696854100d408871f5ac3411293f0a3f47bbc4121e067c852b7f6412e3b675efc6f3d413694846f7b96f1413ddee7d87c82d941417fc6dc36b72e41421d0270101f5241407806753ebbda413a0a1f06964d1a4131992bb1ea24b34123bf8e0a0a406c41116466930b750740f4dee17d40f2d5,
  0x40f237a612742bb34106c58f971136a041130d5c4ebabf01411886193bc2695441199d42959f895b4116465dbfaa68ab4110552d81f7d3d1410449842515af2840f54f8963df3dfe40e2cb54c37f347f40cb73661ce9af6340b03b63587562d8408dfd2a8866f4c940645f9b7b1ae4b640322a788fc76de53ff00000000000004032548eb9151e8540651fe7c35a9dfa409047122766db0f40b2d06a69fcb4b340d158840ea43c2140ea7f0000000000410130b0960e77be41134778e13e32ed4122eb36550cf36d4130625846e3495f4139306fe1cdb49341413ef16aa9d0e641450f28540940494146e9679715cde041462284eca5cc004142de104d88f4da413c13c4105156904131ebd75ce6af6e41230d5c4ebabf01410fe162a04b4c7a40f237a612742bb3,
  0x40ee15c32b4d3d2641018cb1d94263ab410b44bc878a35344110332ce87bef08410f053c80c8f5cc410886193bc2695441002efe211c9feb40f1de4c6b44d85240e06c7199230ef640c8d4857e08c6be40ae38e959eeb655408c97e4058acaf34063cf5e79cb40e44031f1c1799ca8fe3ff000000000000040322a788fc76de54064cfc8a5c43b10408ffa9f8c5c92bb40b27b29a34961f340d116ba0f01780240ea422a29269685410130b0960e77be4113846800000000412374f61c70d16d41312f10e385def9413b0ebb863e968c414310e7363c180741481957198dbfa8414b535fd183e9af414bbf5b97ce99c541492196f0f510f3414429524883855c413c5603932db9244131226f7fbe292141214e152ea18e12410b93f2e7b1780d40ee15c32b4d3d26,
  0x40e778d588fcfda640f96d91ff1212c941023c413a1d6f364103dc7cb38b37df4101497a5dc4054940f89990ca51776940ecdc289a03df5340dbe1a3aa30628540c5f74ec867d4be40abacb3ab09d16b408af2945e4d64f040631f0f09210cf64031a9dc8f6df1033ff00000000000004031f1c1799ca8fe40645f9b7b1ae4b6408f1ef8c94666db40b1eebd9d44c7a940d094e248a014c540e98dce334ecfb84100d408871f5ac341134778e13e32ed412374f61c70d16d4131750200000000413c08383dc7944b41443afd8f0f4666414a514863c53f89414ee37d4da1ff29415058400825427b414f1e932c11c5f6414a86fa8cf367d04144195de3a94322413ac2faf88a882f412ebf2d5adee7ba411d92f3a1885a1c41067e774df2731440e778d588fcfda6,
  0x40e14661d5ee0f0440f14661d5ee0f0440f6b6555db067b540f67d0c4917754840f19dc7c774575e40e648789a8d13b640d6dfcf42f1d92840c2f11230023fd840a8df2468462c0540891179e445dcdc40624ea973ec0d7d4031520cd1372fea3ff00000000000004031a9dc8f6df1034063cf5e79cb40e4408dfd2a8866f4c940b12da63d401ddf40cfacdd6223d3ad40e8684cc97192a441001ed53d5ff296411293f0a3f47bbc4122eb36550cf36d41312f10e385def9413c08383dc7944b4144a18e00000000414b7cdcc34ebb1541509a25db88091b41522fcdc188c8db41520b497cf31be341502ac205f9eb7e414a080888d9e5214142af6fcc43a1dc4137a29f3cab06494129dc9aeda7c6df4117be9f107e3de041014661d5ee0f0440e14661d5ee0f04,
  0x40d7efd51deda3f940e5f12e0619d64f40ea39d060d4fe4e40e75ee6577d30a340e045f4e882eb0440d202de7d76906740bfb20c3dd45e3a40a5df399615c2824086f9b6cb0e610a40615e286b9b11744030e95a539f492b3ff00000000000004031520cd1372fea40631f0f09210cf6408c97e4058acaf340b03b63587562d840cdc0f3bfdd36a040e6dc11af2194af40fe3244335cdf8c4111736d7ffac7384121e067c852b7f64130625846e3495f413b0ebb863e968c41443afd8f0f4666414b7cdcc34ebb15415100ee0000000041532ba5e65ec6004153b00e2dcaae0f415262605c0ac975414f1d0b15aa9edc4147baf87f9fffe141402e93e4b885bd41337e780bdcd43241245c5ff302667f4111e199b662ad6440f8ef28a9d78ace40d7efd51deda3f9,
  0x40cf239e895beb7540d9f3041d21eee140dbe9ee3a035e9040d61c6ba4845db540caf1781701b71b40b98f838422e3f240a2bdefe2f2905a4084b16d0091eb1d40604d843988c2c640306e825da8fc2b3ff00000000000004030e95a539f492b40624ea973ec0d7d408af2945e4d64f040ae38e959eeb65540cb73661ce9af6340e4f743b98cfb8240fb9d1ad929d00a410feaaaad19d85741206547f0f0d385412e3b675efc6f3d4139306fe1cdb493414310e7363c1807414a514863c53f8941509a25db88091b41532ba5e65ec6004154433dc0000000415395d3e3462d76415145c7c7c23e14414bb18825f34842414410da94e532b7413a1020d0bfd486412df8687072dc40411df12719733ee54109332ff45f7c7b40f0ddf5dfbc74df40cf239e895beb75,
  0x40c2f35f7d07482040cc6d0f3b8aec3140cb2e3323f125e940c2d6c046eace1940b3ad330032fff0409f1c82e389844640823fe3f1e36c14405e3962b701e02a402fbfbf7ebc755e3ff000000000000040306e825da8fc2b40615e286b9b117440891179e445dcdc40abacb3ab09d16b40c8d4857e08c6be40e2cb54c37f347f40f89b82da2f80d4410c5bd3efddc4d1411d22c39c718dd2412af0d623df7af9413694846f7b96f141413ef16aa9d0e641481957198dbfa8414ee37d4da1ff2941522fcdc188c8db4153b00e2dcaae0f415395d3e3462d764151e0fa40000000414de0221d2d2cee4146c0a50ed23a76413f66c6031c8604413377600a27b8f141256953c880a3a641147ff8a89938d74100902729e6f31a40e551cb6ca8312440c2f35f7d074820,
  0x40b57cf09e939a2e40bca69628c4cd9340b7f88e2dbf70f840ac7b5074f849954098ca46457aff11407f5b790b3d041c405b973c00c28ed2402e768d399dc46f3ff0000000000000402fbfbf7ebc755e40604d843988c2c64086f9b6cb0e610a40a8df2468462c0540c5f74ec867d4be40e06c7199230ef640f54f8963df3dfe41086a1a3a0e95bf41190290fe0738f041272035e19971cf4133708a4c6e574f413ddee7d87c82d941450f2854094049414b535fd183e9af415058400825427b41520b497cf31be3415262605c0ac975415145c7c7c23e14414de0221d2d2cee4147b68480000000414133047f9fe2544136a886aaafc6c1412adf02da016965411c531d4a63086f410a08b78aeaf34240f439b7f699875140d911c363ac33e140b57cf09e939a2e,
  0x40a692786b34cc3240aa558c7d12ee3b40a2e29d7cda1ff94092b2fb7b2878c3407a0a740d6dfc3a4058b45a59b5207d402cfb95bb9dcc0c3ff0000000000000402e768d399dc46f405e3962b701e02a4084b16d0091eb1d40a5df399615c28240c2f11230023fd840dbe1a3aa30628540f1de4c6b44d852410449842515af284114a8d1696ed49041230c0c9db832f7413002d0fb74c4c14138acb340ae9f1e41417fc6dc36b72e4146e9679715cde0414bbf5b97ce99c5414f1e932c11c5f641502ac205f9eb7e414f1d0b15aa9edc414bb18825f348424146c0a50ed23a76414133047f9fe2544137d0cc00000000412e02b1a6e9008c41210dbfbe9d0085411141d3ceb3230040fe80c3d41a04fe40e6d1d3a187914d40cb4651818a76bd40a692786b34cc32,
  0x4095ce8862dcd7b64095ce8862dcd7b6408a10672232199d4074a554a4fbc4ea405590590a698c4b402b46bfc05aeb893ff0000000000000402cfb95bb9dcc0c405b973c00c28ed240823fe3f1e36c1440a2bdefe2f2905a40bfb20c3dd45e3a40d6dfcf42f1d92840ecdc289a03df5341002efe211c9feb4110552d81f7d3d1411df039b66be995412917b26f9f147d413355ca7d9eb014413b815c356e604e41421d0270101f5241462284eca5cc0041492196f0f510f3414a86fa8cf367d0414a080888d9e5214147baf87f9fffe1414410da94e532b7413f66c6031c86044136a886aaafc6c1412e02b1a6e9008c41221ede000000004113c541d05e66a441033ca56ea9e88740f05f1a1ed3a52540d79edd76fd673640bb422a7b940da44095ce8862dcd7b6,
  0x40832ff954378b3d407ffa9f8c5c92bb406e93e8b71a52b440522a788fc76de540294c583ada5b523ff0000000000000402b46bfc05aeb894058b45a59b5207d407f5b790b3d041c409f1c82e389844640b98f838422e3f240d202de7d76906740e648789a8d13b640f89990ca517769410886193bc269544116465dbfaa68ab41228f2fb2e3a02d412c84a1010be1f6413448c7da213633413acb61d290ca7641407806753ebbda4142de104d88f4da414429524883855c4144195de3a943224142af6fcc43a1dc41402e93e4b885bd413a1020d0bfd486413377600a27b8f1412adf02da01696541210dbfbe9d00854113c541d05e66a44104bdb80000000040f36f0da6f5cd3740dfe592b074ab7540c637771509201740a8c8a20cc7be8440832ff954378b3d,
  0x406e56834255e391406439acd6e3ed0b404d0234e1ae90d34026fa6ea162d0f03ff000000000000040294c583ada5b52405590590a698c4b407a0a740d6dfc3a4098ca46457aff1140b3ad330032fff040caf1781701b71b40e045f4e882eb0440f19dc7c774575e4101497a5dc40549410f053c80c8f5cc41199d42959f895b41239030abeab618412bbf92f69f67d8413253b7e772337241369856c181cd3e413a0a1f06964d1a413c13c410515690413c5603932db924413ac2faf88a882f4137a29f3cab064941337e780bdcd432412df8687072dc4041256953c880a3a6411c531d4a63086f411141d3ceb3230041033ca56ea9e88740f36f0da6f5cd3740e18f000000000040cbd341f76da90240b2bc177c6b6833409439acd6e3ed0b406e56834255e391,
  0x40551fe7c35a9dfa40451fe7c35a9dfa402432f24fb01c7a3ff00000000000004026fa6ea162d0f040522a788fc76de54074a554a4fbc4ea4092b2fb7b2878c340ac7b5074f8499540c2d6c046eace1940d61c6ba4845db540e75ee6577d30a340f67d0c491775484103dc7cb38b37df4110332ce87bef08411886193bc2695441214a21f229676c4126c58f971136a0412c132a5581676c4130398fe86f76eb4131992bb1ea24b34131ebd75ce6af6e4131226f7fbe2921412ebf2d5adee7ba4129dc9aeda7c6df41245c5ff302667f411df12719733ee541147ff8a89938d7410a08b78aeaf34240fe80c3d41a04fe40f05f1a1ed3a52540dfe592b074ab7540cbd341f76da90240b5500000000000409bc60d2d922728407d0bdeac9c993840551fe7c35a9dfa,
  0x4039198c8b8307c84020bbb307acafda3ff0000000000000402432f24fb01c7a404d0234e1ae90d3406e93e8b71a52b4408a10672232199d40a2e29d7cda1ff940b7f88e2dbf70f840cb2e3323f125e940dbe9ee3a035e9040ea39d060d4fe4e40f6b6555db067b541023c413a1d6f36410b44bc878a353441130d5c4ebabf014118f1f6c9505160411eaa172df2ac6b4121b8acfe70745f4123472acec4cc654123bf8e0a0a406c41230d5c4ebabf0141214e152ea18e12411d92f3a1885a1c4117be9f107e3de04111e199b662ad644109332ff45f7c7b4100902729e6f31a40f439b7f699875140e6d1d3a187914d40d79edd76fd673640c637771509201740b2bc177c6b6833409bc60d2d92272840818800000000004061c76e38277ad84039198c8b8307c8,
  0x40180000000000003ff00000000000004020bbb307acafda40451fe7c35a9dfa406439acd6e3ed0b407ffa9f8c5c92bb4095ce8862dcd7b640aa558c7d12ee3b40bca69628c4cd9340cc6d0f3b8aec3140d9f3041d21eee140e5f12e0619d64f40f14661d5ee0f0440f96d91ff1212c941018cb1d94263ab4106c58f971136a0410bd3d751abee72411008e91d3a312d4111717a0dfdc86c4111ebd75ce6af6e41116466930b7507410fe162a04b4c7a410b93f2e7b1780d41067e774df2731441014661d5ee0f0440f8ef28a9d78ace40f0ddf5dfbc74df40e551cb6ca8312440d911c363ac33e140cb4651818a76bd40bb422a7b940da440a8c8a20cc7be84409439acd6e3ed0b407d0bdeac9c99384061c76e38277ad840418000000000004018000000000000,
  0x3ff000000000000040180000000000004039198c8b8307c840551fe7c35a9dfa406e56834255e39140832ff954378b3d4095ce8862dcd7b640a692786b34cc3240b57cf09e939a2e40c2f35f7d07482040cf239e895beb7540d7efd51deda3f940e14661d5ee0f0440e778d588fcfda640ee15c32b4d3d2640f237a612742bb340f4dee17d40f2d540f6a32afc15eb1240f741f812a7b5e640f6a32afc15eb1240f4dee17d40f2d540f237a612742bb340ee15c32b4d3d2640e778d588fcfda640e14661d5ee0f0440d7efd51deda3f940cf239e895beb7540c2f35f7d07482040b57cf09e939a2e40a692786b34cc324095ce8862dcd7b640832ff954378b3d406e56834255e39140551fe7c35a9dfa4039198c8b8307c840180000000000003ff0000000000000]

/-- The coefficients for `2 ell = 37`: one number for each of the 38 values of `mp`, consisting of the doubles for the 38 values of `m`. -/
def wigner37 : List Nat := [
  0x3ff0000000000000401854bfb363dc394039ce95f75281f54056097255e24e7540700fe01fc07ee24084a1ccb8b2ffcb4097d2e59e7aa63640a9114fc42454a440b84589048bcec440c5c8d18bac22a240d239e6b179759040dc8e0fecee761a40e5040f6385e18940ed24cd0e5706dc40f3143da2852ab340f7a00cb9e4310240fbb3f7881de4bd40feca47d185222d41003a539cc53cc441003a539cc53cc440feca47d185222d40fbb3f7881de4bd40f7a00cb9e4310240f3143da2852ab340ed24cd0e5706dc40e5040f6385e18940dc8e0fecee761a40d239e6b179759040c5c8d18bac22a240b84589048bcec440a9114fc42454a44097d2e59e7aa6364084a1ccb8b2ffcb40700fe01fc07ee24056097255e24e754039ce95f75281f5401854bfb363dc393ff0000000000000,
  0x401854bfb363dc39404200000000000040628fc1f0145f0d407ecb4f1757a8cd4095c8e7017572ea40ab229485bf148340be5a8e864dbc0d40cee87f170d552340dcedddf4b8e11b40e911c363ac33e140f439b7f699875140fe837bfee27cf1410597fa4b6992c5410cbf49ed0d5ff54112090b5a8f23c141155c9ce48fa6f84117e909f838795b41194f31d76322134119582ff51ae961411802b42b92c22641158350c3e1102a411237a612742bb3410d21330920faf64105f4bfe8ae41c940ff24901623d29f40f4badbcd84120540e9d1b7b0497d6a40ddf6b1b92f4d3640d01db476eeb3a240bfebfdbe970a0c40acd8ff2694fa2140977fea366dbae04080f59cd3976cd240651fe7c35a9dfa4045bcb04cb659094020f876ccdf6cd93ff0000000000000401854bfb363dc39,
  0x4039ce95f75281f540628fc1f0145f0d4082980000000000409df0b81bb7b7ee40b489f437af7fc340c8c8a20cc7be8440dad44446a1845f40ea6899c7b7e3b740f7dd87515927e54103f14ca5290215410efc9990c3bcef411679b39dbdbe0a411e89bdb5bf84e641237afa55c9afd54127615ce3544d89412a6f102bc5a302412c2db6acdbb935412c5603932db924412ae1c30b5a072641280d5dabd749c341244858ca5c032c41201a1f3e3469d5411807e027caf1474110d1ad10d060404106057407ef1fd040fadf9cb46b18ca40ee6da07708c24540dfc7fff6f0243e40ce6380fbac33ef40ba558c7d12ee3b40a465fb321983c1408bb1d2dd8df3ff406ffa9f8c5c92bb404ddfeedca22e3440247e7054af09893ff00000000000004020f876ccdf6cd94039ce95f75281f5,
  0x4056097255e24e75407ecb4f1757a8cd409df0b81bb7b7ee40b760000000000040cf116b1b4048f640e223cbbd8e5bbe40f2fb7ce9297f6e41020a5e97cf8dd8410f711736bc2d6441194cf0cf9aaf4f4122e663f7479d5c412a520b9f900328413122ddf973e62a4134e978a58254554137f52bfd8d654b4139cbfa3974bb65413a1fded41af0d44138e34602e0fcec41364c866fbd8d4b4132c72dd75c4116412db0d146cd878f4125ffe410ee4411411e7cb35b2cdd784113b24a9ddc77b44107a3c00902a21d40fa39d060d4fe4e40eab9b527ecd00140d8cff03391379c40c4c269b0e7f24e40aed6e4bf01279e4093e821c1ff820940759f2ae5b3ae7b4052b998819b3569402752e50db3a3a13ff000000000000040247e7054af09894045bcb04cb659094056097255e24e75,
  0x40700fe01fc07ee24095c8e7017572ea40b489f437af7fc340cf116b1b4048f640e3fb000000000040f68dee9a715ac64106c9c462f41d0d4114e24bbf769ed2412186532cfbd414412b1e69db5f680f413372a9a97c85f34139f4800d8a4bec414029e0d488dc4b4142d41788fd819f41448b26c646e38e414503b882583ecb414429524883855c414223d2da8e25f0413e9808296395e24138272edd4e9ec04131d25a61f2f3de412886193bc26954411f5ef87dfcff6c4112941a294b3d18410445553af88b8d40f43d57db61e98d40e2555f6aa7e4ce40cdc970628cd5e940b55c7c57ba372f409a71d0bb6450b4407b4fd5d22dee1c40563fa3f3c029614029b0c25315c2cd3ff0000000000000402752e50db3a3a1404ddfeedca22e3440651fe7c35a9dfa40700fe01fc07ee2,
  0x4084a1ccb8b2ffcb40ab229485bf148340c8c8a20cc7be8440e223cbbd8e5bbe40f68dee9a715ac641089500000000004117f32295dd9739412522b61f744b6641310dbfbe9d00854139559809c3b066414169442867eb6441463a0291a4f823414a6ccd12faa311414d50df7a7e3fd1414e631036cb6581414d7297aa9ee478414aaebdd76258f941469856c181cd3e4141dcebe1b5dc4e413a530ac5e3958141320952b9e79d194126e8fde1e1c8d3411add4ff9f840b6410ced3db6cc2abb40fc67cd6860e33440e935df50c152bf40d3fb4ccc39356140bbd3aceaac5d5240a0a135d9c608244080783c3bce15a8405983c37ca9aa04402bb67ae8584caa3ff00000000000004029b0c25315c2cd4052b998819b3569406ffa9f8c5c92bb4080f59cd3976cd24084a1ccb8b2ffcb,
  0x4097d2e59e7aa63640be5a8e864dbc0d40dad44446a1845f40f2fb7ce9297f6e4106c9c462f41d0d4117f32295dd973941267832000000004133110e470065c1413d89b2f73cb1d5414506a90d984ead414ba4dc520f09e94150d7bb4909d683415312131c33d29e4154195de3a943224153bca65c92599b4152106f1439f2d3414ecf7601db0085414875bb03ee910441420c4f7aa559694138b287b54e0e90412f3d7033bb067641222ff6671294c841136345d07d999f4102c9d85ccf457c40f0666086e0fa4640d978c0ed20439c40c14dfad043a4be40a41511e6c5ad7b408333cd972cdc08405c86bbd609a25f402d763b20d435ef3ff0000000000000402bb67ae8584caa40563fa3f3c0296140759f2ae5b3ae7b408bb1d2dd8df3ff40977fea366dbae04097d2e59e7aa636,
  0x40a9114fc42454a440cee87f170d552340ea6899c7b7e3b741020a5e97cf8dd84114e24bbf769ed2412522b61f744b664133110e470065c1413f10580000000041470f32bc9d2e86414f66c6031c86044153b44a52ee6a764156ddfcfd677cd0415898eb6c582fa841588f397eb852274156c6ef8e2bac4b41539ed51c099786414f5f893d111c6b41473f0918183439413fdad32ca4085141341e6a6d09489f412753ea95eef8394118b158bad9f3514107b0b86603a7e540f46837905db67340df2c1f9425e63940c4bfe424f0631040a77e884b6ad6e24085cffa21bd3185405f48f47a1826ff402efbdeb14f4ed93ff0000000000000402d763b20d435ef405983c37ca9aa04407b4fd5d22dee1c4093e821c1ff820940a465fb321983c140acd8ff2694fa2140a9114fc42454a4,
  0x40b84589048bcec440dcedddf4b8e11b40f7dd87515927e5410f711736bc2d64412186532cfbd41441310dbfbe9d0085413d89b2f73cb1d541470f32bc9d2e8641505f8c4000000041554874ce2433b7415970269b8f97f5415c0b97cf4acedb415c945c04d0a86a415af34198be45c34157862a20a969434152ff562c7a8706414c5a116560b1c9414381ca3c9060be4138acb340ae9f1e412c9212ec944c73411e1db5fab1fca8410cb0bdb45f95ad40f8779dbf3abc2b40e2711ac9f8259540c825608121910940aac99f3dce3c9c408843c84847dc9f4060e5547dd7c8f7403027ce7b7ea3763ff0000000000000402efbdeb14f4ed9405c86bbd609a25f4080783c3bce15a8409a71d0bb6450b440aed6e4bf01279e40ba558c7d12ee3b40bfebfdbe970a0c40b84589048bcec4,
  0x40c5c8d18bac22a240e911c363ac33e14103f14ca529021541194cf0cf9aaf4f412b1e69db5f680f4139559809c3b066414506a90d984ead414f66c6031c860441554874ce2433b7415a590500000000415deabf907e80cc415f3f4d3cbfb3cd415e12cfd03fd925415ab0da123766604155d7707e0e28b141507676328d39574146d06bb05f5af9413cfa9691d6bd124130cceee5f74bc64121af4c5062a09b4110c6f8db2b7aef40fc6a0c8529a7fe40e533e9dd3e353f40cb657f3a9a34bd40ade45a42a55aa3408a879e4d17a66c406205ff005531d74030bbb307acafda3ff0000000000000403027ce7b7ea376405f48f47a1826ff408333cd972cdc0840a0a135d9c6082440b55c7c57ba372f40c4c269b0e7f24e40ce6380fbac33ef40d01db476eeb3a240c5c8d18bac22a2,
  0x40d239e6b179759040f439b7f6998751410efc9990c3bcef4122e663f7479d5c413372a9a97c85f3414169442867eb64414ba4dc520f09e94153b44a52ee6a76415970269b8f97f5415deabf907e80cc41601747a0000000415fbed859a567cc415cc178d98e29004157ed1d70ca5c364152462244698aef4149946b347bb87d41405c61f9cec8e941330cccc2c91bce4124149930f55a484113060a6446c15141000ac760a95ac840e7c5e7ec6f4eba40ce691df7104fd640b05f5dba6a9f25408c950c70167c02406306859e13325140313bd2f90a1cb43ff00000000000004030bbb307acafda4060e5547dd7c8f74085cffa21bd318540a41511e6c5ad7b40bbd3aceaac5d5240cdc970628cd5e940d8cff03391379c40dfc7fff6f0243e40ddf6b1b92f4d3640d239e6b1797590,
  0x40dc8e0fecee761a40fe837bfee27cf1411679b39dbdbe0a412a520b9f9003284139f4800d8a4bec41463a0291a4f8234150d7bb4909d6834156ddfcfd677cd0415c0b97cf4acedb415f3f4d3cbfb3cd415fbed859a567cc415d79140000000041590756c972321e41536fd026a3f933414b91c63a2a966a4141cfbbca7d67814134e2c2f40361d641261b9cd19722f94114f92e0f5668e64101a96a27dcfa0540ea1062a64100cf40d08dae5405d9d440b1a562125170d9408e66a5b9ade0464063e6f04c5945b34031a9dc8f6df1033ff000000000000040313bd2f90a1cb4406205ff005531d7408843c84847dc9f40a77e884b6ad6e240c14dfad043a4be40d3fb4ccc39356140e2555f6aa7e4ce40eab9b527ecd00140ee6da07708c24540e9d1b7b0497d6a40dc8e0fecee761a,
  0x40e5040f6385e189410597fa4b6992c5411e89bdb5bf84e6413122ddf973e62a414029e0d488dc4b414a6ccd12faa311415312131c33d29e415898eb6c582fa8415c945c04d0a86a415e12cfd03fd925415cc178d98e290041590756c972321e4153d66b00000000414c9c32d46c6e8c4142bad03f74a5d341362f2b74ada1fa4127a603ea5030484116876ca5cb14674102ff84f071799440ebff4aa5b4b32c40d1b4fe436e35c340b2be3a954058fe408ff7e2f8b1019f4064a74489a6c65d4032071b0abcd8383ff00000000000004031a9dc8f6df103406306859e133251408a879e4d17a66c40aac99f3dce3c9c40c4bfe424f0631040d978c0ed20439c40e935df50c152bf40f43d57db61e98d40fa39d060d4fe4e40fadf9cb46b18ca40f4badbcd84120540e5040f6385e189,
  0x40ed24cd0e5706dc410cbf49ed0d5ff541237afa55c9afd54134e978a58254554142d41788fd819f414d50df7a7e3fd14154195de3a9432241588f397eb85227415af34198be45c3415ab0da123766604157ed1d70ca5c3641536fd026a3f933414c9c32d46c6e8c41430b48000000004136db4e034b149141289c792042004641179cb1ba4ad1ae4103feb4d149f45140ed81d3884ebc5740d2a2d671094e8840b3a4e78a3faca94090a2868b85a403406547863283db0f4032548eb9151e853ff00000000000004032071b0abcd8384063e6f04c5945b3408c950c70167c0240ade45a42a55aa340c825608121910940df2c1f9425e63940f0666086e0fa4640fc67cd6860e334410445553af88b8d4107a3c00902a21d4106057407ef1fd040ff24901623d29f40ed24cd0e5706dc,
  0x40f3143da2852ab34112090b5a8f23c14127615ce3544d894137f52bfd8d654b41448b26c646e38e414e631036cb65814153bca65c92599b4156c6ef8e2bac4b4157862a20a969434155d7707e0e28b14152462244698aef414b91c63a2a966a4142bad03f74a5d34136db4e034b14914128f04c0000000041182af11a828bf241049c3de05739b040ee8af3fb6834ef40d35123de87c69240b45569202321dd40912596723185044065c7b802793cb2403292fd2c6a62623ff00000000000004032548eb9151e854064a74489a6c65d408e66a5b9ade04640b05f5dba6a9f2540cb657f3a9a34bd40e2711ac9f8259540f46837905db6734102c9d85ccf457c410ced3db6cc2abb4112941a294b3d184113b24a9ddc77b44110d1ad10d060404105f4bfe8ae41c940f3143da2852ab3,
  0x40f7a00cb9e4310241155c9ce48fa6f8412a6f102bc5a3024139cbfa3974bb65414503b882583ecb414d7297aa9ee4784152106f1439f2d341539ed51c0997864152ff562c7a870641507676328d39574149946b347bb87d4141cfbbca7d678141362f2b74ada1fa41289c792042004641182af11a828bf24104d1800000000040ef11c5c42e1a3e40d3bb7fd775243f40b4ccbf75270b34409183ff8b1367c0406627dbe4718fff4032c2fc595456a63ff0000000000000403292fd2c6a6262406547863283db0f408ff7e2f8b1019f40b1a562125170d940ce691df7104fd640e533e9dd3e353f40f8779dbf3abc2b4107b0b86603a7e541136345d07d999f411add4ff9f840b6411f5ef87dfcff6c411e7cb35b2cdd78411807e027caf147410d21330920faf640f7a00cb9e43102,
  0x40fbb3f7881de4bd4117e909f838795b412c2db6acdbb935413a1fded41af0d4414429524883855c414aaebdd76258f9414ecf7601db0085414f5f893d111c6b414c5a116560b1c94146d06bb05f5af941405c61f9cec8e94134e2c2f40361d64127a603ea50304841179cb1ba4ad1ae41049c3de05739b040ef11c5c42e1a3e40d3df400000000040b508ea9b695b084091bcf5d3004b6e406667f32579a2a74032e4fa41f10c9a3ff00000000000004032c2fc595456a64065c7b802793cb24090a2868b85a40340b2be3a954058fe40d08dae5405d9d440e7c5e7ec6f4eba40fc6a0c8529a7fe410cb0bdb45f95ad4118b158bad9f35141222ff6671294c84126e8fde1e1c8d3412886193bc269544125ffe410ee441141201a1f3e3469d5411237a612742bb340fbb3f7881de4bd,
  0x40feca47d185222d41194f31d7632213412c5603932db9244138e34602e0fcec414223d2da8e25f041469856c181cd3e414875bb03ee910441473f0918183439414381ca3c9060be413cfa9691d6bd1241330cccc2c91bce41261b9cd19722f94116876ca5cb14674103feb4d149f45140ee8af3fb6834ef40d3bb7fd775243f40b508ea9b695b084091d00000000000406687fe946a79554032f9422c23c47d3ff00000000000004032e4fa41f10c9a406627dbe4718fff409125967231850440b3a4e78a3faca940d1b4fe436e35c340ea1062a64100cf41000ac760a95ac84110c6f8db2b7aef411e1db5fab1fca8412753ea95eef839412f3d7033bb067641320952b9e79d194131d25a61f2f3de412db0d146cd878f41244858ca5c032c41158350c3e1102a40feca47d185222d,
  0x41003a539cc53cc44119582ff51ae961412ae1c30b5a072641364c866fbd8d4b413e9808296395e24141dcebe1b5dc4e41420c4f7aa55969413fdad32ca408514138acb340ae9f1e4130cceee5f74bc64124149930f55a484114f92e0f5668e64102ff84f071799440ed81d3884ebc5740d35123de87c69240b4ccbf75270b344091bcf5d3004b6e406687fe946a795540330000000000003ff00000000000004032f9422c23c47d406667f32579a2a7409183ff8b1367c040b45569202321dd40d2a2d671094e8840ebff4aa5b4b32c4101a96a27dcfa054113060a6446c1514121af4c5062a09b412c9212ec944c7341341e6a6d09489f4138b287b54e0e90413a530ac5e395814138272edd4e9ec04132c72dd75c411641280d5dabd749c3411802b42b92c22641003a539cc53cc4,
  0x41003a539cc53cc4411802b42b92c22641280d5dabd749c34132c72dd75c41164138272edd4e9ec0413a530ac5e395814138b287b54e0e9041341e6a6d09489f412c9212ec944c734121af4c5062a09b4113060a6446c1514101a96a27dcfa0540ebff4aa5b4b32c40d2a2d671094e8840b45569202321dd409183ff8b1367c0406667f32579a2a74032f9422c23c47d3ff00000000000004033000000000000406687fe946a79554091bcf5d3004b6e40b4ccbf75270b3440d35123de87c69240ed81d3884ebc574102ff84f07179944114f92e0f5668e64124149930f55a484130cceee5f74bc64138acb340ae9f1e413fdad32ca4085141420c4f7aa559694141dcebe1b5dc4e413e9808296395e241364c866fbd8d4b412ae1c30b5a07264119582ff51ae96141003a539cc53cc4,
  0x40feca47d185222d41158350c3e1102a41244858ca5c032c412db0d146cd878f4131d25a61f2f3de41320952b9e79d19412f3d7033bb0676412753ea95eef839411e1db5fab1fca84110c6f8db2b7aef41000ac760a95ac840ea1062a64100cf40d1b4fe436e35c340b3a4e78a3faca94091259672318504406627dbe4718fff4032e4fa41f10c9a3ff00000000000004032f9422c23c47d406687fe946a79554091d0000000000040b508ea9b695b0840d3bb7fd775243f40ee8af3fb6834ef4103feb4d149f4514116876ca5cb146741261b9cd19722f941330cccc2c91bce413cfa9691d6bd12414381ca3c9060be41473f0918183439414875bb03ee910441469856c181cd3e414223d2da8e25f04138e34602e0fcec412c5603932db92441194f31d763221340feca47d185222d,
  0x40fbb3f7881de4bd411237a612742bb341201a1f3e3469d54125ffe410ee4411412886193bc269544126e8fde1e1c8d341222ff6671294c84118b158bad9f351410cb0bdb45f95ad40fc6a0c8529a7fe40e7c5e7ec6f4eba40d08dae5405d9d440b2be3a954058fe4090a2868b85a4034065c7b802793cb24032c2fc595456a63ff00000000000004032e4fa41f10c9a406667f32579a2a74091bcf5d3004b6e40b508ea9b695b0840d3df400000000040ef11c5c42e1a3e41049c3de05739b041179cb1ba4ad1ae4127a603ea5030484134e2c2f40361d641405c61f9cec8e94146d06bb05f5af9414c5a116560b1c9414f5f893d111c6b414ecf7601db0085414aaebdd76258f9414429524883855c413a1fded41af0d4412c2db6acdbb9354117e909f838795b40fbb3f7881de4bd,
  0x40f7a00cb9e43102410d21330920faf6411807e027caf147411e7cb35b2cdd78411f5ef87dfcff6c411add4ff9f840b641136345d07d999f4107b0b86603a7e540f8779dbf3abc2b40e533e9dd3e353f40ce691df7104fd640b1a562125170d9408ff7e2f8b1019f406547863283db0f403292fd2c6a62623ff00000000000004032c2fc595456a6406627dbe4718fff409183ff8b1367c040b4ccbf75270b3440d3bb7fd775243f40ef11c5c42e1a3e4104d1800000000041182af11a828bf241289c792042004641362f2b74ada1fa4141cfbbca7d67814149946b347bb87d41507676328d39574152ff562c7a870641539ed51c0997864152106f1439f2d3414d7297aa9ee478414503b882583ecb4139cbfa3974bb65412a6f102bc5a30241155c9ce48fa6f840f7a00cb9e43102,
  0x40f3143da2852ab34105f4bfe8ae41c94110d1ad10d060404113b24a9ddc77b44112941a294b3d18410ced3db6cc2abb4102c9d85ccf457c40f46837905db67340e2711ac9f8259540cb657f3a9a34bd40b05f5dba6a9f25408e66a5b9ade0464064a74489a6c65d4032548eb9151e853ff0000000000000403292fd2c6a62624065c7b802793cb2409125967231850440b45569202321dd40d35123de87c69240ee8af3fb6834ef41049c3de05739b041182af11a828bf24128f04c000000004136db4e034b14914142bad03f74a5d3414b91c63a2a966a4152462244698aef4155d7707e0e28b14157862a20a969434156c6ef8e2bac4b4153bca65c92599b414e631036cb658141448b26c646e38e4137f52bfd8d654b4127615ce3544d894112090b5a8f23c140f3143da2852ab3,
  0x40ed24cd0e5706dc40ff24901623d29f4106057407ef1fd04107a3c00902a21d410445553af88b8d40fc67cd6860e33440f0666086e0fa4640df2c1f9425e63940c825608121910940ade45a42a55aa3408c950c70167c024063e6f04c5945b34032071b0abcd8383ff00000000000004032548eb9151e85406547863283db0f4090a2868b85a40340b3a4e78a3faca940d2a2d671094e8840ed81d3884ebc574103feb4d149f45141179cb1ba4ad1ae41289c79204200464136db4e034b149141430b4800000000414c9c32d46c6e8c41536fd026a3f9334157ed1d70ca5c36415ab0da12376660415af34198be45c341588f397eb852274154195de3a94322414d50df7a7e3fd14142d41788fd819f4134e978a582545541237afa55c9afd5410cbf49ed0d5ff540ed24cd0e5706dc,
  0x40e5040f6385e18940f4badbcd84120540fadf9cb46b18ca40fa39d060d4fe4e40f43d57db61e98d40e935df50c152bf40d978c0ed20439c40c4bfe424f0631040aac99f3dce3c9c408a879e4d17a66c406306859e1332514031a9dc8f6df1033ff00000000000004032071b0abcd8384064a74489a6c65d408ff7e2f8b1019f40b2be3a954058fe40d1b4fe436e35c340ebff4aa5b4b32c4102ff84f07179944116876ca5cb14674127a603ea50304841362f2b74ada1fa4142bad03f74a5d3414c9c32d46c6e8c4153d66b0000000041590756c972321e415cc178d98e2900415e12cfd03fd925415c945c04d0a86a415898eb6c582fa8415312131c33d29e414a6ccd12faa311414029e0d488dc4b413122ddf973e62a411e89bdb5bf84e6410597fa4b6992c540e5040f6385e189,
  0x40dc8e0fecee761a40e9d1b7b0497d6a40ee6da07708c24540eab9b527ecd00140e2555f6aa7e4ce40d3fb4ccc39356140c14dfad043a4be40a77e884b6ad6e2408843c84847dc9f406205ff005531d740313bd2f90a1cb43ff00000000000004031a9dc8f6df1034063e6f04c5945b3408e66a5b9ade04640b1a562125170d940d08dae5405d9d440ea1062a64100cf4101a96a27dcfa054114f92e0f5668e641261b9cd19722f94134e2c2f40361d64141cfbbca7d6781414b91c63a2a966a41536fd026a3f93341590756c972321e415d791400000000415fbed859a567cc415f3f4d3cbfb3cd415c0b97cf4acedb4156ddfcfd677cd04150d7bb4909d68341463a0291a4f8234139f4800d8a4bec412a520b9f900328411679b39dbdbe0a40fe837bfee27cf140dc8e0fecee761a,
  0x40d239e6b179759040ddf6b1b92f4d3640dfc7fff6f0243e40d8cff03391379c40cdc970628cd5e940bbd3aceaac5d5240a41511e6c5ad7b4085cffa21bd31854060e5547dd7c8f74030bbb307acafda3ff000000000000040313bd2f90a1cb4406306859e133251408c950c70167c0240b05f5dba6a9f2540ce691df7104fd640e7c5e7ec6f4eba41000ac760a95ac84113060a6446c1514124149930f55a4841330cccc2c91bce41405c61f9cec8e94149946b347bb87d4152462244698aef4157ed1d70ca5c36415cc178d98e2900415fbed859a567cc41601747a0000000415deabf907e80cc415970269b8f97f54153b44a52ee6a76414ba4dc520f09e9414169442867eb64413372a9a97c85f34122e663f7479d5c410efc9990c3bcef40f439b7f699875140d239e6b1797590,
  0x40c5c8d18bac22a240d01db476eeb3a240ce6380fbac33ef40c4c269b0e7f24e40b55c7c57ba372f40a0a135d9c60824408333cd972cdc08405f48f47a1826ff403027ce7b7ea3763ff00000000000004030bbb307acafda406205ff005531d7408a879e4d17a66c40ade45a42a55aa340cb657f3a9a34bd40e533e9dd3e353f40fc6a0c8529a7fe4110c6f8db2b7aef4121af4c5062a09b4130cceee5f74bc6413cfa9691d6bd124146d06bb05f5af941507676328d39574155d7707e0e28b1415ab0da12376660415e12cfd03fd925415f3f4d3cbfb3cd415deabf907e80cc415a59050000000041554874ce2433b7414f66c6031c8604414506a90d984ead4139559809c3b066412b1e69db5f680f41194cf0cf9aaf4f4103f14ca529021540e911c363ac33e140c5c8d18bac22a2,
  0x40b84589048bcec440bfebfdbe970a0c40ba558c7d12ee3b40aed6e4bf01279e409a71d0bb6450b44080783c3bce15a8405c86bbd609a25f402efbdeb14f4ed93ff0000000000000403027ce7b7ea3764060e5547dd7c8f7408843c84847dc9f40aac99f3dce3c9c40c825608121910940e2711ac9f8259540f8779dbf3abc2b410cb0bdb45f95ad411e1db5fab1fca8412c9212ec944c734138acb340ae9f1e414381ca3c9060be414c5a116560b1c94152ff562c7a87064157862a20a96943415af34198be45c3415c945c04d0a86a415c0b97cf4acedb415970269b8f97f541554874ce2433b741505f8c4000000041470f32bc9d2e86413d89b2f73cb1d541310dbfbe9d0085412186532cfbd414410f711736bc2d6440f7dd87515927e540dcedddf4b8e11b40b84589048bcec4,
  0x40a9114fc42454a440acd8ff2694fa2140a465fb321983c14093e821c1ff8209407b4fd5d22dee1c405983c37ca9aa04402d763b20d435ef3ff0000000000000402efbdeb14f4ed9405f48f47a1826ff4085cffa21bd318540a77e884b6ad6e240c4bfe424f0631040df2c1f9425e63940f46837905db6734107b0b86603a7e54118b158bad9f351412753ea95eef83941341e6a6d09489f413fdad32ca4085141473f0918183439414f5f893d111c6b41539ed51c0997864156c6ef8e2bac4b41588f397eb85227415898eb6c582fa84156ddfcfd677cd04153b44a52ee6a76414f66c6031c860441470f32bc9d2e86413f1058000000004133110e470065c1412522b61f744b664114e24bbf769ed241020a5e97cf8dd840ea6899c7b7e3b740cee87f170d552340a9114fc42454a4,
  0x4097d2e59e7aa63640977fea366dbae0408bb1d2dd8df3ff40759f2ae5b3ae7b40563fa3f3c02961402bb67ae8584caa3ff0000000000000402d763b20d435ef405c86bbd609a25f408333cd972cdc0840a41511e6c5ad7b40c14dfad043a4be40d978c0ed20439c40f0666086e0fa464102c9d85ccf457c41136345d07d999f41222ff6671294c8412f3d7033bb06764138b287b54e0e9041420c4f7aa55969414875bb03ee9104414ecf7601db00854152106f1439f2d34153bca65c92599b4154195de3a94322415312131c33d29e4150d7bb4909d683414ba4dc520f09e9414506a90d984ead413d89b2f73cb1d54133110e470065c141267832000000004117f32295dd97394106c9c462f41d0d40f2fb7ce9297f6e40dad44446a1845f40be5a8e864dbc0d4097d2e59e7aa636,
  0x4084a1ccb8b2ffcb4080f59cd3976cd2406ffa9f8c5c92bb4052b998819b35694029b0c25315c2cd3ff0000000000000402bb67ae8584caa405983c37ca9aa044080783c3bce15a840a0a135d9c6082440bbd3aceaac5d5240d3fb4ccc39356140e935df50c152bf40fc67cd6860e334410ced3db6cc2abb411add4ff9f840b64126e8fde1e1c8d341320952b9e79d19413a530ac5e395814141dcebe1b5dc4e41469856c181cd3e414aaebdd76258f9414d7297aa9ee478414e631036cb6581414d50df7a7e3fd1414a6ccd12faa31141463a0291a4f823414169442867eb644139559809c3b06641310dbfbe9d0085412522b61f744b664117f32295dd9739410895000000000040f68dee9a715ac640e223cbbd8e5bbe40c8c8a20cc7be8440ab229485bf14834084a1ccb8b2ffcb,
  0x40700fe01fc07ee240651fe7c35a9dfa404ddfeedca22e34402752e50db3a3a13ff00000000000004029b0c25315c2cd40563fa3f3c02961407b4fd5d22dee1c409a71d0bb6450b440b55c7c57ba372f40cdc970628cd5e940e2555f6aa7e4ce40f43d57db61e98d410445553af88b8d4112941a294b3d18411f5ef87dfcff6c412886193bc269544131d25a61f2f3de4138272edd4e9ec0413e9808296395e2414223d2da8e25f0414429524883855c414503b882583ecb41448b26c646e38e4142d41788fd819f414029e0d488dc4b4139f4800d8a4bec413372a9a97c85f3412b1e69db5f680f412186532cfbd4144114e24bbf769ed24106c9c462f41d0d40f68dee9a715ac640e3fb000000000040cf116b1b4048f640b489f437af7fc34095c8e7017572ea40700fe01fc07ee2,
  0x4056097255e24e754045bcb04cb6590940247e7054af09893ff0000000000000402752e50db3a3a14052b998819b356940759f2ae5b3ae7b4093e821c1ff820940aed6e4bf01279e40c4c269b0e7f24e40d8cff03391379c40eab9b527ecd00140fa39d060d4fe4e4107a3c00902a21d4113b24a9ddc77b4411e7cb35b2cdd784125ffe410ee4411412db0d146cd878f4132c72dd75c411641364c866fbd8d4b4138e34602e0fcec413a1fded41af0d44139cbfa3974bb654137f52bfd8d654b4134e978a5825455413122ddf973e62a412a520b9f9003284122e663f7479d5c41194cf0cf9aaf4f410f711736bc2d6441020a5e97cf8dd840f2fb7ce9297f6e40e223cbbd8e5bbe40cf116b1b4048f640b7600000000000409df0b81bb7b7ee407ecb4f1757a8cd4056097255e24e75,
  0x4039ce95f75281f54020f876ccdf6cd93ff000000000000040247e7054af0989404ddfeedca22e34406ffa9f8c5c92bb408bb1d2dd8df3ff40a465fb321983c140ba558c7d12ee3b40ce6380fbac33ef40dfc7fff6f0243e40ee6da07708c24540fadf9cb46b18ca4106057407ef1fd04110d1ad10d06040411807e027caf14741201a1f3e3469d541244858ca5c032c41280d5dabd749c3412ae1c30b5a0726412c5603932db924412c2db6acdbb935412a6f102bc5a3024127615ce3544d8941237afa55c9afd5411e89bdb5bf84e6411679b39dbdbe0a410efc9990c3bcef4103f14ca529021540f7dd87515927e540ea6899c7b7e3b740dad44446a1845f40c8c8a20cc7be8440b489f437af7fc3409df0b81bb7b7ee408298000000000040628fc1f0145f0d4039ce95f75281f5,
  0x401854bfb363dc393ff00000000000004020f876ccdf6cd94045bcb04cb6590940651fe7c35a9dfa4080f59cd3976cd240977fea366dbae040acd8ff2694fa2140bfebfdbe970a0c40d01db476eeb3a240ddf6b1b92f4d3640e9d1b7b0497d6a40f4badbcd84120540ff24901623d29f4105f4bfe8ae41c9410d21330920faf6411237a612742bb341158350c3e1102a411802b42b92c2264119582ff51ae96141194f31d76322134117e909f838795b41155c9ce48fa6f84112090b5a8f23c1410cbf49ed0d5ff5410597fa4b6992c540fe837bfee27cf140f439b7f699875140e911c363ac33e140dcedddf4b8e11b40cee87f170d552340be5a8e864dbc0d40ab229485bf14834095c8e7017572ea407ecb4f1757a8cd40628fc1f0145f0d4042000000000000401854bfb363dc39,
  0x3ff0000000000000401854bfb363dc394039ce95f75281f54056097255e24e7540700fe01fc07ee24084a1ccb8b2ffcb4097d2e59e7aa63640a9114fc42454a440b84589048bcec440c5c8d18bac22a240d239e6b179759040dc8e0fecee761a40e5040f6385e18940ed24cd0e5706dc40f3143da2852ab340f7a00cb9e4310240fbb3f7881de4bd40feca47d185222d41003a539cc53cc441003a539cc53cc440feca47d185222d40fbb3f7881de4bd40f7a00cb9e4310240f3143da2852ab340ed24cd0e5706dc40e5040f6385e18940dc8e0fecee761a40d239e6b179759040c5c8d18bac22a240b84589048bcec440a9114fc42454a44097d2e59e7aa6364084a1ccb8b2ffcb40700fe01fc07ee24056097255e24e754039ce95f75281f5401854bfb363dc393ff0000000000000]

/-- The coefficients for `2 ell = 38`: one number for each of the 39 values of `mp`, consisting of the doubles for the 39 values of `m`. -/
def wigner38 : List Nat := [
  0x3ff00000000000004018a85c24f70659403a839f261422cd4056f640b79bbc5f4070fb06cd4a13c8408623d4475fc30c4099f61e6e18897e40abc0fffb63565d40bb511a6999d57b40c8efccf39afd1840d53b9c3f21bfa440e0f01df48f8c3740e9682ceed7525340f1f725889d2ca240f801de4122d90640fe5dfa0673b8d341023455d5aa17964104b5907e07defe41065e5813e64cb84106f31ae39d74af41065e5813e64cb84104b5907e07defe41023455d5aa179640fe5dfa0673b8d340f801de4122d90640f1f725889d2ca240e9682ceed7525340e0f01df48f8c3740d53b9c3f21bfa440c8efccf39afd1840bb511a6999d57b40abc0fffb63565d4099f61e6e18897e408623d4475fc30c4070fb06cd4a13c84056f640b79bbc5f403a839f261422cd4018a85c24f706593ff0000000000000,
  0x4018a85c24f70659404280000000000040635af0797de17740804be7f22f897440976a097b40735c40ada16845370ad740c0d89246a96b6f40d17242852df1fc40e09e1de3bb3bf740ed54059028ef2d40f81c68338c520841028c065192a84e410aca42040cba384112370028f6644941175df2e60d4628411c535b5b84d0d841203e08bfcce1b14121a324b61553c2412224ada86ec5714121af128d5107d241205435e463b1b2411c8e3b6ff1c4904117a00cb9e431024112792551f271f1410b42f0b70f7c844102f18549522adb40f8bab3176e35be40ee39858e6a41af40e138dcb71b160640d23426c368db1340c1b9b97b72621940af8415119d5209409944db69fe21274081f5376fc444a14066097255e24e75404659789c98f70640213463fa37014e3ff00000000000004018a85c24f70659,
  0x403a839f261422cd40635af0797de1774083b0000000000040a01a47ea814e8c40b6748a14c9c9f240cb8e4916eba39840de5a8e864dbc0d40ee6be1e5e86dea40fc02b32ce415284107dd87515927e54112eb4ff0c70113411c074e7a5370c2412376da0dd663a3412968c0f5765fc8412f3cf494d4e7da41321c3dfbc5a23d4133d34c20d43a41413480bf6235c3774134095cca83d04f4132805a761535b14130227c92e8cc1f412a8e60b9b83a204124990946adf362411e108746e4ecf44114995aca06d440410a6cf1a31ef2f940ff9f37b7f51cc140f19157d7f9f38740e204ada85c010640d0edda5067992540bcd8ff2694fa2140a5fb5f8371721b408d5fe4c40929994070b35315a61592404ebda87f068e4d4024c8dc2e42397f3ff000000000000040213463fa37014e403a839f261422cd,
  0x4056f640b79bbc5f40804be7f22f897440a01a47ea814e8c40b991000000000040d1493a4916eed640e48cb11877da0940f5e7ea914e41e4410539129af1ac094112de01a6075928411f0082ac2c97774127aa9f8b9077794130db46b64e4e87413679b39dbdbe0a413c1e15216f0fda4140884a68588b7041424c4990d209ca414313b5098d97644142be144906716241415a287fcbf406413e43d94e88de644138d74cd749b39241332a4e7cb7abc3412bbf92f69f67d84122cde46442183a4117c9253c121c9a410bf886fefa47dd40fe6da07708c24540ee6da07708c24540dbbdaed27a73a940c6ce5a3debd66940b0a7bad5a72618409526f139e49eef40769cd11a1f3bc2405348b834fd9bcf4027aa10d193c22c3ff00000000000004024c8dc2e42397f404659789c98f7064056f640b79bbc5f,
  0x4070fb06cd4a13c840976a097b40735c40b6748a14c9c9f240d1493a4916eed640e6a5000000000040fa0d24e1267ff6410ad85a8ec05c1c41191c7f8f94a25e412586d5ee29abd6413107ec92fb434141390096c84b4b194141187d267b98434145d82e22f3428f414a23d6cee2e96a414d57921ce73467414eede40b2d5e3c414ea239243a9e89414c8335f3be468d4148ee533c0bb3fe414476807f1c75cb413f7de266cb6a184136ad38620a9aeb412e7cb35b2cdd784123122d7f4d8e1741161ce4d6b5a9584107a3c00902a21d40f72517b611aab240e492bfbe4897ba40d069698a0a09e940b7212b8f40ddb7409c2704d026cdc3407c9a56a2f99a7a4056eeee8953be07402a13a9cb9966503ff00000000000004027aa10d193c22c404ebda87f068e4d4066097255e24e754070fb06cd4a13c8,
  0x408623d4475fc30c40ada16845370ad740cb8e4916eba39840e48cb11877da0940fa0d24e1267ff6410cf8c000000000411cd33253fe6361412a0015af4208c04135769a79aa7b51414053e2edc2c074414702d54c8f123b414e28362af9221541526de836b4b14641550d06cffd66bb4156811c9d8fde0a4156891b971ab5794155253d549f0b3641529680d38dd846414e9808296395e241478a9f124451854140e83a67b708b941369c1ef25bb1bc412c0f1e589b840f412016e7c32b165c4110f5b519fd1e0f410051551a11b3ce40ec66f116d5be7e40d6172d4aa63ed440be359b4e30aaf940a1bd548817a1f8408146065e3e81fa405a532c32c23dd4402c247a85fe81fa3ff0000000000000402a13a9cb996650405348b834fd9bcf4070b35315a615924081f5376fc444a1408623d4475fc30c,
  0x4099f61e6e18897e40c0d89246a96b6f40de5a8e864dbc0d40f5e7ea914e41e4410ad85a8ec05c1c411cd33253fe6361412ba7a0000000004138055afee30f954143110e470065c1414bd93cff128e264152ce65d583661b4157932ac1e367c4415b810737894e65415deba0ff22ff43415e631036cb6581415cd3de11f3d66f41598befe89b4332415522c0eae1c84c41504e7cad49b60341476c1b4c9d9a8d413f3d7033bb067641334820468f19894125ef4d5444d9444116de5b6afebf964105b1ee4919200c40f28debe2351f4840dc42206a60352640c2d6c046eace1940a57808f175c0c440842bd002f3235f405d763b20d435ef402deeea11683f493ff0000000000000402c247a85fe81fa4056eeee8953be0740769cd11a1f3bc2408d5fe4c4092999409944db69fe21274099f61e6e18897e,
  0x40abc0fffb63565d40d17242852df1fc40ee6be1e5e86dea410539129af1ac0941191c7f8f94a25e412a0015af4208c04138055afee30f9541440fe380000000414e931a275b7305415565efa34991b3415ba4dc520f09e941608a094f06d51a4162607c1eeb25ac4162fdea223f1f70416245d8440b50ec41605f3fc88884c9415b4f7ca4ec218f41552ed15569b06a414e81c006444bd14144583662e74d7941390c37431fd275412c57cb2422d24c411d4fc3555524cf410b80e4728b1f8240f73166dac2671a40e15b2507474cd640c6a8347aa4803a40a92cac167de3cf4086f3822c4fa1b140602c42c7cf2938402f7efbeb8d4f113ff0000000000000402deeea11683f49405a532c32c23dd4407c9a56a2f99a7a409526f139e49eef40a5fb5f8371721b40af8415119d520940abc0fffb63565d,
  0x40bb511a6999d57b40e09e1de3bb3bf740fc02b32ce415284112de01a6075928412586d5ee29abd64135769a79aa7b514143110e470065c1414e931a275b7305415653bf40000000415de4af3278963b41626e80650854884165013b475389a141662bf775f49f804165b52c8689f9af4163b9bd0e3fe2354160a2503ae0f765415a0365de51b0294152d4e3c79e360241492ef484c4e33e413f0152de65ce5a41317eeff0733a2b4121ff6ef96118e24110c067a4908acd40fbf18dc61ea36e40e49e5aff372f9940ca735bf4f0c32340acc64488c085bf408993cb24395a7040617d24568a05b740306e825da8fc2b3ff0000000000000402f7efbeb8d4f11405d763b20d435ef408146065e3e81fa409c2704d026cdc340b0a7bad5a7261840bcd8ff2694fa2140c1b9b97b72621940bb511a6999d57b,
  0x40c8efccf39afd1840ed54059028ef2d4107dd87515927e5411f0082ac2c9777413107ec92fb4341414053e2edc2c074414bd93cff128e26415565efa34991b3415de4af3278963b41631a23a000000041666f2d5bcf8470416849b5be264e00416849b5be264e0041667561549e8f7841633513a771a620415e5e94bd8f9064415629e489399d87414dcc23e48ce85441426430bada84d44134c18d301fc07e41254b96bd68cfb24113b730c56ab4ab41004fbe7f7c7d7240e7ceeb7dc2aa3140ce1d8816f9627a40b018eb00c10b5b408c04bf98ece95a4062add5109df0e740310785dd689a283ff000000000000040306e825da8fc2b40602c42c7cf293840842bd002f3235f40a1bd548817a1f840b7212b8f40ddb740c6ce5a3debd66940d0edda5067992540d23426c368db1340c8efccf39afd18,
  0x40d53b9c3f21bfa440f81c68338c52084112eb4ff0c701134127aa9f8b90777941390096c84b4b19414702d54c8f123b4152ce65d583661b415ba4dc520f09e941626e806508548841666f2d5bcf8470416907c4c00000004169ac18d3ff178a41683efb011b963b416519d7fb94e9e14160eb1c40235fb34158f78c32293d6d4150eb5f33f006e54144ff471de025954137c2702486dc7d4128607324700bc74116824f4b06800b4102861986c997da40ead1d3f00cb94b40d0c6df4aadc05040b1af315de2ca3e408e3fa2e82aefd14063be612611ae5f40318cc821d6d3e23ff000000000000040310785dd689a2840617d24568a05b74086f3822c4fa1b140a57808f175c0c440be359b4e30aaf940d069698a0a09e940dbbdaed27a73a940e204ada85c010640e138dcb71b160640d53b9c3f21bfa4,
  0x40e0f01df48f8c3741028c065192a84e411c074e7a5370c24130db46b64e4e874141187d267b9843414e28362af922154157932ac1e367c441608a094f06d51a4165013b475389a1416849b5be264e004169ac18d3ff178a4168de28e000000041661acf00000000416208faa9948b22415afe0fc8ba2e5341527e7fbb11b15d414723448454f5fb413a52446f4ecfb4412b1394db697ad84119007cbe98c6ae41048568bbd95fcc40ed8dc61a2b93e140d2569a2b0fd20440b31e760e44ceed40901f5f3e5bb39a4064aed0c9b04ca840320000000000003ff000000000000040318cc821d6d3e24062add5109df0e7408993cb24395a7040a92cac167de3cf40c2d6c046eace1940d6172d4aa63ed440e492bfbe4897ba40ee6da07708c24540f19157d7f9f38740ee39858e6a41af40e0f01df48f8c37,
  0x40e9682ceed75253410aca42040cba38412376da0dd663a3413679b39dbdbe0a4145d82e22f3428f41526de836b4b146415b810737894e654162607c1eeb25ac41662bf775f49f80416849b5be264e0041683efb011b963b41661acf0000000041626bac80000000415c0df7b2754a3541537e999f3121744148a8aa4ec241d2413c478ca1bd2ca5412d3ef6b4907501411b1394db697ad8410639527087cd0c40efebf840a7789340d3b3d966c7b7eb40b46039852e05cb4090fea1d3cb629a40657f29a87a44cd40326280b34760963ff000000000000040320000000000004063be612611ae5f408c04bf98ece95a40acc64488c085bf40c6a8347aa4803a40dc42206a60352640ec66f116d5be7e40f72517b611aab240fe6da07708c24540ff9f37b7f51cc140f8bab3176e35be40e9682ceed75253,
  0x40f1f725889d2ca24112370028f66449412968c0f5765fc8413c1e15216f0fda414a23d6cee2e96a41550d06cffd66bb415deba0ff22ff434162fdea223f1f704165b52c8689f9af41667561549e8f78416519d7fb94e9e1416208faa9948b22415c0df7b2754a354153d66b00000000414972de5d139e89413d82007ec425b4412ec39768528058411ca244bbb1b1a041079074080d162640f0ec6aa05f39d040d4d5f56ad2fb5540b56efc0ebde6454091bb9a7f6de13740662f6fc47a860a4032b5524ae1278d3ff000000000000040326280b34760964064aed0c9b04ca8408e3fa2e82aefd140b018eb00c10b5b40ca735bf4f0c32340e15b2507474cd640f28debe2351f48410051551a11b3ce4107a3c00902a21d410bf886fefa47dd410a6cf1a31ef2f94102f18549522adb40f1f725889d2ca2,
  0x40f801de4122d90641175df2e60d4628412f3cf494d4e7da4140884a68588b70414d57921ce734674156811c9d8fde0a415e631036cb6581416245d8440b50ec4163b9bd0e3fe23541633513a771a6204160eb1c40235fb3415afe0fc8ba2e5341537e999f312174414972de5d139e89413ded2800000000412f8b91584abcb5411d996cdd56215041087d1bfbda9ce440f1a2464f87c7ff40d5b5db90f7ffc240b6463dddb8fca0409254aaa7902d944066bfa5f9ad87564032f9422c23c47d3ff00000000000004032b5524ae1278d40657f29a87a44cd40901f5f3e5bb39a40b1af315de2ca3e40ce1d8816f9627a40e49e5aff372f9940f73166dac2671a4105b1ee4919200c4110f5b519fd1e0f41161ce4d6b5a9584117c9253c121c9a4114995aca06d440410b42f0b70f7c8440f801de4122d906,
  0x40fe5dfa0673b8d3411c535b5b84d0d841321c3dfbc5a23d41424c4990d209ca414eede40b2d5e3c4156891b971ab579415cd3de11f3d66f41605f3fc88884c94160a2503ae0f765415e5e94bd8f90644158f78c32293d6d41527e7fbb11b15d4148a8aa4ec241d2413d82007ec425b4412f8b91584abcb5411ded28000000004108f5d89526d37940f211c1484a720140d64e27ec7e078340b6e27f13af7dbc4092c88d68d5eb6140672fce51371b9840332eee757704163ff00000000000004032f9422c23c47d40662f6fc47a860a4090fea1d3cb629a40b31e760e44ceed40d0c6df4aadc05040e7ceeb7dc2aa3140fbf18dc61ea36e410b80e4728b1f824116de5b6afebf96412016e7c32b165c4123122d7f4d8e174122cde46442183a411e108746e4ecf44112792551f271f140fe5dfa0673b8d3,
  0x41023455d5aa179641203e08bfcce1b14133d34c20d43a41414313b5098d9764414ea239243a9e894155253d549f0b3641598befe89b4332415b4f7ca4ec218f415a0365de51b029415629e489399d874150eb5f33f006e5414723448454f5fb413c478ca1bd2ca5412ec39768528058411d996cdd5621504108f5d89526d37940f237500000000040d69b3835df89dc40b7413fc5dc964340931652e2b0846740677fea366dbae0403356cdebc9b5e23ff000000000000040332eee757704164066bfa5f9ad87564091bb9a7f6de13740b46039852e05cb40d2569a2b0fd20440ead1d3f00cb94b41004fbe7f7c7d724110c067a4908acd411d4fc3555524cf4125ef4d5444d944412c0f1e589b840f412e7cb35b2cdd78412bbf92f69f67d84124990946adf3624117a00cb9e4310241023455d5aa1796,
  0x4104b5907e07defe4121a324b61553c2413480bf6235c3774142be1449067162414c8335f3be468d41529680d38dd846415522c0eae1c84c41552ed15569b06a4152d4e3c79e3602414dcc23e48ce8544144ff471de02595413a52446f4ecfb4412d3ef6b4907501411ca244bbb1b1a041087d1bfbda9ce440f211c1484a720140d69b3835df89dc40b761000000000040933d5ce90841a64067affa98a6e5ed40337135779c8dca3ff0000000000000403356cdebc9b5e240672fce51371b98409254aaa7902d9440b56efc0ebde64540d3b3d966c7b7eb40ed8dc61a2b93e14102861986c997da4113b730c56ab4ab4121ff6ef96118e2412c57cb2422d24c41334820468f198941369c1ef25bb1bc4136ad38620a9aeb41332a4e7cb7abc3412a8e60b9b83a20411c8e3b6ff1c4904104b5907e07defe,
  0x41065e5813e64cb8412224ada86ec5714134095cca83d04f41415a287fcbf4064148ee533c0bb3fe414e9808296395e241504e7cad49b603414e81c006444bd141492ef484c4e33e41426430bada84d44137c2702486dc7d412b1394db697ad8411b1394db697ad841079074080d162640f1a2464f87c7ff40d64e27ec7e078340b7413fc5dc964340933d5ce90841a64067c0000000000040337e5bd40f95a13ff000000000000040337135779c8dca40677fea366dbae04092c88d68d5eb6140b6463dddb8fca040d4d5f56ad2fb5540efebf840a7789341048568bbd95fcc4116824f4b06800b41254b96bd68cfb241317eeff0733a2b41390c37431fd275413f3d7033bb06764140e83a67b708b9413f7de266cb6a184138d74cd749b3924130227c92e8cc1f41205435e463b1b241065e5813e64cb8,
  0x4106f31ae39d74af4121af128d5107d24132805a761535b1413e43d94e88de64414476807f1c75cb41478a9f1244518541476c1b4c9d9a8d4144583662e74d79413f0152de65ce5a4134c18d301fc07e4128607324700bc74119007cbe98c6ae410639527087cd0c40f0ec6aa05f39d040d5b5db90f7ffc240b6e27f13af7dbc40931652e2b084674067affa98a6e5ed40337e5bd40f95a13ff000000000000040337e5bd40f95a14067affa98a6e5ed40931652e2b0846740b6e27f13af7dbc40d5b5db90f7ffc240f0ec6aa05f39d0410639527087cd0c4119007cbe98c6ae4128607324700bc74134c18d301fc07e413f0152de65ce5a4144583662e74d7941476c1b4c9d9a8d41478a9f12445185414476807f1c75cb413e43d94e88de644132805a761535b14121af128d5107d24106f31ae39d74af,
  0x41065e5813e64cb841205435e463b1b24130227c92e8cc1f4138d74cd749b392413f7de266cb6a184140e83a67b708b9413f3d7033bb067641390c37431fd27541317eeff0733a2b41254b96bd68cfb24116824f4b06800b41048568bbd95fcc40efebf840a7789340d4d5f56ad2fb5540b6463dddb8fca04092c88d68d5eb6140677fea366dbae040337135779c8dca3ff000000000000040337e5bd40f95a14067c0000000000040933d5ce90841a640b7413fc5dc964340d64e27ec7e078340f1a2464f87c7ff41079074080d1626411b1394db697ad8412b1394db697ad84137c2702486dc7d41426430bada84d441492ef484c4e33e414e81c006444bd141504e7cad49b603414e9808296395e24148ee533c0bb3fe41415a287fcbf4064134095cca83d04f412224ada86ec57141065e5813e64cb8,
  0x4104b5907e07defe411c8e3b6ff1c490412a8e60b9b83a2041332a4e7cb7abc34136ad38620a9aeb41369c1ef25bb1bc41334820468f1989412c57cb2422d24c4121ff6ef96118e24113b730c56ab4ab4102861986c997da40ed8dc61a2b93e140d3b3d966c7b7eb40b56efc0ebde645409254aaa7902d9440672fce51371b98403356cdebc9b5e23ff000000000000040337135779c8dca4067affa98a6e5ed40933d5ce90841a640b761000000000040d69b3835df89dc40f211c1484a720141087d1bfbda9ce4411ca244bbb1b1a0412d3ef6b4907501413a52446f4ecfb44144ff471de02595414dcc23e48ce8544152d4e3c79e360241552ed15569b06a415522c0eae1c84c41529680d38dd846414c8335f3be468d4142be1449067162413480bf6235c3774121a324b61553c24104b5907e07defe,
  0x41023455d5aa17964117a00cb9e431024124990946adf362412bbf92f69f67d8412e7cb35b2cdd78412c0f1e589b840f4125ef4d5444d944411d4fc3555524cf4110c067a4908acd41004fbe7f7c7d7240ead1d3f00cb94b40d2569a2b0fd20440b46039852e05cb4091bb9a7f6de1374066bfa5f9ad875640332eee757704163ff0000000000000403356cdebc9b5e240677fea366dbae040931652e2b0846740b7413fc5dc964340d69b3835df89dc40f23750000000004108f5d89526d379411d996cdd562150412ec39768528058413c478ca1bd2ca5414723448454f5fb4150eb5f33f006e5415629e489399d87415a0365de51b029415b4f7ca4ec218f41598befe89b43324155253d549f0b36414ea239243a9e89414313b5098d97644133d34c20d43a4141203e08bfcce1b141023455d5aa1796,
  0x40fe5dfa0673b8d34112792551f271f1411e108746e4ecf44122cde46442183a4123122d7f4d8e17412016e7c32b165c4116de5b6afebf96410b80e4728b1f8240fbf18dc61ea36e40e7ceeb7dc2aa3140d0c6df4aadc05040b31e760e44ceed4090fea1d3cb629a40662f6fc47a860a4032f9422c23c47d3ff000000000000040332eee7577041640672fce51371b984092c88d68d5eb6140b6e27f13af7dbc40d64e27ec7e078340f211c1484a72014108f5d89526d379411ded2800000000412f8b91584abcb5413d82007ec425b44148a8aa4ec241d241527e7fbb11b15d4158f78c32293d6d415e5e94bd8f90644160a2503ae0f76541605f3fc88884c9415cd3de11f3d66f4156891b971ab579414eede40b2d5e3c41424c4990d209ca41321c3dfbc5a23d411c535b5b84d0d840fe5dfa0673b8d3,
  0x40f801de4122d906410b42f0b70f7c844114995aca06d4404117c9253c121c9a41161ce4d6b5a9584110f5b519fd1e0f4105b1ee4919200c40f73166dac2671a40e49e5aff372f9940ce1d8816f9627a40b1af315de2ca3e40901f5f3e5bb39a40657f29a87a44cd4032b5524ae1278d3ff00000000000004032f9422c23c47d4066bfa5f9ad8756409254aaa7902d9440b6463dddb8fca040d5b5db90f7ffc240f1a2464f87c7ff41087d1bfbda9ce4411d996cdd562150412f8b91584abcb5413ded2800000000414972de5d139e8941537e999f312174415afe0fc8ba2e534160eb1c40235fb341633513a771a6204163b9bd0e3fe235416245d8440b50ec415e631036cb65814156811c9d8fde0a414d57921ce734674140884a68588b70412f3cf494d4e7da41175df2e60d462840f801de4122d906,
  0x40f1f725889d2ca24102f18549522adb410a6cf1a31ef2f9410bf886fefa47dd4107a3c00902a21d410051551a11b3ce40f28debe2351f4840e15b2507474cd640ca735bf4f0c32340b018eb00c10b5b408e3fa2e82aefd14064aed0c9b04ca840326280b34760963ff00000000000004032b5524ae1278d40662f6fc47a860a4091bb9a7f6de13740b56efc0ebde64540d4d5f56ad2fb5540f0ec6aa05f39d041079074080d1626411ca244bbb1b1a0412ec39768528058413d82007ec425b4414972de5d139e894153d66b00000000415c0df7b2754a35416208faa9948b22416519d7fb94e9e141667561549e8f784165b52c8689f9af4162fdea223f1f70415deba0ff22ff4341550d06cffd66bb414a23d6cee2e96a413c1e15216f0fda412968c0f5765fc84112370028f6644940f1f725889d2ca2,
  0x40e9682ceed7525340f8bab3176e35be40ff9f37b7f51cc140fe6da07708c24540f72517b611aab240ec66f116d5be7e40dc42206a60352640c6a8347aa4803a40acc64488c085bf408c04bf98ece95a4063be612611ae5f40320000000000003ff000000000000040326280b347609640657f29a87a44cd4090fea1d3cb629a40b46039852e05cb40d3b3d966c7b7eb40efebf840a77893410639527087cd0c411b1394db697ad8412d3ef6b4907501413c478ca1bd2ca54148a8aa4ec241d241537e999f312174415c0df7b2754a3541626bac8000000041661acf0000000041683efb011b963b416849b5be264e0041662bf775f49f804162607c1eeb25ac415b810737894e6541526de836b4b1464145d82e22f3428f413679b39dbdbe0a412376da0dd663a3410aca42040cba3840e9682ceed75253,
  0x40e0f01df48f8c3740ee39858e6a41af40f19157d7f9f38740ee6da07708c24540e492bfbe4897ba40d6172d4aa63ed440c2d6c046eace1940a92cac167de3cf408993cb24395a704062add5109df0e740318cc821d6d3e23ff000000000000040320000000000004064aed0c9b04ca840901f5f3e5bb39a40b31e760e44ceed40d2569a2b0fd20440ed8dc61a2b93e141048568bbd95fcc4119007cbe98c6ae412b1394db697ad8413a52446f4ecfb4414723448454f5fb41527e7fbb11b15d415afe0fc8ba2e53416208faa9948b2241661acf000000004168de28e00000004169ac18d3ff178a416849b5be264e004165013b475389a141608a094f06d51a4157932ac1e367c4414e28362af922154141187d267b98434130db46b64e4e87411c074e7a5370c241028c065192a84e40e0f01df48f8c37,
  0x40d53b9c3f21bfa440e138dcb71b160640e204ada85c010640dbbdaed27a73a940d069698a0a09e940be359b4e30aaf940a57808f175c0c44086f3822c4fa1b140617d24568a05b740310785dd689a283ff000000000000040318cc821d6d3e24063be612611ae5f408e3fa2e82aefd140b1af315de2ca3e40d0c6df4aadc05040ead1d3f00cb94b4102861986c997da4116824f4b06800b4128607324700bc74137c2702486dc7d4144ff471de025954150eb5f33f006e54158f78c32293d6d4160eb1c40235fb3416519d7fb94e9e141683efb011b963b4169ac18d3ff178a416907c4c000000041666f2d5bcf847041626e8065085488415ba4dc520f09e94152ce65d583661b414702d54c8f123b41390096c84b4b194127aa9f8b9077794112eb4ff0c7011340f81c68338c520840d53b9c3f21bfa4,
  0x40c8efccf39afd1840d23426c368db1340d0edda5067992540c6ce5a3debd66940b7212b8f40ddb740a1bd548817a1f840842bd002f3235f40602c42c7cf293840306e825da8fc2b3ff000000000000040310785dd689a284062add5109df0e7408c04bf98ece95a40b018eb00c10b5b40ce1d8816f9627a40e7ceeb7dc2aa3141004fbe7f7c7d724113b730c56ab4ab41254b96bd68cfb24134c18d301fc07e41426430bada84d4414dcc23e48ce854415629e489399d87415e5e94bd8f906441633513a771a62041667561549e8f78416849b5be264e00416849b5be264e0041666f2d5bcf847041631a23a0000000415de4af3278963b415565efa34991b3414bd93cff128e26414053e2edc2c074413107ec92fb4341411f0082ac2c97774107dd87515927e540ed54059028ef2d40c8efccf39afd18,
  0x40bb511a6999d57b40c1b9b97b72621940bcd8ff2694fa2140b0a7bad5a72618409c2704d026cdc3408146065e3e81fa405d763b20d435ef402f7efbeb8d4f113ff000000000000040306e825da8fc2b40617d24568a05b7408993cb24395a7040acc64488c085bf40ca735bf4f0c32340e49e5aff372f9940fbf18dc61ea36e4110c067a4908acd4121ff6ef96118e241317eeff0733a2b413f0152de65ce5a41492ef484c4e33e4152d4e3c79e3602415a0365de51b0294160a2503ae0f7654163b9bd0e3fe2354165b52c8689f9af41662bf775f49f804165013b475389a141626e8065085488415de4af3278963b415653bf40000000414e931a275b73054143110e470065c14135769a79aa7b51412586d5ee29abd64112de01a607592840fc02b32ce4152840e09e1de3bb3bf740bb511a6999d57b,
  0x40abc0fffb63565d40af8415119d520940a5fb5f8371721b409526f139e49eef407c9a56a2f99a7a405a532c32c23dd4402deeea11683f493ff0000000000000402f7efbeb8d4f1140602c42c7cf29384086f3822c4fa1b140a92cac167de3cf40c6a8347aa4803a40e15b2507474cd640f73166dac2671a410b80e4728b1f82411d4fc3555524cf412c57cb2422d24c41390c37431fd2754144583662e74d79414e81c006444bd141552ed15569b06a415b4f7ca4ec218f41605f3fc88884c9416245d8440b50ec4162fdea223f1f704162607c1eeb25ac41608a094f06d51a415ba4dc520f09e9415565efa34991b3414e931a275b730541440fe3800000004138055afee30f95412a0015af4208c041191c7f8f94a25e410539129af1ac0940ee6be1e5e86dea40d17242852df1fc40abc0fffb63565d,
  0x4099f61e6e18897e409944db69fe2127408d5fe4c409299940769cd11a1f3bc24056eeee8953be07402c247a85fe81fa3ff0000000000000402deeea11683f49405d763b20d435ef40842bd002f3235f40a57808f175c0c440c2d6c046eace1940dc42206a60352640f28debe2351f484105b1ee4919200c4116de5b6afebf964125ef4d5444d94441334820468f1989413f3d7033bb067641476c1b4c9d9a8d41504e7cad49b603415522c0eae1c84c41598befe89b4332415cd3de11f3d66f415e631036cb6581415deba0ff22ff43415b810737894e654157932ac1e367c44152ce65d583661b414bd93cff128e264143110e470065c14138055afee30f95412ba7a000000000411cd33253fe6361410ad85a8ec05c1c40f5e7ea914e41e440de5a8e864dbc0d40c0d89246a96b6f4099f61e6e18897e,
  0x408623d4475fc30c4081f5376fc444a14070b35315a61592405348b834fd9bcf402a13a9cb9966503ff0000000000000402c247a85fe81fa405a532c32c23dd4408146065e3e81fa40a1bd548817a1f840be359b4e30aaf940d6172d4aa63ed440ec66f116d5be7e410051551a11b3ce4110f5b519fd1e0f412016e7c32b165c412c0f1e589b840f41369c1ef25bb1bc4140e83a67b708b941478a9f12445185414e9808296395e241529680d38dd8464155253d549f0b364156891b971ab5794156811c9d8fde0a41550d06cffd66bb41526de836b4b146414e28362af92215414702d54c8f123b414053e2edc2c0744135769a79aa7b51412a0015af4208c0411cd33253fe6361410cf8c00000000040fa0d24e1267ff640e48cb11877da0940cb8e4916eba39840ada16845370ad7408623d4475fc30c,
  0x4070fb06cd4a13c84066097255e24e75404ebda87f068e4d4027aa10d193c22c3ff0000000000000402a13a9cb9966504056eeee8953be07407c9a56a2f99a7a409c2704d026cdc340b7212b8f40ddb740d069698a0a09e940e492bfbe4897ba40f72517b611aab24107a3c00902a21d41161ce4d6b5a9584123122d7f4d8e17412e7cb35b2cdd784136ad38620a9aeb413f7de266cb6a18414476807f1c75cb4148ee533c0bb3fe414c8335f3be468d414ea239243a9e89414eede40b2d5e3c414d57921ce73467414a23d6cee2e96a4145d82e22f3428f4141187d267b984341390096c84b4b19413107ec92fb4341412586d5ee29abd641191c7f8f94a25e410ad85a8ec05c1c40fa0d24e1267ff640e6a5000000000040d1493a4916eed640b6748a14c9c9f240976a097b40735c4070fb06cd4a13c8,
  0x4056f640b79bbc5f404659789c98f7064024c8dc2e42397f3ff00000000000004027aa10d193c22c405348b834fd9bcf40769cd11a1f3bc2409526f139e49eef40b0a7bad5a7261840c6ce5a3debd66940dbbdaed27a73a940ee6da07708c24540fe6da07708c245410bf886fefa47dd4117c9253c121c9a4122cde46442183a412bbf92f69f67d841332a4e7cb7abc34138d74cd749b392413e43d94e88de6441415a287fcbf4064142be1449067162414313b5098d976441424c4990d209ca4140884a68588b70413c1e15216f0fda413679b39dbdbe0a4130db46b64e4e874127aa9f8b907779411f0082ac2c97774112de01a6075928410539129af1ac0940f5e7ea914e41e440e48cb11877da0940d1493a4916eed640b991000000000040a01a47ea814e8c40804be7f22f89744056f640b79bbc5f,
  0x403a839f261422cd40213463fa37014e3ff00000000000004024c8dc2e42397f404ebda87f068e4d4070b35315a61592408d5fe4c409299940a5fb5f8371721b40bcd8ff2694fa2140d0edda5067992540e204ada85c010640f19157d7f9f38740ff9f37b7f51cc1410a6cf1a31ef2f94114995aca06d440411e108746e4ecf44124990946adf362412a8e60b9b83a204130227c92e8cc1f4132805a761535b14134095cca83d04f413480bf6235c3774133d34c20d43a4141321c3dfbc5a23d412f3cf494d4e7da412968c0f5765fc8412376da0dd663a3411c074e7a5370c24112eb4ff0c701134107dd87515927e540fc02b32ce4152840ee6be1e5e86dea40de5a8e864dbc0d40cb8e4916eba39840b6748a14c9c9f240a01a47ea814e8c4083b0000000000040635af0797de177403a839f261422cd,
  0x4018a85c24f706593ff000000000000040213463fa37014e404659789c98f7064066097255e24e754081f5376fc444a1409944db69fe212740af8415119d520940c1b9b97b72621940d23426c368db1340e138dcb71b160640ee39858e6a41af40f8bab3176e35be4102f18549522adb410b42f0b70f7c844112792551f271f14117a00cb9e43102411c8e3b6ff1c49041205435e463b1b24121af128d5107d2412224ada86ec5714121a324b61553c241203e08bfcce1b1411c535b5b84d0d841175df2e60d46284112370028f66449410aca42040cba3841028c065192a84e40f81c68338c520840ed54059028ef2d40e09e1de3bb3bf740d17242852df1fc40c0d89246a96b6f40ada16845370ad740976a097b40735c40804be7f22f897440635af0797de17740428000000000004018a85c24f70659,
  0x3ff00000000000004018a85c24f70659403a839f261422cd4056f640b79bbc5f4070fb06cd4a13c8408623d4475fc30c4099f61e6e18897e40abc0fffb63565d40bb511a6999d57b40c8efccf39afd1840d53b9c3f21bfa440e0f01df48f8c3740e9682ceed7525340f1f725889d2ca240f801de4122d90640fe5dfa0673b8d341023455d5aa17964104b5907e07defe41065e5813e64cb84106f31ae39d74af41065e5813e64cb84104b5907e07defe41023455d5aa179640fe5dfa0673b8d340f801de4122d90640f1f725889d2ca240e9682ceed7525340e0f01df48f8c3740d53b9c3f21bfa440c8efccf39afd1840bb511a6999d57b40abc0fffb63565d4099f61e6e18897e408623d4475fc30c4070fb06cd4a13c84056f640b79bbc5f403a839f261422cd4018a85c24f706593ff0000000000000]

/-- The coefficients for `2 ell = 39`: one number for each of the 40 values of `mp`, consisting of the doubles for the 40 values of `m`. -/
def wigner39 : List Nat := [
  0x3ff00000000000004018fae0c15ad389403b38a81c8a0a224057e6478d18dd3c4071ecb5a9d2a5ed4087b64ad0e4cf30409c3917caf429f040aea3b521743a5140bea3b521743a5140cc6ea70dc546d640d89f7f7e0a59d540e3fd753b0ae17e40ee890bce14d6c640f600c7feb8c5cd40fdfc2fd890523d41035af5140215c44107b48eff7c5ce1410b92b45f6b0794410e7bb10859d1aa41100611a0273bfe41100611a0273bfe410e7bb10859d1aa410b92b45f6b07944107b48eff7c5ce141035af5140215c440fdfc2fd890523d40f600c7feb8c5cd40ee890bce14d6c640e3fd753b0ae17e40d89f7f7e0a59d540cc6ea70dc546d640bea3b521743a5140aea3b521743a51409c3917caf429f04087b64ad0e4cf304071ecb5a9d2a5ed4057e6478d18dd3c403b38a81c8a0a224018fae0c15ad3893ff0000000000000,
  0x4018fae0c15ad3894043000000000000406428efb493fa27408138b089b4cd4740991d56c8d2560840b0231add25b03840c2a4617a640d0640d39ffe5e92af1040e302fe6b9e199840f112b08200256d40fc95ea14777da341066824c553b97d41108095ff0a94594116e6c8da8fa114411e0255d16b8f4841229891ab7c3e3c4125d38bb4a32cd7412848a2a503d8654129a059ecd9a0e34129a8912e999c7b4128602385debb0e4125f72881df1c304122c3c37f82f8ab411e5dfa0673b8d341173eb6165b4dcb4110ce1b93fecb1e4106e6c8da8fa11440fd565ffe4bb26740f19af851e65ae240e3b6d66664100640d47cd3cf33601c40c39ffe5e92af1040b12bfe92c0592e409b1da50f1d2a384082fc1f9ac2ed704066f640b79bbc5f4046f640b79bbc5f40216f8334644df83ff00000000000004018fae0c15ad389,
  0x403b38a81c8a0a22406428efb493fa274084d0000000000040a148f97dd3628340b87cb6c79620e540ce8adbdfd4a24240e11b6fdbf665ef40f17242852df1fc41005b1e5cdb12dc410c659c5c3127e14116f3f4d9263e764121595ed2f09ee941289bb64d68b06041306b2c05c098334134a7588136d58f413887dbf8475ff4413b8a4a3b432bed413d3f84ad762e4e413d653d2f78e0ee413bf5ee18dfdfe741392a231663165041356aac93f5536c4131383c61b11381412a2005a88892e74122aa275e4c915b41190f50143f1e6d410f86171548d24e4102823eb920caad40f431d961e5f8a340e45a352a7a2fd140d2ccfbd31b3f7b40bf8415119d520940a7a30fcd35fd87408f1a9cd5bfff2840716bf48526b16e404f9b61d023725040251241356cf6e03ff000000000000040216f8334644df8403b38a81c8a0a22,
  0x4057e6478d18dd3c408138b089b4cd4740a148f97dd3628340bbe4000000000040d32cc00000000040e73110e193a9bc40f92b0159d615ca4108d6c7846620ca411682a4cffc8db74122de01a6075928412d693c2255e3044135683b1c76b357413d324714c195754142b35e7f61a81b41468b4e3132ecb141499ca2f0ed9cab414b726e593b0eaf414bc2d67c6c2527414a81823c5c39944147e29b1c4ca3a241444d6a3e7457e341404323a22555c14138842b21697a9441315b97bf01eefa412707ca2b9e02c3411c8af97b48ef1f411074e2849360bb41019157d7f9f38740f1404da488ea8c40dee87f170d552340c8fb98407ab92540b1f2bb1bf3e97240966f69e2f0e3cf40779e38d26d4fc14053d7d7af35c95b40280000000000003ff000000000000040251241356cf6e04046f640b79bbc5f4057e6478d18dd3c,
  0x4071ecb5a9d2a5ed40991d56c8d2560840b87cb6c79620e540d32cc00000000040e991000000000040fdf4b5ce0965e8410f75c1b04b9b3c411e03866aa61249412a43159d515000413539c1dac8444d413fdcabcfdd0b4441464c92e850fad0414d324714c195754151ebe53a12ebc44154aa5d026eae4d4156690e92cfe9164156df5bf5068c3d4155fa3f228048144153e121ad452b2f4150eb2ddeb6493d414b11e2fdf0752f414453ec8aaeab32413c9a3251a5b9ac4132cde46442183a412707ca2b9e02c3411a2a0f5bad85dd410b6d7987a04be340fa5a03c3f6ed4b40e70067860be36540d2079f781d1c5440b8fb98407ab925409de9e283ebda69407de9e283ebda6940579e38d26d4fc1402a751f9447b7243ff00000000000004028000000000000404f9b61d02372504066f640b79bbc5f4071ecb5a9d2a5ed,
  0x4087b64ad0e4cf3040b0231add25b03840ce8adbdfd4a24240e73110e193a9bc40fdf4b5ce0965e84110fbc00000000041213dd95f264620412fc37a85e4ac58413accef60f8f16a4144dbcb71a5ead1414e1b546bfdc61141543a54dac45e3c41596186b8ecfc61415dcdded80b6b3e41606718802ab8b94160f0ceb18aea8c41606cec7a220d9b415de77a10dc171841598befe89b4332415476807f1c75cb414eb1c0beaab0b141458350c3e1102a413c1b9413a85a4c41310ec0a4534b374123267a5965622f4113c741e6f8e4ad4102a8f65f3171e440efdf3663e8cee040d857b3926d683740c05ae64a25a1c940a2e29d7cda1ff94082170dae7f6302405b229485bf1483402c90d29d2d43cd3ff0000000000000402a751f9447b7244053d7d7af35c95b40716bf48526b16e4082fc1f9ac2ed704087b64ad0e4cf30,
  0x409c3917caf429f040c2a4617a640d0640e11b6fdbf665ef40f92b0159d615ca410f75c1b04b9b3c41213dd95f2646204130e67000000000413e05c8db14b3d1414864b33200d21a415241414edba79541594b73c54a1333416049640ac5be7341638c189c8fdf644165e913a4cbf7694166f7e8fb7fe5334166891b971ab5794164b3438cf23c794161cbeb83ffa8ad415c9e31ea96321a41557d8707198995414e16237056f3d1414394a8e3e0075541379d7ebeabd8e3412a4624ebea9ff1411ad0d79a9d25454108ecfb0e42ab4340f4e744ab36fbf040df3da0bdf1c14540c473ad2c8578d540a6e6d503345ab9408527da2f8373c3405e65b9edeba38d402e65b9edeba38d3ff0000000000000402c90d29d2d43cd40579e38d26d4fc140779e38d26d4fc1408f1a9cd5bfff28409b1da50f1d2a38409c3917caf429f0,
  0x40aea3b521743a5140d39ffe5e92af1040f17242852df1fc4108d6c7846620ca411e03866aa61249412fc37a85e4ac58413e05c8db14b3d14149adf00000000041540fe380000000415cd37672c453f34163239d6facac964167932ac1e367c4416b02270569f3e2416cd500ca5b8dd2416cb68620a8a90d416ab06dfc321f444167275247084fe24162bc1ed523b145415c3e6c71e2408e4153cba291c4c43a4149bbecf0b2ff19413eeb693eb19f99413117687a95555f4121497a5dc40549410fc21f4962e42e40fa3d673e34c3a340e34139f5ffb3bf40c8aa76a13a1ed440aae9a4f798942440881befbd9d46904060b40b040e915240300000000000003ff0000000000000402e65b9edeba38d405b229485bf1483407de9e283ebda6940966f69e2f0e3cf40a7a30fcd35fd8740b12bfe92c0592e40aea3b521743a51,
  0x40bea3b521743a5140e302fe6b9e199841005b1e5cdb12dc411682a4cffc8db7412a43159d515000413accef60f8f16a414864b33200d21a41540fe380000000415e17d5400000004164b7fd227d1c56416a50f8798d6d4e416ef1281e7a78324170e1586362386d41711e7878265c34417026ab725edf17416c5b74dbf541384167275247084fe24161905ce7d176314158b69ee3a5f87c41501574166fdf6f41434cf1b4863f53413541d85b1a1db941255d42993aaab6411372a9a97c85f340ffc21f4962e42e40e6f5ba566e2b2e40cce1d6f0ff8d9f40aed5144988a68a408ae9a4f7989424406214f3ce35f4ec4030b40b040e91523ff00000000000004030000000000000405e65b9edeba38d4082170dae7f6302409de9e283ebda6940b1f2bb1bf3e97240bf8415119d520940c39ffe5e92af1040bea3b521743a51,
  0x40cc6ea70dc546d640f112b08200256d410c659c5c3127e14122de01a6075928413539c1dac8444d4144dbcb71a5ead1415241414edba795415cd37672c453f34164b7fd227d1c56416b49e9c000000041708afc17f809ed41728645c14b94c4417333880390a7b2417272b0914223be4170701d8bdfe72c416b29cbf1f3e4cc4164cae44999353f415d71536611ccfa41533bf17e15ddb241471c21bce75f6441396bbeb631b5bb412973e51a56ae09411705d9463090e24102a1092ebf179e40ea9e53dd252c2940d07eaf32928c7a40b14a93741da7e3408d88bd9ecea176406355aaa9ee5b854031520cd1372fea3ff00000000000004030b40b040e91524060b40b040e9152408527da2f8373c340a2e29d7cda1ff940b8fb98407ab92540c8fb98407ab92540d2ccfbd31b3f7b40d47cd3cf33601c40cc6ea70dc546d6,
  0x40d89f7f7e0a59d540fc95ea14777da34116f3f4d9263e76412d693c2255e304413fdcabcfdd0b44414e1b546bfdc61141594b73c54a13334163239d6facac96416a50f8798d6d4e41708afc17f809ed41731a23a00000004174521bfed6a6434173f45eb6f5c2c041721b4c6aca0058416e5e94bd8f90644167862a20a969434160ce713283715c4156192e20a51aef414aa6d0e67fdc96413d5a7f22561362412d5a7f22561362411a7384431509204105448115cb2b3f40ee1d8816f9627a40d2711ac9f8259540b30bef97ceee8e408ff231054cc5784064763c1cfaaec04031dc4e633833283ff00000000000004031520cd1372fea406214f3ce35f4ec40881befbd9d469040a6e6d503345ab940c05ae64a25a1c940d2079f781d1c5440dee87f170d552340e45a352a7a2fd140e3b6d66664100640d89f7f7e0a59d5,
  0x40e3fd753b0ae17e41066824c553b97d4121595ed2f09ee94135683b1c76b35741464c92e850fad041543a54dac45e3c416049640ac5be734167932ac1e367c4416ef1281e7a783241728645c14b94c44174521bfed6a64341747ab8400000004172fe3c194835174170386e262b59ae416981650000000041627078848919064158772745342544414db1ca6f9f9a4741406a0c4680c56841306f4f750da5b2411d95289f7ef70e4107b21d450e963d40f0abac08c5641540d43bcf9112248a40b4a69f4ced7bed4091100000000000406576b096be4ee04032548eb9151e853ff00000000000004031dc4e63383328406355aaa9ee5b85408ae9a4f798942440aae9a4f798942440c473ad2c8578d540d857b3926d683740e70067860be36540f1404da488ea8c40f431d961e5f8a340f19af851e65ae240e3fd753b0ae17e,
  0x40ee890bce14d6c641108095ff0a945941289bb64d68b060413d324714c19575414d324714c1957541596186b8ecfc6141638c189c8fdf64416b02270569f3e24170e1586362386d417333880390a7b24173f45eb6f5c2c04172fe3c194835174170941b40000000416a8c02613fbce941637ae84e717187415a2797b62ddb9a4150043244de01b54141d1d41b65255e4131e8cf68c5e71f4120237f2cb587c74109d2651455a60c40f2191244264d4240d5d3b1bd1d936f40b613a30de9326d4092068acfa38ce84066570df191bd324032bc2891041ea73ff00000000000004032548eb9151e854064763c1cfaaec0408d88bd9ecea17640aed5144988a68a40c8aa76a13a1ed440df3da0bdf1c14540efdf3663e8cee040fa5a03c3f6ed4b41019157d7f9f3874102823eb920caad40fd565ffe4bb26740ee890bce14d6c6,
  0x40f600c7feb8c5cd4116e6c8da8fa11441306b2c05c098334142b35e7f61a81b4151ebe53a12ebc4415dcdded80b6b3e4165e913a4cbf769416cd500ca5b8dd241711e7878265c34417272b0914223be41721b4c6aca00584170386e262b59ae416a8c02613fbce94163d66b00000000415b08b794f2eacd4150c09c8e008e584142cec01ac6f995413305d90ee97d46412134f1724723a9410b90bc485f4dc740f34bb6ff75e9a540d72f14cfde80e440b74cfb2bfcecbc4092da97ceee8dd34067175853886f054033142b30a929ab3ff00000000000004032bc2891041ea7406576b096be4ee0408ff231054cc57840b14a93741da7e340cce1d6f0ff8d9f40e34139f5ffb3bf40f4e744ab36fbf04102a8f65f3171e4410b6d7987a04be3411074e2849360bb410f86171548d24e4106e6c8da8fa11440f600c7feb8c5cd,
  0x40fdfc2fd890523d411e0255d16b8f484134a7588136d58f41468b4e3132ecb14154aa5d026eae4d41606718802ab8b94166f7e8fb7fe533416cb68620a8a90d417026ab725edf174170701d8bdfe72c416e5e94bd8f9064416981650000000041637ae84e717187415b08b794f2eacd415100ee00000000414351414de4f5a54133b73ad72eb5f14121f27d2a2562df410cdc375763d13e40f43a3a68ae55c840d845dfb0d133bd40b84da7ddcd51e340938a6640ab5bff4067b792b72cb59d40335d6b2ed191483ff00000000000004033142b30a929ab4066570df191bd32409110000000000040b30bef97ceee8e40d07eaf32928c7a40e6f5ba566e2b2e40fa3d673e34c3a34108ecfb0e42ab434113c741e6f8e4ad411a2a0f5bad85dd411c8af97b48ef1f41190f50143f1e6d4110ce1b93fecb1e40fdfc2fd890523d,
  0x41035af5140215c441229891ab7c3e3c413887dbf8475ff441499ca2f0ed9cab4156690e92cfe9164160f0ceb18aea8c4166891b971ab579416ab06dfc321f44416c5b74dbf54138416b29cbf1f3e4cc4167862a20a969434162707884891906415a2797b62ddb9a4150c09c8e008e58414351414de4f5a54133f370000000004122537b1d1e42bb410da844b695b0a940f4dd5c9ee740d440d911a94816f94940b911a94816f9494094148f08919129406837bf416569784033988e1409212e3ff000000000000040335d6b2ed191484067175853886f054092068acfa38ce840b4a69f4ced7bed40d2711ac9f8259540ea9e53dd252c2940ffc21f4962e42e410fc21f4962e42e411ad0d79a9d25454123267a5965622f412707ca2b9e02c3412707ca2b9e02c34122aa275e4c915b41173eb6165b4dcb41035af5140215c4,
  0x4107b48eff7c5ce14125d38bb4a32cd7413b8a4a3b432bed414b726e593b0eaf4156df5bf5068c3d41606cec7a220d9b4164b3438cf23c794167275247084fe24167275247084fe24164cae44999353f4160ce713283715c41587727453425444150043244de01b54142cec01ac6f9954133b73ad72eb5f14122537b1d1e42bb410ded280000000040f5302db5667bb140d98dce334ecfb840b995ff82ee6855409477ff9bf1ed10406897df7898d74f4033c6128271b9223ff00000000000004033988e1409212e4067b792b72cb59d4092da97ceee8dd340b613a30de9326d40d43bcf9112248a40ee1d8816f9627a4102a1092ebf179e411372a9a97c85f34121497a5dc40549412a4624ebea9ff141310ec0a4534b374132cde46442183a41315b97bf01eefa412a2005a88892e7411e5dfa0673b8d34107b48eff7c5ce1,
  0x410b92b45f6b0794412848a2a503d865413d3f84ad762e4e414bc2d67c6c25274155fa3f22804814415de77a10dc17184161cbeb83ffa8ad4162bc1ed523b1454161905ce7d17631415d71536611ccfa4156192e20a51aef414db1ca6f9f9a474141d1d41b65255e413305d90ee97d464121f27d2a2562df410da844b695b0a940f5302db5667bb140d9b7800000000040b9d8aa9ce900334094b3f656ef416d4068d7f468524e834033e655eefe13673ff00000000000004033c6128271b922406837bf4165697840938a6640ab5bff40b74cfb2bfcecbc40d5d3b1bd1d936f40f0abac08c564154105448115cb2b3f411705d9463090e241255d42993aaab6413117687a95555f41379d7ebeabd8e3413c1b9413a85a4c413c9a3251a5b9ac4138842b21697a944131383c61b113814122c3c37f82f8ab410b92b45f6b0794,
  0x410e7bb10859d1aa4129a059ecd9a0e3413d653d2f78e0ee414a81823c5c39944153e121ad452b2f41598befe89b4332415c9e31ea96321a415c3e6c71e2408e4158b69ee3a5f87c41533bf17e15ddb2414aa6d0e67fdc9641406a0c4680c5684131e8cf68c5e71f412134f1724723a9410cdc375763d13e40f4dd5c9ee740d440d98dce334ecfb840b9d8aa9ce900334094c800000000004068f7feb7e8e5f54033f9989320b7f73ff00000000000004033e655eefe1367406897df7898d74f4094148f0891912940b84da7ddcd51e340d72f14cfde80e440f2191244264d424107b21d450e963d411a738443150920412973e51a56ae09413541d85b1a1db9413eeb693eb19f99414394a8e3e0075541458350c3e1102a414453ec8aaeab3241404323a22555c141356aac93f5536c4125f72881df1c30410e7bb10859d1aa,
  0x41100611a0273bfe4129a8912e999c7b413bf5ee18dfdfe74147e29b1c4ca3a24150eb2ddeb6493d415476807f1c75cb41557d87071989954153cba291c4c43a41501574166fdf6f41471c21bce75f64413d5a7f2256136241306f4f750da5b24120237f2cb587c7410b90bc485f4dc740f43a3a68ae55c840d911a94816f94940b995ff82ee68554094b3f656ef416d4068f7feb7e8e5f540340000000000003ff00000000000004033f9989320b7f74068d7f468524e83409477ff9bf1ed1040b911a94816f94940d845dfb0d133bd40f34bb6ff75e9a54109d2651455a60c411d95289f7ef70e412d5a7f2256136241396bbeb631b5bb41434cf1b4863f534149bbecf0b2ff19414e16237056f3d1414eb1c0beaab0b1414b11e2fdf0752f41444d6a3e7457e341392a23166316504128602385debb0e41100611a0273bfe,
  0x41100611a0273bfe4128602385debb0e41392a231663165041444d6a3e7457e3414b11e2fdf0752f414eb1c0beaab0b1414e16237056f3d14149bbecf0b2ff1941434cf1b4863f5341396bbeb631b5bb412d5a7f22561362411d95289f7ef70e4109d2651455a60c40f34bb6ff75e9a540d845dfb0d133bd40b911a94816f949409477ff9bf1ed104068d7f468524e834033f9989320b7f73ff000000000000040340000000000004068f7feb7e8e5f54094b3f656ef416d40b995ff82ee685540d911a94816f94940f43a3a68ae55c8410b90bc485f4dc74120237f2cb587c741306f4f750da5b2413d5a7f2256136241471c21bce75f6441501574166fdf6f4153cba291c4c43a41557d8707198995415476807f1c75cb4150eb2ddeb6493d4147e29b1c4ca3a2413bf5ee18dfdfe74129a8912e999c7b41100611a0273bfe,
  0x410e7bb10859d1aa4125f72881df1c3041356aac93f5536c41404323a22555c1414453ec8aaeab3241458350c3e1102a414394a8e3e00755413eeb693eb19f99413541d85b1a1db9412973e51a56ae09411a7384431509204107b21d450e963d40f2191244264d4240d72f14cfde80e440b84da7ddcd51e34094148f08919129406897df7898d74f4033e655eefe13673ff00000000000004033f9989320b7f74068f7feb7e8e5f54094c8000000000040b9d8aa9ce9003340d98dce334ecfb840f4dd5c9ee740d4410cdc375763d13e412134f1724723a94131e8cf68c5e71f41406a0c4680c568414aa6d0e67fdc9641533bf17e15ddb24158b69ee3a5f87c415c3e6c71e2408e415c9e31ea96321a41598befe89b43324153e121ad452b2f414a81823c5c3994413d653d2f78e0ee4129a059ecd9a0e3410e7bb10859d1aa,
  0x410b92b45f6b07944122c3c37f82f8ab4131383c61b113814138842b21697a94413c9a3251a5b9ac413c1b9413a85a4c41379d7ebeabd8e3413117687a95555f41255d42993aaab6411705d9463090e24105448115cb2b3f40f0abac08c5641540d5d3b1bd1d936f40b74cfb2bfcecbc40938a6640ab5bff406837bf416569784033c6128271b9223ff00000000000004033e655eefe13674068d7f468524e834094b3f656ef416d40b9d8aa9ce9003340d9b7800000000040f5302db5667bb1410da844b695b0a94121f27d2a2562df413305d90ee97d464141d1d41b65255e414db1ca6f9f9a474156192e20a51aef415d71536611ccfa4161905ce7d176314162bc1ed523b1454161cbeb83ffa8ad415de77a10dc17184155fa3f22804814414bc2d67c6c2527413d3f84ad762e4e412848a2a503d865410b92b45f6b0794,
  0x4107b48eff7c5ce1411e5dfa0673b8d3412a2005a88892e741315b97bf01eefa4132cde46442183a41310ec0a4534b37412a4624ebea9ff14121497a5dc40549411372a9a97c85f34102a1092ebf179e40ee1d8816f9627a40d43bcf9112248a40b613a30de9326d4092da97ceee8dd34067b792b72cb59d4033988e1409212e3ff00000000000004033c6128271b922406897df7898d74f409477ff9bf1ed1040b995ff82ee685540d98dce334ecfb840f5302db5667bb1410ded28000000004122537b1d1e42bb4133b73ad72eb5f14142cec01ac6f9954150043244de01b541587727453425444160ce713283715c4164cae44999353f4167275247084fe24167275247084fe24164b3438cf23c7941606cec7a220d9b4156df5bf5068c3d414b726e593b0eaf413b8a4a3b432bed4125d38bb4a32cd74107b48eff7c5ce1,
  0x41035af5140215c441173eb6165b4dcb4122aa275e4c915b412707ca2b9e02c3412707ca2b9e02c34123267a5965622f411ad0d79a9d2545410fc21f4962e42e40ffc21f4962e42e40ea9e53dd252c2940d2711ac9f8259540b4a69f4ced7bed4092068acfa38ce84067175853886f0540335d6b2ed191483ff00000000000004033988e1409212e406837bf416569784094148f0891912940b911a94816f94940d911a94816f94940f4dd5c9ee740d4410da844b695b0a94122537b1d1e42bb4133f37000000000414351414de4f5a54150c09c8e008e58415a2797b62ddb9a41627078848919064167862a20a96943416b29cbf1f3e4cc416c5b74dbf54138416ab06dfc321f444166891b971ab5794160f0ceb18aea8c4156690e92cfe91641499ca2f0ed9cab413887dbf8475ff441229891ab7c3e3c41035af5140215c4,
  0x40fdfc2fd890523d4110ce1b93fecb1e41190f50143f1e6d411c8af97b48ef1f411a2a0f5bad85dd4113c741e6f8e4ad4108ecfb0e42ab4340fa3d673e34c3a340e6f5ba566e2b2e40d07eaf32928c7a40b30bef97ceee8e40911000000000004066570df191bd324033142b30a929ab3ff000000000000040335d6b2ed191484067b792b72cb59d40938a6640ab5bff40b84da7ddcd51e340d845dfb0d133bd40f43a3a68ae55c8410cdc375763d13e4121f27d2a2562df4133b73ad72eb5f1414351414de4f5a5415100ee00000000415b08b794f2eacd41637ae84e7171874169816500000000416e5e94bd8f90644170701d8bdfe72c417026ab725edf17416cb68620a8a90d4166f7e8fb7fe53341606718802ab8b94154aa5d026eae4d41468b4e3132ecb14134a7588136d58f411e0255d16b8f4840fdfc2fd890523d,
  0x40f600c7feb8c5cd4106e6c8da8fa114410f86171548d24e411074e2849360bb410b6d7987a04be34102a8f65f3171e440f4e744ab36fbf040e34139f5ffb3bf40cce1d6f0ff8d9f40b14a93741da7e3408ff231054cc578406576b096be4ee04032bc2891041ea73ff00000000000004033142b30a929ab4067175853886f054092da97ceee8dd340b74cfb2bfcecbc40d72f14cfde80e440f34bb6ff75e9a5410b90bc485f4dc7412134f1724723a9413305d90ee97d464142cec01ac6f9954150c09c8e008e58415b08b794f2eacd4163d66b00000000416a8c02613fbce94170386e262b59ae41721b4c6aca0058417272b0914223be41711e7878265c34416cd500ca5b8dd24165e913a4cbf769415dcdded80b6b3e4151ebe53a12ebc44142b35e7f61a81b41306b2c05c098334116e6c8da8fa11440f600c7feb8c5cd,
  0x40ee890bce14d6c640fd565ffe4bb2674102823eb920caad41019157d7f9f38740fa5a03c3f6ed4b40efdf3663e8cee040df3da0bdf1c14540c8aa76a13a1ed440aed5144988a68a408d88bd9ecea1764064763c1cfaaec04032548eb9151e853ff00000000000004032bc2891041ea74066570df191bd324092068acfa38ce840b613a30de9326d40d5d3b1bd1d936f40f2191244264d424109d2651455a60c4120237f2cb587c74131e8cf68c5e71f4141d1d41b65255e4150043244de01b5415a2797b62ddb9a41637ae84e717187416a8c02613fbce94170941b400000004172fe3c194835174173f45eb6f5c2c0417333880390a7b24170e1586362386d416b02270569f3e241638c189c8fdf6441596186b8ecfc61414d324714c19575413d324714c1957541289bb64d68b06041108095ff0a945940ee890bce14d6c6,
  0x40e3fd753b0ae17e40f19af851e65ae240f431d961e5f8a340f1404da488ea8c40e70067860be36540d857b3926d683740c473ad2c8578d540aae9a4f7989424408ae9a4f7989424406355aaa9ee5b854031dc4e633833283ff00000000000004032548eb9151e85406576b096be4ee0409110000000000040b4a69f4ced7bed40d43bcf9112248a40f0abac08c564154107b21d450e963d411d95289f7ef70e41306f4f750da5b241406a0c4680c568414db1ca6f9f9a474158772745342544416270788489190641698165000000004170386e262b59ae4172fe3c1948351741747ab8400000004174521bfed6a64341728645c14b94c4416ef1281e7a78324167932ac1e367c4416049640ac5be7341543a54dac45e3c41464c92e850fad04135683b1c76b3574121595ed2f09ee941066824c553b97d40e3fd753b0ae17e,
  0x40d89f7f7e0a59d540e3b6d66664100640e45a352a7a2fd140dee87f170d552340d2079f781d1c5440c05ae64a25a1c940a6e6d503345ab940881befbd9d4690406214f3ce35f4ec4031520cd1372fea3ff00000000000004031dc4e633833284064763c1cfaaec0408ff231054cc57840b30bef97ceee8e40d2711ac9f8259540ee1d8816f9627a4105448115cb2b3f411a738443150920412d5a7f22561362413d5a7f22561362414aa6d0e67fdc964156192e20a51aef4160ce713283715c4167862a20a96943416e5e94bd8f906441721b4c6aca00584173f45eb6f5c2c04174521bfed6a64341731a23a000000041708afc17f809ed416a50f8798d6d4e4163239d6facac9641594b73c54a1333414e1b546bfdc611413fdcabcfdd0b44412d693c2255e3044116f3f4d9263e7640fc95ea14777da340d89f7f7e0a59d5,
  0x40cc6ea70dc546d640d47cd3cf33601c40d2ccfbd31b3f7b40c8fb98407ab92540b8fb98407ab92540a2e29d7cda1ff9408527da2f8373c34060b40b040e91524030b40b040e91523ff00000000000004031520cd1372fea406355aaa9ee5b85408d88bd9ecea17640b14a93741da7e340d07eaf32928c7a40ea9e53dd252c294102a1092ebf179e411705d9463090e2412973e51a56ae0941396bbeb631b5bb41471c21bce75f6441533bf17e15ddb2415d71536611ccfa4164cae44999353f416b29cbf1f3e4cc4170701d8bdfe72c417272b0914223be417333880390a7b241728645c14b94c441708afc17f809ed416b49e9c00000004164b7fd227d1c56415cd37672c453f3415241414edba7954144dbcb71a5ead1413539c1dac8444d4122de01a6075928410c659c5c3127e140f112b08200256d40cc6ea70dc546d6,
  0x40bea3b521743a5140c39ffe5e92af1040bf8415119d520940b1f2bb1bf3e972409de9e283ebda694082170dae7f6302405e65b9edeba38d40300000000000003ff00000000000004030b40b040e9152406214f3ce35f4ec408ae9a4f798942440aed5144988a68a40cce1d6f0ff8d9f40e6f5ba566e2b2e40ffc21f4962e42e411372a9a97c85f341255d42993aaab6413541d85b1a1db941434cf1b4863f5341501574166fdf6f4158b69ee3a5f87c4161905ce7d176314167275247084fe2416c5b74dbf54138417026ab725edf1741711e7878265c344170e1586362386d416ef1281e7a7832416a50f8798d6d4e4164b7fd227d1c56415e17d54000000041540fe380000000414864b33200d21a413accef60f8f16a412a43159d515000411682a4cffc8db741005b1e5cdb12dc40e302fe6b9e199840bea3b521743a51,
  0x40aea3b521743a5140b12bfe92c0592e40a7a30fcd35fd8740966f69e2f0e3cf407de9e283ebda69405b229485bf1483402e65b9edeba38d3ff000000000000040300000000000004060b40b040e915240881befbd9d469040aae9a4f798942440c8aa76a13a1ed440e34139f5ffb3bf40fa3d673e34c3a3410fc21f4962e42e4121497a5dc40549413117687a95555f413eeb693eb19f994149bbecf0b2ff194153cba291c4c43a415c3e6c71e2408e4162bc1ed523b1454167275247084fe2416ab06dfc321f44416cb68620a8a90d416cd500ca5b8dd2416b02270569f3e24167932ac1e367c44163239d6facac96415cd37672c453f341540fe3800000004149adf000000000413e05c8db14b3d1412fc37a85e4ac58411e03866aa612494108d6c7846620ca40f17242852df1fc40d39ffe5e92af1040aea3b521743a51,
  0x409c3917caf429f0409b1da50f1d2a38408f1a9cd5bfff2840779e38d26d4fc140579e38d26d4fc1402c90d29d2d43cd3ff0000000000000402e65b9edeba38d405e65b9edeba38d408527da2f8373c340a6e6d503345ab940c473ad2c8578d540df3da0bdf1c14540f4e744ab36fbf04108ecfb0e42ab43411ad0d79a9d2545412a4624ebea9ff141379d7ebeabd8e3414394a8e3e00755414e16237056f3d141557d8707198995415c9e31ea96321a4161cbeb83ffa8ad4164b3438cf23c794166891b971ab5794166f7e8fb7fe5334165e913a4cbf76941638c189c8fdf64416049640ac5be7341594b73c54a1333415241414edba795414864b33200d21a413e05c8db14b3d14130e6700000000041213dd95f264620410f75c1b04b9b3c40f92b0159d615ca40e11b6fdbf665ef40c2a4617a640d06409c3917caf429f0,
  0x4087b64ad0e4cf304082fc1f9ac2ed7040716bf48526b16e4053d7d7af35c95b402a751f9447b7243ff0000000000000402c90d29d2d43cd405b229485bf14834082170dae7f630240a2e29d7cda1ff940c05ae64a25a1c940d857b3926d683740efdf3663e8cee04102a8f65f3171e44113c741e6f8e4ad4123267a5965622f41310ec0a4534b37413c1b9413a85a4c41458350c3e1102a414eb1c0beaab0b1415476807f1c75cb41598befe89b4332415de77a10dc171841606cec7a220d9b4160f0ceb18aea8c41606718802ab8b9415dcdded80b6b3e41596186b8ecfc6141543a54dac45e3c414e1b546bfdc6114144dbcb71a5ead1413accef60f8f16a412fc37a85e4ac5841213dd95f2646204110fbc00000000040fdf4b5ce0965e840e73110e193a9bc40ce8adbdfd4a24240b0231add25b0384087b64ad0e4cf30,
  0x4071ecb5a9d2a5ed4066f640b79bbc5f404f9b61d023725040280000000000003ff0000000000000402a751f9447b72440579e38d26d4fc1407de9e283ebda69409de9e283ebda6940b8fb98407ab92540d2079f781d1c5440e70067860be36540fa5a03c3f6ed4b410b6d7987a04be3411a2a0f5bad85dd412707ca2b9e02c34132cde46442183a413c9a3251a5b9ac414453ec8aaeab32414b11e2fdf0752f4150eb2ddeb6493d4153e121ad452b2f4155fa3f228048144156df5bf5068c3d4156690e92cfe9164154aa5d026eae4d4151ebe53a12ebc4414d324714c1957541464c92e850fad0413fdcabcfdd0b44413539c1dac8444d412a43159d515000411e03866aa61249410f75c1b04b9b3c40fdf4b5ce0965e840e991000000000040d32cc00000000040b87cb6c79620e540991d56c8d256084071ecb5a9d2a5ed,
  0x4057e6478d18dd3c4046f640b79bbc5f40251241356cf6e03ff000000000000040280000000000004053d7d7af35c95b40779e38d26d4fc140966f69e2f0e3cf40b1f2bb1bf3e97240c8fb98407ab92540dee87f170d552340f1404da488ea8c41019157d7f9f387411074e2849360bb411c8af97b48ef1f412707ca2b9e02c341315b97bf01eefa4138842b21697a9441404323a22555c141444d6a3e7457e34147e29b1c4ca3a2414a81823c5c3994414bc2d67c6c2527414b726e593b0eaf41499ca2f0ed9cab41468b4e3132ecb14142b35e7f61a81b413d324714c195754135683b1c76b357412d693c2255e3044122de01a6075928411682a4cffc8db74108d6c7846620ca40f92b0159d615ca40e73110e193a9bc40d32cc00000000040bbe4000000000040a148f97dd36283408138b089b4cd474057e6478d18dd3c,
  0x403b38a81c8a0a2240216f8334644df83ff000000000000040251241356cf6e0404f9b61d023725040716bf48526b16e408f1a9cd5bfff2840a7a30fcd35fd8740bf8415119d520940d2ccfbd31b3f7b40e45a352a7a2fd140f431d961e5f8a34102823eb920caad410f86171548d24e41190f50143f1e6d4122aa275e4c915b412a2005a88892e74131383c61b1138141356aac93f5536c41392a2316631650413bf5ee18dfdfe7413d653d2f78e0ee413d3f84ad762e4e413b8a4a3b432bed413887dbf8475ff44134a7588136d58f41306b2c05c0983341289bb64d68b0604121595ed2f09ee94116f3f4d9263e76410c659c5c3127e141005b1e5cdb12dc40f17242852df1fc40e11b6fdbf665ef40ce8adbdfd4a24240b87cb6c79620e540a148f97dd362834084d00000000000406428efb493fa27403b38a81c8a0a22,
  0x4018fae0c15ad3893ff000000000000040216f8334644df84046f640b79bbc5f4066f640b79bbc5f4082fc1f9ac2ed70409b1da50f1d2a3840b12bfe92c0592e40c39ffe5e92af1040d47cd3cf33601c40e3b6d66664100640f19af851e65ae240fd565ffe4bb2674106e6c8da8fa1144110ce1b93fecb1e41173eb6165b4dcb411e5dfa0673b8d34122c3c37f82f8ab4125f72881df1c304128602385debb0e4129a8912e999c7b4129a059ecd9a0e3412848a2a503d8654125d38bb4a32cd741229891ab7c3e3c411e0255d16b8f484116e6c8da8fa11441108095ff0a945941066824c553b97d40fc95ea14777da340f112b08200256d40e302fe6b9e199840d39ffe5e92af1040c2a4617a640d0640b0231add25b03840991d56c8d25608408138b089b4cd47406428efb493fa2740430000000000004018fae0c15ad389,
  0x3ff00000000000004018fae0c15ad389403b38a81c8a0a224057e6478d18dd3c4071ecb5a9d2a5ed4087b64ad0e4cf30409c3917caf429f040aea3b521743a5140bea3b521743a5140cc6ea70dc546d640d89f7f7e0a59d540e3fd753b0ae17e40ee890bce14d6c640f600c7feb8c5cd40fdfc2fd890523d41035af5140215c44107b48eff7c5ce1410b92b45f6b0794410e7bb10859d1aa41100611a0273bfe41100611a0273bfe410e7bb10859d1aa410b92b45f6b07944107b48eff7c5ce141035af5140215c440fdfc2fd890523d40f600c7feb8c5cd40ee890bce14d6c640e3fd753b0ae17e40d89f7f7e0a59d540cc6ea70dc546d640bea3b521743a5140aea3b521743a51409c3917caf429f04087b64ad0e4cf304071ecb5a9d2a5ed4057e6478d18dd3c403b38a81c8a0a224018fae0c15ad3893ff0000000000000]

/-- The coefficients for `2 ell = 40`: one number for each of the 41 values of `mp`, consisting of the doubles for the 41 values of `m`. -/
def wigner40 : List Nat := [
  0x3ff000000000000040194c583ada5b52403bedb0defaf6614058d97bee3631de4072e4ecb563c2944089596a56795b9c409e9cb6ae49809a40b0ddd1a306d4dc40c120c40c6f17fa40d025ff31e9706540dc6ea70dc546d640e77a26484a6ca640f23f941da8935d40fac800c35c4ae241029891ab7c3e3c41087b94924679b5410e9a79b6d8182241122e5f394e1ee441148d3f6d1d5e7941161d64932f5ccd4116a9338f0ba4c541161d64932f5ccd41148d3f6d1d5e7941122e5f394e1ee4410e9a79b6d8182241087b94924679b541029891ab7c3e3c40fac800c35c4ae240f23f941da8935d40e77a26484a6ca640dc6ea70dc546d640d025ff31e9706540c120c40c6f17fa40b0ddd1a306d4dc409e9cb6ae49809a4089596a56795b9c4072e4ecb563c2944058d97bee3631de403bedb0defaf66140194c583ada5b523ff0000000000000,
  0x40194c583ada5b5240438000000000004064f9b5ea528e3440822c01521ace83409ae3107ebbf8e440b1890aaa0bb2d840c492256b7f758c40d600556b5a2bd740e5aa56bb1926bc40f3c9ba5045baff4100dbb5c712989e410ae996adce6cce4114327d70b01969411c95328cb23c9d41231ca0db6a7748412831b259029b35412d086f9e0320a64130878b74452c984131df51d91fa3d541325b829fecb1284131ea409d2fec8f41309bf016c9f59e412d3ee30633c64641286f53b702156641235af5140215c4411d086f9e0320a6411494fbfffc8075410b8630ad6943da41014fd93c04a81140f46a959e55fa4440e67a47b418cb7d40d6fac7d9172bbc40c5aa56bb1926bc40b2aaf324c8a152409d0a8f2e5996e440840a55549fa7d24067e6478d18dd3c40479308a1dd96494021a9dc8f6df1033ff000000000000040194c583ada5b52,
  0x403bedb0defaf6614064f9b5ea528e344085f8000000000040a2849f6c24f47440baa35803efe19240d0e069b798694840e33741ebc82b2c40f3ede3c018efc7410302fe6b9e19984110cddafd35254a411bad8a45ac8c52412554a563d0221a412edf79fffac0b04135094fbf6842e6413b0cc36dc7469b41406fc9cde5ed1d4142e6f4dffb9d7b41449668b5d3d04441453f8e50635d584144c925c496252e414345434a2a38294140ecef36053b88413c25a53f44750141362235e2d99a1641306fc9cde5ed1d412702e7537518c3411e4bbc2908261e4112b2f18db2029441058fe36db3313e40f71df1088bcf3540e6e7e530d56b4c40d4d0bffc8a80c640c12bfe92c0592e40a95d5068d9eb5b409070fd896572f94072272ab892ba6340503c8d6b3ce14340255aaa002a9d593ff00000000000004021a9dc8f6df103403bedb0defaf661,
  0x4058d97bee3631de40822c01521ace8340a2849f6c24f47440be5a000000000040d534dd953a695140ea149f30a47a4b40fccbb0db995be0410cee743d4ebfcf411ab5893a7ea3c24126d221de202f9141322559f841bc08413af86410dc74a04142cb7c0f2f56d24148a0c208a0e44d414e66c31db221474151b419193302874153794eceeb4f9541543efff4cedb954153e69c6351757341527e86953fac5a41503e61affa3bb3414af2e15d224448414516f6da4a5b38413f1856a9dc21b141358d5634f02f99412c0489ab383de141210658c8f31ce0411343b8c5e56413410431d961e5f8a340f37c64e1b9c2d140e129a2054985b440cb4b2a0b15ce9d40b34cabd4621d244097c18bbd39e7d14078a3543df21a96405466f6f4f6ca72402854bfb363dc393ff000000000000040255aaa002a9d5940479308a1dd96494058d97bee3631de,
  0x4072e4ecb563c294409ae3107ebbf8e440baa35803efe19240d534dd953a695140ecc3200000000041012684fc3c7f9f4112581b529080f34121d60d0153bb4d412fd59be86a820e413a43159d515000414422ea2ca339a9414cd1fc94ffcc1d41534fc51d6666fc41584af994d6c51e415cbcfff0689075416001e5d69481eb4160cecaee1beed04160a4664d35ef39415f14b6dac2f195415b5d293d970e0c4156b2e2fae6a6cb4151b8acfe70745f414a00e1c698f2b64141e459bf472398413707ca2b9e02c3412ba2f29abd9cea411ec995f9176c03410fabb35d89c63340fde142fdaa41f240e9a0b20a12615d40d3c0295dce32ac40baec18a9edde2c409fba69d6d6ee67407f3e665be9822840584d82d583b13d402ad5336963eefb3ff0000000000000402854bfb363dc3940503c8d6b3ce1434067e6478d18dd3c4072e4ecb563c294,
  0x4089596a56795b9c40b1890aaa0bb2d840d0e069b798694840ea149f30a47a4b41012684fc3c7f9f4113d06000000000412482682d0be1ec413346d554ba365341409c0d4c044f80414a6cf924855aab415382ebaab40587415ada087fe234eb416145d7a0b682124164d2a71b85acec41678ff136ff5c7a41690e39820ac4a141690e39820ac4a14167917a32449dc84164d986b4ff2efb4161562352bbaa91415b11e2fdf0752f4153d0285e8d5538414b22721186e62d414156307438a6c34134995aca06d4404126a8b0ab0783134116f29654ba5e8441053ecf997bc5f340f1d1236ff3355640dabe133d3978d540c1aa5e4fdbcdc640a41110b82946464082eb4588fd38ab405bf1fc7e3ee73b402cfb95bb9dcc0c3ff0000000000000402ad5336963eefb405466f6f4f6ca724072272ab892ba6340840a55549fa7d24089596a56795b9c,
  0x409e9cb6ae49809a40c492256b7f758c40e33741ebc82b2c40fccbb0db995be04112581b529080f3412482682d0be1ec413485880000000041429f807e2c9d98414ef2534eed40b94157b4c1ed9bea5d4160d48740422b1541663c3d82f094bd416b6a2166ff7c41416f9cb3220c9ee74171128eb06c44d741714a3c4aaa950f41706cec7a220d9b416d464a74250444416875835ac4d18f4163242b7c906dca415c051d3c2f0fde4153242b7c906dca4148578dbfffe561413cb656f9ffea0e412f45b68298b490411f45b68298b490410c80ee3a9598c740f775048d05a7a040e1367a7586539c40c62516bc9fbf3040a861761c2b8588408627dbe4718fff405f553848924e81402edac054c8f94c3ff0000000000000402cfb95bb9dcc0c40584d82d583b13d4078a3543df21a96409070fd896572f9409d0a8f2e5996e4409e9cb6ae49809a,
  0x40b0ddd1a306d4dc40d600556b5a2bd740f3ede3c018efc7410cee743d4ebfcf4121d60d0153bb4d413346d554ba365341429f807e2c9d9841504bec00000000415a13dd76891c6d4163353d31853b03416a2ebad73c976541709330e86416ab41738c189c8fdf644175840106be723441762205ec29372241754b4b6106529941732a2a3db8e3f041702127343c047f41695dfa4f6a964741629c766892180941596d7ebcb77814415021336bb1d0904142ef2df9223cb9413478f827be0551412445553af88b8d41123e664eac7d9940fd8fd60bca6a9540e54976ff7fd2b040cac71c1086135f40acb572eef909c54089492e7d33fb7e40613bd2f90a1cb440303f81f636b80b3ff0000000000000402edac054c8f94c405bf1fc7e3ee73b407f3e665be982284097c18bbd39e7d140a95d5068d9eb5b40b2aaf324c8a15240b0ddd1a306d4dc,
  0x40c120c40c6f17fa40e5aa56bb1926bc410302fe6b9e1998411ab5893a7ea3c2412fd59be86a820e41409c0d4c044f80414ef2534eed40b9415a13dd76891c6d41640fe380000000416c5f3e506b63684172880824b678db4176714ece56ed1341794398ed8ec1c5417a7be25ebca1054179e1ac388f79454177971257e5b87941740d35fde9a99a416fc437c6052af241676b268a6c9d9741600940ea83ed044154583662e74d794147d33be01476154139a31cb7e0000e4129332ff45f7c7b411674dd53166f2b4101f71775ab8c2340e978c0ed20439c40cf71649cff693f40b07b0740406c23408c453caec667914062acc2ee19c4894030f876ccdf6cd93ff000000000000040303f81f636b80b405f553848924e814082eb4588fd38ab409fba69d6d6ee6740b34cabd4621d2440c12bfe92c0592e40c5aa56bb1926bc40c120c40c6f17fa,
  0x40d025ff31e9706540f3c9ba5045baff4110cddafd35254a4126d221de202f91413a43159d515000414a6cf924855aab4157b4c1ed9bea5d4163353d31853b03416c5f3e506b6368417339e4b0000000417805fc0fc79780417bc574aaa730ae417dc622f86838d1417da6a966065082417b739651b907734177a18c0ca1b6594172e7a33d4e2b7b416c13eed8f9fb36416351bf33425e8c4158918399899e92414cc58651484729413ee2d1534debeb412e36b3ae7b0b34411aba8477d9770c41052c14db9742c940eda41d336d5d8040d202de7d76906740b287267ba92f11408f1379e1c815024063fd7fd7faff3740319b58598f7c9e3ff00000000000004030f876ccdf6cd940613bd2f90a1cb4408627dbe4718fff40a41110b829464640baec18a9edde2c40cb4b2a0b15ce9d40d4d0bffc8a80c640d6fac7d9172bbc40d025ff31e97065,
  0x40dc6ea70dc546d64100dbb5c712989e411bad8a45ac8c5241322559f841bc08414422ea2ca339a9415382ebaab405874160d48740422b15416a2ebad73c97654172880824b678db417805fc0fc79780417ca73570000000417f8bcc8d672106418010a0e8c16898417e502bcb34998d417a8161d95d7850417579757e4b234741701b181eb85a7541665375d3387f93415c87636211335f4150bea50d1fb0554141f9abac3b4c1541318ac54ab37bc7411ee36d870cd94e41084a0fe0b09ee140f0d5c259d7979b40d433b605691c5440b47598688aeaf04090d6490e3ae36b40652e169190724540322a788fc76de53ff000000000000040319b58598f7c9e4062acc2ee19c4894089492e7d33fb7e40a861761c2b858840c1aa5e4fdbcdc640d3c0295dce32ac40e129a2054985b440e6e7e530d56b4c40e67a47b418cb7d40dc6ea70dc546d6,
  0x40e77a26484a6ca6410ae996adce6cce412554a563d0221a413af86410dc74a0414cd1fc94ffcc1d415ada087fe234eb41663c3d82f094bd41709330e86416ab4176714ece56ed13417bc574aaa730ae417f8bcc8d67210641807f4d50000000417fd623973cef19417c5e1df94553d64177585e33270b6b4171bb6099079a724168d320d63dd839415ff444df5c01514152d8759ffd8ac741444762738d6c0a4133ca45c834365a412161c219e6eee4410b34a21aeefa6340f2b81a496fe4a740d63dddcecd2bb940b63dddcecd2bb94092051f456dfeae40663e8fc613448b4032a79e3a2cd2e53ff000000000000040322a788fc76de54063fd7fd7faff37408c453caec6679140acb572eef909c540c62516bc9fbf3040dabe133d3978d540e9a0b20a12615d40f37c64e1b9c2d140f71df1088bcf3540f46a959e55fa4440e77a26484a6ca6,
  0x40f23f941da8935d4114327d70b01969412edf79fffac0b04142cb7c0f2f56d241534fc51d6666fc416145d7a0b68212416b6a2166ff7c4141738c189c8fdf6441794398ed8ec1c5417dc622f86838d1418010a0e8c16898417fd623973cef19417d032fb0000000417854a5394106854172c5811715a597416a9d69a54010f641614cb7de9cd7d341548e19f41ff619414639998deaa0714135bdbf9c2c4a4e41231873f1e97fe2410dd106c78d32b540f46acf3534a21640d81535412be3ff40b7d87730284ee0409313928ced0be640672ef17c404c544033142b30a929ab3ff00000000000004032a79e3a2cd2e540652e1691907245408f1379e1c8150240b07b0740406c2340cac71c1086135f40e1367a7586539c40f1d1236ff3355640fde142fdaa41f2410431d961e5f8a341058fe36db3313e41014fd93c04a81140f23f941da8935d,
  0x40fac800c35c4ae2411c95328cb23c9d4135094fbf6842e64148a0c208a0e44d41584af994d6c51e4164d2a71b85acec416f9cb3220c9ee74175840106be7234417a7be25ebca105417da6a966065082417e502bcb34998d417c5e1df94553d6417854a5394106854173210bc0000000416b8c8d596ce2804162228ee4bb89dc4155c311df47723b4147b3cc981c9a4441374c523b7b7d514124830a6f3d42b741100397c4eb44ba40f5e11c32637a5c40d9af05a547371a40b93ee4e2fcf79a4093ff5ffd7febff4067ff3ffcffe7ff40337135779c8dca3ff00000000000004033142b30a929ab40663e8fc613448b4090d6490e3ae36b40b287267ba92f1140cf71649cff693f40e54976ff7fd2b040f775048d05a7a041053ecf997bc5f3410fabb35d89c633411343b8c5e564134112b2f18db20294410b8630ad6943da40fac800c35c4ae2,
  0x41029891ab7c3e3c41231ca0db6a7748413b0cc36dc7469b414e66c31db22147415cbcfff068907541678ff136ff5c7a4171128eb06c44d741762205ec2937224179e1ac388f7945417b739651b90773417a8161d95d78504177585e33270b6b4172c5811715a597416b8c8d596ce28041626bac80000000415662e5f2a4804e41489ffcf14e8d23413861e0d753ef43412591e372945ea04110e159acd62efe40f71016a780520b40db02291489e4c940ba6ba721c81bb74094c6a57d607f2f4068af7e5fe2c7954033bf984cb56c773ff000000000000040337135779c8dca40672ef17c404c544092051f456dfeae40b47598688aeaf040d202de7d76906740e978c0ed20439c40fd8fd60bca6a95410c80ee3a9598c74116f29654ba5e84411ec995f9176c0341210658c8f31ce0411e4bbc2908261e411494fbfffc807541029891ab7c3e3c,
  0x41087b94924679b5412831b259029b3541406fc9cde5ed1d4151b41919330287416001e5d69481eb41690e39820ac4a141714a3c4aaa950f41754b4b610652994177971257e5b8794177a18c0ca1b659417579757e4b23474171bb6099079a72416a9d69a54010f64162228ee4bb89dc415662e5f2a4804e4148f04c000000004138f04c00000000412639419b6eea85411179c97d17d16540f7eef651cd52fa40dc0729d56b64e540bb5a3e14585ed4409567daa092c33e40693faee39c239840340000000000003ff00000000000004033bf984cb56c774067ff3ffcffe7ff409313928ced0be640b63dddcecd2bb940d433b605691c5440eda41d336d5d804101f71775ab8c2341123e664eac7d99411f45b68298b4904126a8b0ab078313412ba2f29abd9cea412c0489ab383de1412702e7537518c3411d086f9e0320a641087b94924679b5,
  0x410e9a79b6d81822412d086f9e0320a64142e6f4dffb9d7b4153794eceeb4f954160cecaee1beed041690e39820ac4a141706cec7a220d9b41732a2a3db8e3f041740d35fde9a99a4172e7a33d4e2b7b41701b181eb85a754168d320d63dd83941614cb7de9cd7d34155c311df47723b41489ffcf14e8d234138f04c00000000412671de000000004111c767af8beed040f8774d48baf1f440dcb85ac88ffd2c40bc0729d56b64e54095e1cb4379e5774069afd3271683e4403432f24fb01c7a3ff000000000000040340000000000004068af7e5fe2c7954093ff5ffd7febff40b7d87730284ee040d63dddcecd2bb940f0d5c259d7979b41052c14db9742c9411674dd53166f2b412445553af88b8d412f45b68298b4904134995aca06d440413707ca2b9e02c341358d5634f02f9941306fc9cde5ed1d41235af5140215c4410e9a79b6d81822,
  0x41122e5f394e1ee44130878b74452c9841449668b5d3d04441543efff4cedb954160a4664d35ef394167917a32449dc8416d464a7425044441702127343c047f416fc437c6052af2416c13eed8f9fb3641665375d3387f93415ff444df5c015141548e19f41ff6194147b3cc981c9a44413861e0d753ef43412639419b6eea854111c767af8beed040f8a5300000000040dd11e95ce9a20640bc6fea761f3a5a409633938af20fa54069ffec4ebd772e403458d455549c1a3ff0000000000000403432f24fb01c7a40693faee39c23984094c6a57d607f2f40b93ee4e2fcf79a40d81535412be3ff40f2b81a496fe4a741084a0fe0b09ee1411aba8477d9770c4129332ff45f7c7b413478f827be0551413cb656f9ffea0e414156307438a6c34141e459bf472398413f1856a9dc21b141362235e2d99a1641286f53b702156641122e5f394e1ee4,
  0x41148d3f6d1d5e794131df51d91fa3d541453f8e50635d584153e69c63517573415f14b6dac2f1954164d986b4ff2efb416875835ac4d18f41695dfa4f6a964741676b268a6c9d97416351bf33425e8c415c87636211335f4152d8759ffd8ac7414639998deaa07141374c523b7b7d51412591e372945ea0411179c97d17d16540f8774d48baf1f440dd11e95ce9a20640bc93000000000040965c9d0fe9e508406a2ffb1cb6d660403471eeaf76c2c63ff0000000000000403458d455549c1a4069afd3271683e4409567daa092c33e40ba6ba721c81bb740d9af05a547371a40f46acf3534a216410b34a21aeefa63411ee36d870cd94e412e36b3ae7b0b344139a31cb7e0000e4142ef2df9223cb94148578dbfffe561414b22721186e62d414a00e1c698f2b6414516f6da4a5b38413c25a53f447501412d3ee30633c64641148d3f6d1d5e79,
  0x41161d64932f5ccd41325b829fecb1284144c925c496252e41527e86953fac5a415b5d293d970e0c4161562352bbaa914163242b7c906dca41629c766892180941600940ea83ed044158918399899e924150bea50d1fb05541444762738d6c0a4135bdbf9c2c4a4e4124830a6f3d42b74110e159acd62efe40f7eef651cd52fa40dcb85ac88ffd2c40bc6fea761f3a5a40965c9d0fe9e508406a40000000000040347e7054af09893ff0000000000000403471eeaf76c2c64069ffec4ebd772e4095e1cb4379e57740bb5a3e14585ed440db02291489e4c940f5e11c32637a5c410dd106c78d32b5412161c219e6eee441318ac54ab37bc7413ee2d1534debeb4147d33be0147615415021336bb1d0904153242b7c906dca4153d0285e8d55384151b8acfe70745f414af2e15d2244484140ecef36053b8841309bf016c9f59e41161d64932f5ccd,
  0x4116a9338f0ba4c54131ea409d2fec8f414345434a2a382941503e61affa3bb34156b2e2fae6a6cb415b11e2fdf0752f415c051d3c2f0fde41596d7ebcb778144154583662e74d79414cc586514847294141f9abac3b4c154133ca45c834365a41231873f1e97fe241100397c4eb44ba40f71016a780520b40dc0729d56b64e540bc0729d56b64e5409633938af20fa5406a2ffb1cb6d66040347e7054af09893ff000000000000040347e7054af0989406a2ffb1cb6d660409633938af20fa540bc0729d56b64e540dc0729d56b64e540f71016a780520b41100397c4eb44ba41231873f1e97fe24133ca45c834365a4141f9abac3b4c15414cc586514847294154583662e74d7941596d7ebcb77814415c051d3c2f0fde415b11e2fdf0752f4156b2e2fae6a6cb41503e61affa3bb3414345434a2a38294131ea409d2fec8f4116a9338f0ba4c5,
  0x41161d64932f5ccd41309bf016c9f59e4140ecef36053b88414af2e15d2244484151b8acfe70745f4153d0285e8d55384153242b7c906dca415021336bb1d0904147d33be0147615413ee2d1534debeb41318ac54ab37bc7412161c219e6eee4410dd106c78d32b540f5e11c32637a5c40db02291489e4c940bb5a3e14585ed44095e1cb4379e5774069ffec4ebd772e403471eeaf76c2c63ff000000000000040347e7054af0989406a40000000000040965c9d0fe9e50840bc6fea761f3a5a40dcb85ac88ffd2c40f7eef651cd52fa4110e159acd62efe4124830a6f3d42b74135bdbf9c2c4a4e41444762738d6c0a4150bea50d1fb0554158918399899e9241600940ea83ed0441629c76689218094163242b7c906dca4161562352bbaa91415b5d293d970e0c41527e86953fac5a4144c925c496252e41325b829fecb12841161d64932f5ccd,
  0x41148d3f6d1d5e79412d3ee30633c646413c25a53f447501414516f6da4a5b38414a00e1c698f2b6414b22721186e62d4148578dbfffe5614142ef2df9223cb94139a31cb7e0000e412e36b3ae7b0b34411ee36d870cd94e410b34a21aeefa6340f46acf3534a21640d9af05a547371a40ba6ba721c81bb7409567daa092c33e4069afd3271683e4403458d455549c1a3ff0000000000000403471eeaf76c2c6406a2ffb1cb6d66040965c9d0fe9e50840bc93000000000040dd11e95ce9a20640f8774d48baf1f4411179c97d17d165412591e372945ea041374c523b7b7d51414639998deaa0714152d8759ffd8ac7415c87636211335f416351bf33425e8c41676b268a6c9d9741695dfa4f6a9647416875835ac4d18f4164d986b4ff2efb415f14b6dac2f1954153e69c6351757341453f8e50635d584131df51d91fa3d541148d3f6d1d5e79,
  0x41122e5f394e1ee441286f53b702156641362235e2d99a16413f1856a9dc21b14141e459bf472398414156307438a6c3413cb656f9ffea0e413478f827be05514129332ff45f7c7b411aba8477d9770c41084a0fe0b09ee140f2b81a496fe4a740d81535412be3ff40b93ee4e2fcf79a4094c6a57d607f2f40693faee39c2398403432f24fb01c7a3ff0000000000000403458d455549c1a4069ffec4ebd772e409633938af20fa540bc6fea761f3a5a40dd11e95ce9a20640f8a530000000004111c767af8beed0412639419b6eea85413861e0d753ef434147b3cc981c9a4441548e19f41ff619415ff444df5c015141665375d3387f93416c13eed8f9fb36416fc437c6052af241702127343c047f416d464a742504444167917a32449dc84160a4664d35ef3941543efff4cedb9541449668b5d3d0444130878b74452c9841122e5f394e1ee4,
  0x410e9a79b6d8182241235af5140215c441306fc9cde5ed1d41358d5634f02f99413707ca2b9e02c34134995aca06d440412f45b68298b490412445553af88b8d411674dd53166f2b41052c14db9742c940f0d5c259d7979b40d63dddcecd2bb940b7d87730284ee04093ff5ffd7febff4068af7e5fe2c79540340000000000003ff0000000000000403432f24fb01c7a4069afd3271683e44095e1cb4379e57740bc0729d56b64e540dcb85ac88ffd2c40f8774d48baf1f44111c767af8beed0412671de000000004138f04c0000000041489ffcf14e8d234155c311df47723b41614cb7de9cd7d34168d320d63dd83941701b181eb85a754172e7a33d4e2b7b41740d35fde9a99a41732a2a3db8e3f041706cec7a220d9b41690e39820ac4a14160cecaee1beed04153794eceeb4f954142e6f4dffb9d7b412d086f9e0320a6410e9a79b6d81822,
  0x41087b94924679b5411d086f9e0320a6412702e7537518c3412c0489ab383de1412ba2f29abd9cea4126a8b0ab078313411f45b68298b49041123e664eac7d994101f71775ab8c2340eda41d336d5d8040d433b605691c5440b63dddcecd2bb9409313928ced0be64067ff3ffcffe7ff4033bf984cb56c773ff0000000000000403400000000000040693faee39c2398409567daa092c33e40bb5a3e14585ed440dc0729d56b64e540f7eef651cd52fa411179c97d17d165412639419b6eea854138f04c000000004148f04c00000000415662e5f2a4804e4162228ee4bb89dc416a9d69a54010f64171bb6099079a72417579757e4b23474177a18c0ca1b6594177971257e5b87941754b4b6106529941714a3c4aaa950f41690e39820ac4a1416001e5d69481eb4151b4191933028741406fc9cde5ed1d412831b259029b3541087b94924679b5,
  0x41029891ab7c3e3c411494fbfffc8075411e4bbc2908261e41210658c8f31ce0411ec995f9176c034116f29654ba5e84410c80ee3a9598c740fd8fd60bca6a9540e978c0ed20439c40d202de7d76906740b47598688aeaf04092051f456dfeae40672ef17c404c5440337135779c8dca3ff00000000000004033bf984cb56c774068af7e5fe2c7954094c6a57d607f2f40ba6ba721c81bb740db02291489e4c940f71016a780520b4110e159acd62efe412591e372945ea0413861e0d753ef4341489ffcf14e8d23415662e5f2a4804e41626bac80000000416b8c8d596ce2804172c5811715a5974177585e33270b6b417a8161d95d7850417b739651b907734179e1ac388f794541762205ec2937224171128eb06c44d741678ff136ff5c7a415cbcfff0689075414e66c31db22147413b0cc36dc7469b41231ca0db6a774841029891ab7c3e3c,
  0x40fac800c35c4ae2410b8630ad6943da4112b2f18db20294411343b8c5e56413410fabb35d89c63341053ecf997bc5f340f775048d05a7a040e54976ff7fd2b040cf71649cff693f40b287267ba92f114090d6490e3ae36b40663e8fc613448b4033142b30a929ab3ff000000000000040337135779c8dca4067ff3ffcffe7ff4093ff5ffd7febff40b93ee4e2fcf79a40d9af05a547371a40f5e11c32637a5c41100397c4eb44ba4124830a6f3d42b741374c523b7b7d514147b3cc981c9a444155c311df47723b4162228ee4bb89dc416b8c8d596ce2804173210bc0000000417854a539410685417c5e1df94553d6417e502bcb34998d417da6a966065082417a7be25ebca1054175840106be7234416f9cb3220c9ee74164d2a71b85acec41584af994d6c51e4148a0c208a0e44d4135094fbf6842e6411c95328cb23c9d40fac800c35c4ae2,
  0x40f23f941da8935d41014fd93c04a81141058fe36db3313e410431d961e5f8a340fde142fdaa41f240f1d1236ff3355640e1367a7586539c40cac71c1086135f40b07b0740406c23408f1379e1c8150240652e16919072454032a79e3a2cd2e53ff00000000000004033142b30a929ab40672ef17c404c54409313928ced0be640b7d87730284ee040d81535412be3ff40f46acf3534a216410dd106c78d32b541231873f1e97fe24135bdbf9c2c4a4e414639998deaa07141548e19f41ff61941614cb7de9cd7d3416a9d69a54010f64172c5811715a597417854a539410685417d032fb0000000417fd623973cef19418010a0e8c16898417dc622f86838d141794398ed8ec1c541738c189c8fdf64416b6a2166ff7c41416145d7a0b6821241534fc51d6666fc4142cb7c0f2f56d2412edf79fffac0b04114327d70b0196940f23f941da8935d,
  0x40e77a26484a6ca640f46a959e55fa4440f71df1088bcf3540f37c64e1b9c2d140e9a0b20a12615d40dabe133d3978d540c62516bc9fbf3040acb572eef909c5408c453caec667914063fd7fd7faff3740322a788fc76de53ff00000000000004032a79e3a2cd2e540663e8fc613448b4092051f456dfeae40b63dddcecd2bb940d63dddcecd2bb940f2b81a496fe4a7410b34a21aeefa63412161c219e6eee44133ca45c834365a41444762738d6c0a4152d8759ffd8ac7415ff444df5c01514168d320d63dd8394171bb6099079a724177585e33270b6b417c5e1df94553d6417fd623973cef1941807f4d50000000417f8bcc8d672106417bc574aaa730ae4176714ece56ed1341709330e86416ab41663c3d82f094bd415ada087fe234eb414cd1fc94ffcc1d413af86410dc74a0412554a563d0221a410ae996adce6cce40e77a26484a6ca6,
  0x40dc6ea70dc546d640e67a47b418cb7d40e6e7e530d56b4c40e129a2054985b440d3c0295dce32ac40c1aa5e4fdbcdc640a861761c2b85884089492e7d33fb7e4062acc2ee19c48940319b58598f7c9e3ff000000000000040322a788fc76de540652e16919072454090d6490e3ae36b40b47598688aeaf040d433b605691c5440f0d5c259d7979b41084a0fe0b09ee1411ee36d870cd94e41318ac54ab37bc74141f9abac3b4c154150bea50d1fb055415c87636211335f41665375d3387f9341701b181eb85a75417579757e4b2347417a8161d95d7850417e502bcb34998d418010a0e8c16898417f8bcc8d672106417ca73570000000417805fc0fc797804172880824b678db416a2ebad73c97654160d48740422b15415382ebaab40587414422ea2ca339a941322559f841bc08411bad8a45ac8c524100dbb5c712989e40dc6ea70dc546d6,
  0x40d025ff31e9706540d6fac7d9172bbc40d4d0bffc8a80c640cb4b2a0b15ce9d40baec18a9edde2c40a41110b8294646408627dbe4718fff40613bd2f90a1cb44030f876ccdf6cd93ff000000000000040319b58598f7c9e4063fd7fd7faff37408f1379e1c8150240b287267ba92f1140d202de7d76906740eda41d336d5d8041052c14db9742c9411aba8477d9770c412e36b3ae7b0b34413ee2d1534debeb414cc586514847294158918399899e92416351bf33425e8c416c13eed8f9fb364172e7a33d4e2b7b4177a18c0ca1b659417b739651b90773417da6a966065082417dc622f86838d1417bc574aaa730ae417805fc0fc79780417339e4b0000000416c5f3e506b63684163353d31853b034157b4c1ed9bea5d414a6cf924855aab413a43159d5150004126d221de202f914110cddafd35254a40f3c9ba5045baff40d025ff31e97065,
  0x40c120c40c6f17fa40c5aa56bb1926bc40c12bfe92c0592e40b34cabd4621d24409fba69d6d6ee674082eb4588fd38ab405f553848924e8140303f81f636b80b3ff00000000000004030f876ccdf6cd94062acc2ee19c489408c453caec6679140b07b0740406c2340cf71649cff693f40e978c0ed20439c4101f71775ab8c23411674dd53166f2b4129332ff45f7c7b4139a31cb7e0000e4147d33be01476154154583662e74d7941600940ea83ed0441676b268a6c9d97416fc437c6052af241740d35fde9a99a4177971257e5b8794179e1ac388f7945417a7be25ebca10541794398ed8ec1c54176714ece56ed134172880824b678db416c5f3e506b636841640fe380000000415a13dd76891c6d414ef2534eed40b941409c0d4c044f80412fd59be86a820e411ab5893a7ea3c2410302fe6b9e199840e5aa56bb1926bc40c120c40c6f17fa,
  0x40b0ddd1a306d4dc40b2aaf324c8a15240a95d5068d9eb5b4097c18bbd39e7d1407f3e665be98228405bf1fc7e3ee73b402edac054c8f94c3ff000000000000040303f81f636b80b40613bd2f90a1cb44089492e7d33fb7e40acb572eef909c540cac71c1086135f40e54976ff7fd2b040fd8fd60bca6a9541123e664eac7d99412445553af88b8d413478f827be05514142ef2df9223cb9415021336bb1d09041596d7ebcb7781441629c766892180941695dfa4f6a964741702127343c047f41732a2a3db8e3f041754b4b6106529941762205ec2937224175840106be723441738c189c8fdf6441709330e86416ab416a2ebad73c97654163353d31853b03415a13dd76891c6d41504bec0000000041429f807e2c9d98413346d554ba36534121d60d0153bb4d410cee743d4ebfcf40f3ede3c018efc740d600556b5a2bd740b0ddd1a306d4dc,
  0x409e9cb6ae49809a409d0a8f2e5996e4409070fd896572f94078a3543df21a9640584d82d583b13d402cfb95bb9dcc0c3ff0000000000000402edac054c8f94c405f553848924e81408627dbe4718fff40a861761c2b858840c62516bc9fbf3040e1367a7586539c40f775048d05a7a0410c80ee3a9598c7411f45b68298b490412f45b68298b490413cb656f9ffea0e4148578dbfffe5614153242b7c906dca415c051d3c2f0fde4163242b7c906dca416875835ac4d18f416d464a7425044441706cec7a220d9b41714a3c4aaa950f4171128eb06c44d7416f9cb3220c9ee7416b6a2166ff7c4141663c3d82f094bd4160d48740422b154157b4c1ed9bea5d414ef2534eed40b941429f807e2c9d984134858800000000412482682d0be1ec4112581b529080f340fccbb0db995be040e33741ebc82b2c40c492256b7f758c409e9cb6ae49809a,
  0x4089596a56795b9c40840a55549fa7d24072272ab892ba63405466f6f4f6ca72402ad5336963eefb3ff0000000000000402cfb95bb9dcc0c405bf1fc7e3ee73b4082eb4588fd38ab40a41110b829464640c1aa5e4fdbcdc640dabe133d3978d540f1d1236ff3355641053ecf997bc5f34116f29654ba5e844126a8b0ab0783134134995aca06d440414156307438a6c3414b22721186e62d4153d0285e8d5538415b11e2fdf0752f4161562352bbaa914164d986b4ff2efb4167917a32449dc841690e39820ac4a141690e39820ac4a141678ff136ff5c7a4164d2a71b85acec416145d7a0b68212415ada087fe234eb415382ebaab40587414a6cf924855aab41409c0d4c044f80413346d554ba3653412482682d0be1ec4113d0600000000041012684fc3c7f9f40ea149f30a47a4b40d0e069b798694840b1890aaa0bb2d84089596a56795b9c,
  0x4072e4ecb563c2944067e6478d18dd3c40503c8d6b3ce143402854bfb363dc393ff0000000000000402ad5336963eefb40584d82d583b13d407f3e665be98228409fba69d6d6ee6740baec18a9edde2c40d3c0295dce32ac40e9a0b20a12615d40fde142fdaa41f2410fabb35d89c633411ec995f9176c03412ba2f29abd9cea413707ca2b9e02c34141e459bf472398414a00e1c698f2b64151b8acfe70745f4156b2e2fae6a6cb415b5d293d970e0c415f14b6dac2f1954160a4664d35ef394160cecaee1beed0416001e5d69481eb415cbcfff068907541584af994d6c51e41534fc51d6666fc414cd1fc94ffcc1d414422ea2ca339a9413a43159d515000412fd59be86a820e4121d60d0153bb4d4112581b529080f341012684fc3c7f9f40ecc3200000000040d534dd953a695140baa35803efe192409ae3107ebbf8e44072e4ecb563c294,
  0x4058d97bee3631de40479308a1dd964940255aaa002a9d593ff0000000000000402854bfb363dc39405466f6f4f6ca724078a3543df21a964097c18bbd39e7d140b34cabd4621d2440cb4b2a0b15ce9d40e129a2054985b440f37c64e1b9c2d1410431d961e5f8a3411343b8c5e5641341210658c8f31ce0412c0489ab383de141358d5634f02f99413f1856a9dc21b1414516f6da4a5b38414af2e15d22444841503e61affa3bb341527e86953fac5a4153e69c6351757341543efff4cedb954153794eceeb4f954151b41919330287414e66c31db221474148a0c208a0e44d4142cb7c0f2f56d2413af86410dc74a041322559f841bc084126d221de202f91411ab5893a7ea3c2410cee743d4ebfcf40fccbb0db995be040ea149f30a47a4b40d534dd953a695140be5a000000000040a2849f6c24f47440822c01521ace834058d97bee3631de,
  0x403bedb0defaf6614021a9dc8f6df1033ff000000000000040255aaa002a9d5940503c8d6b3ce1434072272ab892ba63409070fd896572f940a95d5068d9eb5b40c12bfe92c0592e40d4d0bffc8a80c640e6e7e530d56b4c40f71df1088bcf3541058fe36db3313e4112b2f18db20294411e4bbc2908261e412702e7537518c341306fc9cde5ed1d41362235e2d99a16413c25a53f4475014140ecef36053b88414345434a2a38294144c925c496252e41453f8e50635d5841449668b5d3d0444142e6f4dffb9d7b41406fc9cde5ed1d413b0cc36dc7469b4135094fbf6842e6412edf79fffac0b0412554a563d0221a411bad8a45ac8c524110cddafd35254a410302fe6b9e199840f3ede3c018efc740e33741ebc82b2c40d0e069b798694840baa35803efe19240a2849f6c24f4744085f800000000004064f9b5ea528e34403bedb0defaf661,
  0x40194c583ada5b523ff00000000000004021a9dc8f6df10340479308a1dd96494067e6478d18dd3c40840a55549fa7d2409d0a8f2e5996e440b2aaf324c8a15240c5aa56bb1926bc40d6fac7d9172bbc40e67a47b418cb7d40f46a959e55fa4441014fd93c04a811410b8630ad6943da411494fbfffc8075411d086f9e0320a641235af5140215c441286f53b7021566412d3ee30633c64641309bf016c9f59e4131ea409d2fec8f41325b829fecb1284131df51d91fa3d54130878b74452c98412d086f9e0320a6412831b259029b3541231ca0db6a7748411c95328cb23c9d4114327d70b01969410ae996adce6cce4100dbb5c712989e40f3c9ba5045baff40e5aa56bb1926bc40d600556b5a2bd740c492256b7f758c40b1890aaa0bb2d8409ae3107ebbf8e440822c01521ace834064f9b5ea528e34404380000000000040194c583ada5b52,
  0x3ff000000000000040194c583ada5b52403bedb0defaf6614058d97bee3631de4072e4ecb563c2944089596a56795b9c409e9cb6ae49809a40b0ddd1a306d4dc40c120c40c6f17fa40d025ff31e9706540dc6ea70dc546d640e77a26484a6ca640f23f941da8935d40fac800c35c4ae241029891ab7c3e3c41087b94924679b5410e9a79b6d8182241122e5f394e1ee441148d3f6d1d5e7941161d64932f5ccd4116a9338f0ba4c541161d64932f5ccd41148d3f6d1d5e7941122e5f394e1ee4410e9a79b6d8182241087b94924679b541029891ab7c3e3c40fac800c35c4ae240f23f941da8935d40e77a26484a6ca640dc6ea70dc546d640d025ff31e9706540c120c40c6f17fa40b0ddd1a306d4dc409e9cb6ae49809a4089596a56795b9c4072e4ecb563c2944058d97bee3631de403bedb0defaf66140194c583ada5b523ff0000000000000]

/-- The coefficients for `2 ell = 41`: one number for each of the 42 values of `mp`, consisting of the doubles for the 42 values of `m`. -/
def wigner41 : List Nat := [
  0x3ff000000000000040199ccc999fff00403ca2b9714180f64059cfd35eafe2ff4073e3abf005c4f2408b0d6c123b619140a090f008a9884440b285832dc1b0ef40c317706ad3cc1740d2475de0bf5afa40e0595a5295ae0840eb7222ed9f4c8940f5b2a608f302c74100342515ddf4064106ea5cdba759e2410ebe8d2f44297a411398830fec92a64117c36a10ebf7a7411b7085941d63c9411e30a77fe628d7411fa9e189d4ec99411fa9e189d4ec99411e30a77fe628d7411b7085941d63c94117c36a10ebf7a7411398830fec92a6410ebe8d2f44297a4106ea5cdba759e24100342515ddf40640f5b2a608f302c740eb7222ed9f4c8940e0595a5295ae0840d2475de0bf5afa40c317706ad3cc1740b285832dc1b0ef40a090f008a98844408b0d6c123b61914073e3abf005c4f24059cfd35eafe2ff403ca2b9714180f640199ccc999fff003ff0000000000000,
  0x40199ccc999fff0040440000000000004065cd39c5a1322c408325da4b440dd7409cbb774b6ea9a940b3030fc0db04b540c6a353ee9af4d940d8963fa1f75abd40e89923f6625b6340f6d65abb3ecaa34103c9ba5045baff411012de3b959c854118914e1d7c12804121b6d1d918d67b412828291ad16fbb412f35a0ee46e6ef4133208c12470f154136446b0efe9e3b4138a403b3ddcb4a4139ee925376065d4139f61c7367f9794138b9a130f54f1e4136654fd3b76296413348b4fc11c07d412f8b97aa93602941287b94924679b541220166b0da22c541190d341bcfb63d411072e76e295972410454f132e2444640f79323cedb6e1840e9886c468b85ee40d9b12612a6a3f740c7da516b0a0b0b40b43f7fb28f77e6409f0be0d23398ef40851fd89d6521ad4068d97bee3631de40482fd05f1298384021e3779b97f4a73ff000000000000040199ccc999fff00,
  0x403ca2b9714180f64065cd39c5a1322c408728000000000040a3cd67b431d58040bce94b7db1fbfc40d29959028e338a40e58377adb86f6540f6adad398bb0b6410600556b5a2bd74113c9ba5045baff412097bdec0b9f3a412a0ed0c278e35d41333a28eb0adcdc413abc9c8a05f9af41418e2a8607e1e64145ceec3835f6a54149a96849b50f3b414ca140200f4374414e4dd4ffd42717414e71418ffe35f0414d0694012e29cd414a42e76ec83e3441468908a31c98f74142537ec941900d413c37078b306eff41348786a15da5c8412c2eda9f49ad054122349de05406b6411611854539c1e54109013b84e7088740fa5b7dd36b90a540e9b12612a6a3f740d6fac7d9172bbc40c2aaf324c8a15240ab2a64b7ed25d140915affbd9f8b584072e4ecb563c2944050ab69cbeeb1944025a220734903763ff00000000000004021e3779b97f4a7403ca2b9714180f6,
  0x4059cfd35eafe2ff408325da4b440dd740a3cd67b431d58040c07a000000000040d7632fe5cf8cb540ed3b2cbc92cf4b4100689da43dd71f4110c5e1461ec299411f86ff06a10d2e412b70e686c95baf41363e34c9a8738f4140dd050ec974bd4147ff3a104a265e415011197ffe3fde41544992925574f4415831b259029b35415b486ea1cbf80d415d1d7be24a1a64415d6ab9628c9c07415c24de2935eaad41597e17e449e4d64155d9cb55f631dc4151b573d9c3abc4414b1ba988a31bff41439045137fb4a4413a923ac5a541b84130ef967181d30b4124327d70b019694116714830c09a3b41071df1088bcf3540f5ee4096620d1a40e30075fe919d1940cdbe15f03bb10040b4b5c4cd8d13eb40991d56c8d256084079ac16200f654d4054f6160a7350864028a85c24f706593ff00000000000004025a2207349037640482fd05f1298384059cfd35eafe2ff,
  0x4073e3abf005c4f2409cbb774b6ea9a940bce94b7db1fbfc40d7632fe5cf8cb540f01fd00000000041038f77647b5bb841154b705bd4981741251655acc0d36741332dd4ef0b9bcf41402302e8ac82f04149420e38edc8484152771d0094055f41594da8ce038d2c41604a34950a5a854163bf0d6478fd524166915067feb8ee416857a282a6237a4168cbda3ac53bf24167dc394ffeeadd4165afb937c23da341629c064c5f190f415e212ec4cabadc4156fb62898d589841507d9b6566511641463723faa3e369413c0489ab383de141307bf37f295cc9412205340b49a04241123409ff2183394100e01373f4c9a240ec760411252a0d40d593d69d6975d840bcf301be932bb640a0cc4d6483492740804be7f22f89744058fccc98584fe6402b33f3f1490dee3ff00000000000004028a85c24f706594050ab69cbeeb1944068d97bee3631de4073e3abf005c4f2,
  0x408b0d6c123b619140b3030fc0db04b540d29959028e338a40ed3b2cbc92cf4b41038f77647b5bb841170280000000004128445d8223c64d41374166e12e39634144722e60951bd441509c0d4c044f80415911d12d6d799e4161a6135e17ec38416741165e75704d416cbe63ef25f18c4170b207d798c3814172405286ff08b24172caab2188137941723b08b0bf40824170aa500f5346a9416cb3132f4b0165416742630df398bd4161b8acfe70745f415958536f955aff4150f94d55bf2b5f41453ba648f708af4138b8068c0831e6412aa9a74f3ab16f411a7f6397f878fd410817082c64112540f3d9e49236319340dd4b7fe4b106ee40c30972b41a8f0a40a548ae3a1cdfc14083c2a1d9939a40405cc16423e7b94b402d64d51e0db1c53ff0000000000000402b33f3f1490dee4054f6160a7350864072e4ecb563c29440851fd89d6521ad408b0d6c123b6191,
  0x40a090f008a9884440c6a353ee9af4d940e58377adb86f654100689da43dd71f41154b705bd498174128445d8223c64d4138c478000000004146f1a06233fb7f415379f90d4b9229415e8384a986bf4841662ccd885bdee6416e05671b351f494172fcacecf6a56e41767dc357681e184178fdd7451b122a417a1422fd09fdd64179927d98a434ce4177917a32449dc8417469250729697b41709931907f9e0541695250bfe827ca41621639ada5d347415824a52f4542f0414e072b583c7fb4414156307438a6c34132803e5f4b9d1441222444dc8c840f411039f5e12e840040fa39d060d4fe4e40e2e8e7fa70d26340c7eb50d63349cf40a9e7ec3c7f19bc40872bc5a6fc1b2c4060225b1d5e28c6402f4e115049ec253ff0000000000000402d64d51e0db1c54058fccc98584fe64079ac16200f654d40915affbd9f8b58409f0be0d23398ef40a090f008a98844,
  0x40b285832dc1b0ef40d8963fa1f75abd40f6adad398bb0b64110c5e1461ec29941251655acc0d36741374166e12e39634146f1a06233fb7f41548588000000004160cc5192447050416957c652b223504171b5786b87582741770407490b08c9417be65ad585ad7c417f9cb3220c9ee74180c3cd59866c534180a93a2e120c1c417f0a8f15ad752e417b1a5d766dc76c41762afa6a166cc84170f7894e2f8bcb416844195fffdba741602d663fffe7c441540d452ddb199341470561fea72f4e41385e00528574be4127a3c00902a21d4114dcce6aa9852541009630549dba9140e775048d05a7a040ccfe946106af8e40ae9015fcd3f7cf408a7b2b07fb8cc44061c39aad23f46440307e0f66afed063ff0000000000000402f4e115049ec25405cc16423e7b94b40804be7f22f897440991d56c8d2560840ab2a64b7ed25d140b43f7fb28f77e640b285832dc1b0ef,
  0x40c317706ad3cc1740e89923f6625b63410600556b5a2bd7411f86ff06a10d2e41332dd4ef0b9bcf4144722e60951bd4415379f90d4b92294160cc5192447050416a7b5f800000004173353d31853b034179c52b1f76843741800c73ba772d4641829bc1f20690fd4184204416ba795d4184549317c8250a418331bafc62859a4180f07a6a049ca3417befe72d1c1ca9417581899afab0a9416edcf79f5635374164994b2ffbc754415980d6fe74ada5414d2e0163721663413eb5743b9d07f9412d8cb00b434aa44119ccf14851123241043d57db61e98d40ec28f6e0c7a86540d1114acee6dae340b1949996fa99cf408da67a6e5120e740634491be50521a40313bd2f90a1cb43ff000000000000040307e0f66afed064060225b1d5e28c64083c2a1d9939a4040a0cc4d6483492740b4b5c4cd8d13eb40c2aaf324c8a15240c7da516b0a0b0b40c317706ad3cc17,
  0x40d2475de0bf5afa40f6d65abb3ecaa34113c9ba5045baff412b70e686c95baf41402302e8ac82f041509c0d4c044f80415e8384a986bf48416957c652b223504173353d31853b03417abfda0000000041813246740aa3cf41847cb9790147bc4186acd8a6c9377041875b4bbf548a5441866a003b86e12c41840c395a5110c24180b5acfe42b8004179efed96ce7a544172b7f490a6a77941691272dd9dcb2e415f13ad095bee424151c219bc34882541429ffd8eafbb814131d1ada53ba4b3411edd0eff9ae4bf4107f41f478f658440f07120dc4a73ad40d39badb0965cce40b3cea41799d8a24090526bb68dd8264064a554a4fbc4ea4031e3779b97f4a73ff000000000000040313bd2f90a1cb44061c39aad23f46440872bc5a6fc1b2c40a548ae3a1cdfc140bcf301be932bb640cdbe15f03bb10040d6fac7d9172bbc40d9b12612a6a3f740d2475de0bf5afa,
  0x40e0595a5295ae084103c9ba5045baff412097bdec0b9f3a41363e34c9a8738f4149420e38edc848415911d12d6d799e41662ccd885bdee64171b5786b8758274179c52b1f76843741813246740aa3cf418526152800000041880cf821f8a1f441895a03f50136e84188cecda07f0c4341868dc0859b32db41830d4cff65d8ff417de42396b8d8224175bfbfbbca7dae416d4c98b4b824014162386dafffbe1c4154d8d46411e7524145d6f6e2bd6c3d4134d2c67fffb4b34121ee19a9eda20b410b9aebf080ea8140f2bf250c4947ce40d60f2366a9286740b5ec2bd06344e74091b751b5508c114065e5f090a5880f40327757ebaf93683ff00000000000004031e3779b97f4a740634491be50521a408a7b2b07fb8cc440a9e7ec3c7f19bc40c30972b41a8f0a40d593d69d6975d840e30075fe919d1940e9b12612a6a3f740e9886c468b85ee40e0595a5295ae08,
  0x40eb7222ed9f4c89411012de3b959c85412a0ed0c278e35d4140dd050ec974bd4152771d0094055f4161a6135e17ec38416e05671b351f4941770407490b08c941800c73ba772d4641847cb9790147bc41880cf821f8a1f4418a0c5f20000000418a15a07513d4e841882e7998413fa44184c3535056d1e6418081ee2942363c417847cc6481435141707d25ab5b6af34164a05748dc3a1f4157ae3b2a7134f94148d61f23703e9b4137a75a9ba7da1a41244c32b6aa2d67410f122bf23b6ce540f4edbbd2458ef940d85d5173d4eedc40b7e431944f266b4092fea85fa6c2da4067066e67ba90694032f9422c23c47d3ff000000000000040327757ebaf93684064a554a4fbc4ea408da67a6e5120e740ae9015fcd3f7cf40c7eb50d63349cf40dd4b7fe4b106ee40ec760411252a0d40f5ee4096620d1a40fa5b7dd36b90a540f79323cedb6e1840eb7222ed9f4c89,
  0x40f5b2a608f302c74118914e1d7c128041333a28eb0adcdc4147ff3a104a265e41594da8ce038d2c416741165e75704d4172fcacecf6a56e417be65ad585ad7c41829bc1f20690fd4186acd8a6c9377041895a03f50136e8418a15a07513d4e84188bef3f80000004185aa889626e72f41818246a65d4890417a19c853119a074171ea6b3495359a41669852de59c474415a172964f3fd20414b752afe66c08b413a2e0c7589694b4126709cf708111c41111dd1a88fd87140f6ed1a6a48a18040da790e7dc6516040b9aeb5ec811fad409425a09ac33e5b406806d45c92a8e940336a9ef26f762e3ff00000000000004032f9422c23c47d4065e5f090a5880f4090526bb68dd82640b1949996fa99cf40ccfe946106af8e40e2e8e7fa70d26340f3d9e4923631934100e01373f4c9a241071df1088bcf354109013b84e70887410454f132e2444640f5b2a608f302c7,
  0x4100342515ddf4064121b6d1d918d67b413abc9c8a05f9af415011197ffe3fde41604a34950a5a85416cbe63ef25f18c41767dc357681e18417f9cb3220c9ee74184204416ba795d41875b4bbf548a544188cecda07f0c4341882e7998413fa44185aa889626e72f4181da9380000000417b0d77fe5ed0b34172d1cf704f7f204167fd86f618edcf415bedc9b0d481c6414d8fe00eed7105413c48694e1a00f84128451d7ecad8f641127dcd5469c9e040f8aee789fac45640dc5694a3a3705640bb44b9348ea6ee409529d6533045314068e726d9eef1e54033cc8a99af54523ff000000000000040336a9ef26f762e4067066e67ba90694091b751b5508c1140b3cea41799d8a240d1114acee6dae340e775048d05a7a040fa39d060d4fe4e410817082c64112541123409ff2183394116714830c09a3b411611854539c1e5411072e76e2959724100342515ddf406,
  0x4106ea5cdba759e2412828291ad16fbb41418e2a8607e1e641544992925574f44163bf0d6478fd524170b207d798c3814178fdd7451b122a4180c3cd59866c534184549317c8250a41866a003b86e12c41868dc0859b32db4184c3535056d1e641818246a65d4890417b0d77fe5ed0b34173210bc00000004168b6bd87293452415d14a7ba396e7d414f089d314e92e2413ddcb55ae503364129b68727de55fb41139cf48f96b14440fa269b6a1e41b040ddebab3c5b278a40bca03baacbdfee40960946c5832f834069a7691328554840341fe68f0af33c3ff00000000000004033cc8a99af5452406806d45c92a8e94092fea85fa6c2da40b5ec2bd06344e740d39badb0965cce40ec28f6e0c7a86541009630549dba91411039f5e12e8400411a7f6397f878fd412205340b49a0424124327d70b019694122349de05406b641190d341bcfb63d4106ea5cdba759e2,
  0x410ebe8d2f44297a412f35a0ee46e6ef4145ceec3835f6a5415831b259029b354166915067feb8ee4172405286ff08b2417a1422fd09fdd64180a93a2e120c1c418331bafc62859a41840c395a5110c241830d4cff65d8ff418081ee2942363c417a19c853119a074172d1cf704f7f204168b6bd87293452415d791400000000414fca69e0cedc57413ed76bc05e83b8412ab5a2945f8d974114716a43e6109e40fb49cfcc87f6c640df2fc8e9bff57540bdbc3d7a08d25b4096c24907302296406a479d5f29b629403465655f122ff63ff000000000000040341fe68f0af33c4068e726d9eef1e5409425a09ac33e5b40b7e431944f266b40d60f2366a9286740f07120dc4a73ad41043d57db61e98d4114dcce6aa9852541222444dc8c840f412aa9a74f3ab16f41307bf37f295cc94130ef967181d30b412c2eda9f49ad0541220166b0da22c5410ebe8d2f44297a,
  0x411398830fec92a64133208c12470f154149a96849b50f3b415b486ea1cbf80d416857a282a6237a4172caab218813794179927d98a434ce417f0a8f15ad752e4180f07a6a049ca34180b5acfe42b800417de42396b8d822417847cc648143514171ea6b3495359a4167fd86f618edcf415d14a7ba396e7d414fca69e0cedc57413f2c5f00000000412b37e32fd2d7f84114f3e1dbb5a18940fc107fffedc19b40e00e1757c22eff40be94bebf8a4122409753884fbba43e406ac7c5735a6f9040349d93405be8483ff0000000000000403465655f122ff64069a76913285548409529d65330453140b9aeb5ec811fad40d85d5173d4eedc40f2bf250c4947ce4107f41f478f65844119ccf1485112324127a3c00902a21d4132803e5f4b9d144138b8068c0831e6413c0489ab383de1413a923ac5a541b841348786a15da5c841287b94924679b5411398830fec92a6,
  0x4117c36a10ebf7a74136446b0efe9e3b414ca140200f4374415d1d7be24a1a644168cbda3ac53bf241723b08b0bf40824177917a32449dc8417b1a5d766dc76c417befe72d1c1ca94179efed96ce7a544175bfbfbbca7dae41707d25ab5b6af341669852de59c474415bedc9b0d481c6414f089d314e92e2413ed76bc05e83b8412b37e32fd2d7f841151fe00000000040fc7538e24b7c6a40e055fe4740eb5840bf26bf8ebf1cb04097bbffa9b62e3d406b27e28a6544ba4034c8dc2e42397f3ff000000000000040349d93405be848406a479d5f29b62940960946c5832f8340bb44b9348ea6ee40da790e7dc6516040f4edbbd2458ef9410b9aebf080ea81411edd0eff9ae4bf412d8cb00b434aa441385e00528574be414156307438a6c341453ba648f708af41463723faa3e36941439045137fb4a4413c37078b306eff412f8b97aa9360294117c36a10ebf7a7,
  0x411b7085941d63c94138a403b3ddcb4a414e4dd4ffd42717415d6ab9628c9c074167dc394ffeeadd4170aa500f5346a9417469250729697b41762afa6a166cc8417581899afab0a94172b7f490a6a779416d4c98b4b824014164a05748dc3a1f415a172964f3fd20414d8fe00eed7105413ddcb55ae50336412ab5a2945f8d974114f3e1dbb5a18940fc7538e24b7c6a40e06e200000000040bf703ff387fcdf4097faf6ce13d68a406b67f57dcd877a4034e790422e898e3ff00000000000004034c8dc2e42397f406ac7c5735a6f904096c2490730229640bca03baacbdfee40dc5694a3a3705640f6ed1a6a48a180410f122bf23b6ce54121ee19a9eda20b4131d1ada53ba4b3413eb5743b9d07f941470561fea72f4e414e072b583c7fb44150f94d55bf2b5f41507d9b65665116414b1ba988a31bff4142537ec941900d413348b4fc11c07d411b7085941d63c9,
  0x411e30a77fe628d74139ee925376065d414e71418ffe35f0415c24de2935eaad4165afb937c23da3416cb3132f4b016541709931907f9e054170f7894e2f8bcb416edcf79f56353741691272dd9dcb2e4162386dafffbe1c4157ae3b2a7134f9414b752afe66c08b413c48694e1a00f84129b68727de55fb4114716a43e6109e40fc107fffedc19b40e055fe4740eb5840bf703ff387fcdf4098100000000000406b87fed67276aa4034f9e6bbc4ecb33ff00000000000004034e790422e898e406b27e28a6544ba409753884fbba43e40bdbc3d7a08d25b40ddebab3c5b278a40f8aee789fac45641111dd1a88fd87141244c32b6aa2d674134d2c67fffb4b341429ffd8eafbb81414d2e016372166341540d452ddb1993415824a52f4542f0415958536f955aff4156fb62898d58984151b573d9c3abc441468908a31c98f74136654fd3b76296411e30a77fe628d7,
  0x411fa9e189d4ec994139f61c7367f979414d0694012e29cd41597e17e449e4d641629c064c5f190f416742630df398bd41695250bfe827ca416844195fffdba74164994b2ffbc754415f13ad095bee424154d8d46411e7524148d61f23703e9b413a2e0c7589694b4128451d7ecad8f641139cf48f96b14440fb49cfcc87f6c640e00e1757c22eff40bf26bf8ebf1cb04097faf6ce13d68a406b87fed67276aa40350000000000003ff00000000000004034f9e6bbc4ecb3406b67f57dcd877a4097bbffa9b62e3d40be94bebf8a412240df2fc8e9bff57540fa269b6a1e41b041127dcd5469c9e04126709cf708111c4137a75a9ba7da1a4145d6f6e2bd6c3d4151c219bc348825415980d6fe74ada541602d663fffe7c441621639ada5d3474161b8acfe70745f415e212ec4cabadc4155d9cb55f631dc414a42e76ec83e344138b9a130f54f1e411fa9e189d4ec99,
  0x411fa9e189d4ec994138b9a130f54f1e414a42e76ec83e344155d9cb55f631dc415e212ec4cabadc4161b8acfe70745f41621639ada5d34741602d663fffe7c4415980d6fe74ada54151c219bc3488254145d6f6e2bd6c3d4137a75a9ba7da1a4126709cf708111c41127dcd5469c9e040fa269b6a1e41b040df2fc8e9bff57540be94bebf8a41224097bbffa9b62e3d406b67f57dcd877a4034f9e6bbc4ecb33ff00000000000004035000000000000406b87fed67276aa4097faf6ce13d68a40bf26bf8ebf1cb040e00e1757c22eff40fb49cfcc87f6c641139cf48f96b1444128451d7ecad8f6413a2e0c7589694b4148d61f23703e9b4154d8d46411e752415f13ad095bee424164994b2ffbc754416844195fffdba741695250bfe827ca416742630df398bd41629c064c5f190f41597e17e449e4d6414d0694012e29cd4139f61c7367f979411fa9e189d4ec99,
  0x411e30a77fe628d74136654fd3b7629641468908a31c98f74151b573d9c3abc44156fb62898d5898415958536f955aff415824a52f4542f041540d452ddb1993414d2e016372166341429ffd8eafbb814134d2c67fffb4b341244c32b6aa2d6741111dd1a88fd87140f8aee789fac45640ddebab3c5b278a40bdbc3d7a08d25b409753884fbba43e406b27e28a6544ba4034e790422e898e3ff00000000000004034f9e6bbc4ecb3406b87fed67276aa409810000000000040bf703ff387fcdf40e055fe4740eb5840fc107fffedc19b4114716a43e6109e4129b68727de55fb413c48694e1a00f8414b752afe66c08b4157ae3b2a7134f94162386dafffbe1c41691272dd9dcb2e416edcf79f5635374170f7894e2f8bcb41709931907f9e05416cb3132f4b01654165afb937c23da3415c24de2935eaad414e71418ffe35f04139ee925376065d411e30a77fe628d7,
  0x411b7085941d63c9413348b4fc11c07d4142537ec941900d414b1ba988a31bff41507d9b656651164150f94d55bf2b5f414e072b583c7fb441470561fea72f4e413eb5743b9d07f94131d1ada53ba4b34121ee19a9eda20b410f122bf23b6ce540f6ed1a6a48a18040dc5694a3a3705640bca03baacbdfee4096c24907302296406ac7c5735a6f904034c8dc2e42397f3ff00000000000004034e790422e898e406b67f57dcd877a4097faf6ce13d68a40bf703ff387fcdf40e06e200000000040fc7538e24b7c6a4114f3e1dbb5a189412ab5a2945f8d97413ddcb55ae50336414d8fe00eed7105415a172964f3fd204164a05748dc3a1f416d4c98b4b824014172b7f490a6a779417581899afab0a941762afa6a166cc8417469250729697b4170aa500f5346a94167dc394ffeeadd415d6ab9628c9c07414e4dd4ffd427174138a403b3ddcb4a411b7085941d63c9,
  0x4117c36a10ebf7a7412f8b97aa936029413c37078b306eff41439045137fb4a441463723faa3e36941453ba648f708af414156307438a6c341385e00528574be412d8cb00b434aa4411edd0eff9ae4bf410b9aebf080ea8140f4edbbd2458ef940da790e7dc6516040bb44b9348ea6ee40960946c5832f83406a479d5f29b62940349d93405be8483ff00000000000004034c8dc2e42397f406b27e28a6544ba4097bbffa9b62e3d40bf26bf8ebf1cb040e055fe4740eb5840fc7538e24b7c6a41151fe000000000412b37e32fd2d7f8413ed76bc05e83b8414f089d314e92e2415bedc9b0d481c641669852de59c47441707d25ab5b6af34175bfbfbbca7dae4179efed96ce7a54417befe72d1c1ca9417b1a5d766dc76c4177917a32449dc841723b08b0bf40824168cbda3ac53bf2415d1d7be24a1a64414ca140200f43744136446b0efe9e3b4117c36a10ebf7a7,
  0x411398830fec92a641287b94924679b541348786a15da5c8413a923ac5a541b8413c0489ab383de14138b8068c0831e64132803e5f4b9d144127a3c00902a21d4119ccf1485112324107f41f478f658440f2bf250c4947ce40d85d5173d4eedc40b9aeb5ec811fad409529d6533045314069a76913285548403465655f122ff63ff000000000000040349d93405be848406ac7c5735a6f90409753884fbba43e40be94bebf8a412240e00e1757c22eff40fc107fffedc19b4114f3e1dbb5a189412b37e32fd2d7f8413f2c5f00000000414fca69e0cedc57415d14a7ba396e7d4167fd86f618edcf4171ea6b3495359a417847cc64814351417de42396b8d8224180b5acfe42b8004180f07a6a049ca3417f0a8f15ad752e4179927d98a434ce4172caab21881379416857a282a6237a415b486ea1cbf80d4149a96849b50f3b4133208c12470f15411398830fec92a6,
  0x410ebe8d2f44297a41220166b0da22c5412c2eda9f49ad054130ef967181d30b41307bf37f295cc9412aa9a74f3ab16f41222444dc8c840f4114dcce6aa9852541043d57db61e98d40f07120dc4a73ad40d60f2366a9286740b7e431944f266b409425a09ac33e5b4068e726d9eef1e540341fe68f0af33c3ff0000000000000403465655f122ff6406a479d5f29b6294096c2490730229640bdbc3d7a08d25b40df2fc8e9bff57540fb49cfcc87f6c64114716a43e6109e412ab5a2945f8d97413ed76bc05e83b8414fca69e0cedc57415d7914000000004168b6bd872934524172d1cf704f7f20417a19c853119a07418081ee2942363c41830d4cff65d8ff41840c395a5110c2418331bafc62859a4180a93a2e120c1c417a1422fd09fdd64172405286ff08b24166915067feb8ee415831b259029b354145ceec3835f6a5412f35a0ee46e6ef410ebe8d2f44297a,
  0x4106ea5cdba759e241190d341bcfb63d4122349de05406b64124327d70b01969412205340b49a042411a7f6397f878fd411039f5e12e840041009630549dba9140ec28f6e0c7a86540d39badb0965cce40b5ec2bd06344e74092fea85fa6c2da406806d45c92a8e94033cc8a99af54523ff000000000000040341fe68f0af33c4069a7691328554840960946c5832f8340bca03baacbdfee40ddebab3c5b278a40fa269b6a1e41b041139cf48f96b1444129b68727de55fb413ddcb55ae50336414f089d314e92e2415d14a7ba396e7d4168b6bd872934524173210bc0000000417b0d77fe5ed0b341818246a65d48904184c3535056d1e641868dc0859b32db41866a003b86e12c4184549317c8250a4180c3cd59866c534178fdd7451b122a4170b207d798c3814163bf0d6478fd5241544992925574f441418e2a8607e1e6412828291ad16fbb4106ea5cdba759e2,
  0x4100342515ddf406411072e76e295972411611854539c1e54116714830c09a3b41123409ff218339410817082c64112540fa39d060d4fe4e40e775048d05a7a040d1114acee6dae340b3cea41799d8a24091b751b5508c114067066e67ba906940336a9ef26f762e3ff00000000000004033cc8a99af54524068e726d9eef1e5409529d65330453140bb44b9348ea6ee40dc5694a3a3705640f8aee789fac45641127dcd5469c9e04128451d7ecad8f6413c48694e1a00f8414d8fe00eed7105415bedc9b0d481c64167fd86f618edcf4172d1cf704f7f20417b0d77fe5ed0b34181da93800000004185aa889626e72f41882e7998413fa44188cecda07f0c4341875b4bbf548a544184204416ba795d417f9cb3220c9ee741767dc357681e18416cbe63ef25f18c41604a34950a5a85415011197ffe3fde413abc9c8a05f9af4121b6d1d918d67b4100342515ddf406,
  0x40f5b2a608f302c7410454f132e244464109013b84e7088741071df1088bcf354100e01373f4c9a240f3d9e49236319340e2e8e7fa70d26340ccfe946106af8e40b1949996fa99cf4090526bb68dd8264065e5f090a5880f4032f9422c23c47d3ff000000000000040336a9ef26f762e406806d45c92a8e9409425a09ac33e5b40b9aeb5ec811fad40da790e7dc6516040f6ed1a6a48a18041111dd1a88fd8714126709cf708111c413a2e0c7589694b414b752afe66c08b415a172964f3fd2041669852de59c4744171ea6b3495359a417a19c853119a0741818246a65d48904185aa889626e72f4188bef3f8000000418a15a07513d4e841895a03f50136e84186acd8a6c9377041829bc1f20690fd417be65ad585ad7c4172fcacecf6a56e416741165e75704d41594da8ce038d2c4147ff3a104a265e41333a28eb0adcdc4118914e1d7c128040f5b2a608f302c7,
  0x40eb7222ed9f4c8940f79323cedb6e1840fa5b7dd36b90a540f5ee4096620d1a40ec760411252a0d40dd4b7fe4b106ee40c7eb50d63349cf40ae9015fcd3f7cf408da67a6e5120e74064a554a4fbc4ea40327757ebaf93683ff00000000000004032f9422c23c47d4067066e67ba90694092fea85fa6c2da40b7e431944f266b40d85d5173d4eedc40f4edbbd2458ef9410f122bf23b6ce541244c32b6aa2d674137a75a9ba7da1a4148d61f23703e9b4157ae3b2a7134f94164a05748dc3a1f41707d25ab5b6af3417847cc64814351418081ee2942363c4184c3535056d1e641882e7998413fa4418a15a07513d4e8418a0c5f2000000041880cf821f8a1f441847cb9790147bc41800c73ba772d4641770407490b08c9416e05671b351f494161a6135e17ec384152771d0094055f4140dd050ec974bd412a0ed0c278e35d411012de3b959c8540eb7222ed9f4c89,
  0x40e0595a5295ae0840e9886c468b85ee40e9b12612a6a3f740e30075fe919d1940d593d69d6975d840c30972b41a8f0a40a9e7ec3c7f19bc408a7b2b07fb8cc440634491be50521a4031e3779b97f4a73ff000000000000040327757ebaf93684065e5f090a5880f4091b751b5508c1140b5ec2bd06344e740d60f2366a9286740f2bf250c4947ce410b9aebf080ea814121ee19a9eda20b4134d2c67fffb4b34145d6f6e2bd6c3d4154d8d46411e7524162386dafffbe1c416d4c98b4b824014175bfbfbbca7dae417de42396b8d82241830d4cff65d8ff41868dc0859b32db4188cecda07f0c4341895a03f50136e841880cf821f8a1f4418526152800000041813246740aa3cf4179c52b1f7684374171b5786b87582741662ccd885bdee6415911d12d6d799e4149420e38edc84841363e34c9a8738f412097bdec0b9f3a4103c9ba5045baff40e0595a5295ae08,
  0x40d2475de0bf5afa40d9b12612a6a3f740d6fac7d9172bbc40cdbe15f03bb10040bcf301be932bb640a548ae3a1cdfc140872bc5a6fc1b2c4061c39aad23f46440313bd2f90a1cb43ff00000000000004031e3779b97f4a74064a554a4fbc4ea4090526bb68dd82640b3cea41799d8a240d39badb0965cce40f07120dc4a73ad4107f41f478f6584411edd0eff9ae4bf4131d1ada53ba4b341429ffd8eafbb814151c219bc348825415f13ad095bee4241691272dd9dcb2e4172b7f490a6a7794179efed96ce7a544180b5acfe42b80041840c395a5110c241866a003b86e12c41875b4bbf548a544186acd8a6c9377041847cb9790147bc41813246740aa3cf417abfda000000004173353d31853b03416957c652b22350415e8384a986bf4841509c0d4c044f8041402302e8ac82f0412b70e686c95baf4113c9ba5045baff40f6d65abb3ecaa340d2475de0bf5afa,
  0x40c317706ad3cc1740c7da516b0a0b0b40c2aaf324c8a15240b4b5c4cd8d13eb40a0cc4d648349274083c2a1d9939a404060225b1d5e28c640307e0f66afed063ff000000000000040313bd2f90a1cb440634491be50521a408da67a6e5120e740b1949996fa99cf40d1114acee6dae340ec28f6e0c7a86541043d57db61e98d4119ccf148511232412d8cb00b434aa4413eb5743b9d07f9414d2e0163721663415980d6fe74ada54164994b2ffbc754416edcf79f563537417581899afab0a9417befe72d1c1ca94180f07a6a049ca3418331bafc62859a4184549317c8250a4184204416ba795d41829bc1f20690fd41800c73ba772d464179c52b1f7684374173353d31853b03416a7b5f800000004160cc5192447050415379f90d4b92294144722e60951bd441332dd4ef0b9bcf411f86ff06a10d2e410600556b5a2bd740e89923f6625b6340c317706ad3cc17,
  0x40b285832dc1b0ef40b43f7fb28f77e640ab2a64b7ed25d140991d56c8d2560840804be7f22f8974405cc16423e7b94b402f4e115049ec253ff000000000000040307e0f66afed064061c39aad23f464408a7b2b07fb8cc440ae9015fcd3f7cf40ccfe946106af8e40e775048d05a7a041009630549dba914114dcce6aa985254127a3c00902a21d41385e00528574be41470561fea72f4e41540d452ddb199341602d663fffe7c4416844195fffdba74170f7894e2f8bcb41762afa6a166cc8417b1a5d766dc76c417f0a8f15ad752e4180a93a2e120c1c4180c3cd59866c53417f9cb3220c9ee7417be65ad585ad7c41770407490b08c94171b5786b875827416957c652b223504160cc519244705041548588000000004146f1a06233fb7f41374166e12e396341251655acc0d3674110c5e1461ec29940f6adad398bb0b640d8963fa1f75abd40b285832dc1b0ef,
  0x40a090f008a98844409f0be0d23398ef40915affbd9f8b584079ac16200f654d4058fccc98584fe6402d64d51e0db1c53ff0000000000000402f4e115049ec254060225b1d5e28c640872bc5a6fc1b2c40a9e7ec3c7f19bc40c7eb50d63349cf40e2e8e7fa70d26340fa39d060d4fe4e411039f5e12e840041222444dc8c840f4132803e5f4b9d14414156307438a6c3414e072b583c7fb4415824a52f4542f041621639ada5d34741695250bfe827ca41709931907f9e05417469250729697b4177917a32449dc84179927d98a434ce417a1422fd09fdd64178fdd7451b122a41767dc357681e184172fcacecf6a56e416e05671b351f4941662ccd885bdee6415e8384a986bf48415379f90d4b92294146f1a06233fb7f4138c478000000004128445d8223c64d41154b705bd498174100689da43dd71f40e58377adb86f6540c6a353ee9af4d940a090f008a98844,
  0x408b0d6c123b619140851fd89d6521ad4072e4ecb563c2944054f6160a735086402b33f3f1490dee3ff0000000000000402d64d51e0db1c5405cc16423e7b94b4083c2a1d9939a4040a548ae3a1cdfc140c30972b41a8f0a40dd4b7fe4b106ee40f3d9e492363193410817082c641125411a7f6397f878fd412aa9a74f3ab16f4138b8068c0831e641453ba648f708af4150f94d55bf2b5f415958536f955aff4161b8acfe70745f416742630df398bd416cb3132f4b01654170aa500f5346a941723b08b0bf40824172caab218813794172405286ff08b24170b207d798c381416cbe63ef25f18c416741165e75704d4161a6135e17ec38415911d12d6d799e41509c0d4c044f804144722e60951bd441374166e12e39634128445d8223c64d411702800000000041038f77647b5bb840ed3b2cbc92cf4b40d29959028e338a40b3030fc0db04b5408b0d6c123b6191,
  0x4073e3abf005c4f24068d97bee3631de4050ab69cbeeb1944028a85c24f706593ff0000000000000402b33f3f1490dee4058fccc98584fe640804be7f22f897440a0cc4d6483492740bcf301be932bb640d593d69d6975d840ec760411252a0d4100e01373f4c9a241123409ff218339412205340b49a04241307bf37f295cc9413c0489ab383de141463723faa3e36941507d9b656651164156fb62898d5898415e212ec4cabadc41629c064c5f190f4165afb937c23da34167dc394ffeeadd4168cbda3ac53bf2416857a282a6237a4166915067feb8ee4163bf0d6478fd5241604a34950a5a8541594da8ce038d2c4152771d0094055f4149420e38edc84841402302e8ac82f041332dd4ef0b9bcf41251655acc0d36741154b705bd4981741038f77647b5bb840f01fd00000000040d7632fe5cf8cb540bce94b7db1fbfc409cbb774b6ea9a94073e3abf005c4f2,
  0x4059cfd35eafe2ff40482fd05f1298384025a220734903763ff00000000000004028a85c24f706594054f6160a7350864079ac16200f654d40991d56c8d2560840b4b5c4cd8d13eb40cdbe15f03bb10040e30075fe919d1940f5ee4096620d1a41071df1088bcf354116714830c09a3b4124327d70b019694130ef967181d30b413a923ac5a541b841439045137fb4a4414b1ba988a31bff4151b573d9c3abc44155d9cb55f631dc41597e17e449e4d6415c24de2935eaad415d6ab9628c9c07415d1d7be24a1a64415b486ea1cbf80d415831b259029b3541544992925574f4415011197ffe3fde4147ff3a104a265e4140dd050ec974bd41363e34c9a8738f412b70e686c95baf411f86ff06a10d2e4110c5e1461ec2994100689da43dd71f40ed3b2cbc92cf4b40d7632fe5cf8cb540c07a000000000040a3cd67b431d580408325da4b440dd74059cfd35eafe2ff,
  0x403ca2b9714180f64021e3779b97f4a73ff00000000000004025a220734903764050ab69cbeeb1944072e4ecb563c29440915affbd9f8b5840ab2a64b7ed25d140c2aaf324c8a15240d6fac7d9172bbc40e9b12612a6a3f740fa5b7dd36b90a54109013b84e70887411611854539c1e54122349de05406b6412c2eda9f49ad0541348786a15da5c8413c37078b306eff4142537ec941900d41468908a31c98f7414a42e76ec83e34414d0694012e29cd414e71418ffe35f0414e4dd4ffd42717414ca140200f43744149a96849b50f3b4145ceec3835f6a541418e2a8607e1e6413abc9c8a05f9af41333a28eb0adcdc412a0ed0c278e35d412097bdec0b9f3a4113c9ba5045baff410600556b5a2bd740f6adad398bb0b640e58377adb86f6540d29959028e338a40bce94b7db1fbfc40a3cd67b431d58040872800000000004065cd39c5a1322c403ca2b9714180f6,
  0x40199ccc999fff003ff00000000000004021e3779b97f4a740482fd05f1298384068d97bee3631de40851fd89d6521ad409f0be0d23398ef40b43f7fb28f77e640c7da516b0a0b0b40d9b12612a6a3f740e9886c468b85ee40f79323cedb6e18410454f132e24446411072e76e29597241190d341bcfb63d41220166b0da22c541287b94924679b5412f8b97aa936029413348b4fc11c07d4136654fd3b762964138b9a130f54f1e4139f61c7367f9794139ee925376065d4138a403b3ddcb4a4136446b0efe9e3b4133208c12470f15412f35a0ee46e6ef412828291ad16fbb4121b6d1d918d67b4118914e1d7c1280411012de3b959c854103c9ba5045baff40f6d65abb3ecaa340e89923f6625b6340d8963fa1f75abd40c6a353ee9af4d940b3030fc0db04b5409cbb774b6ea9a9408325da4b440dd74065cd39c5a1322c404400000000000040199ccc999fff00,
  0x3ff000000000000040199ccc999fff00403ca2b9714180f64059cfd35eafe2ff4073e3abf005c4f2408b0d6c123b619140a090f008a9884440b285832dc1b0ef40c317706ad3cc1740d2475de0bf5afa40e0595a5295ae0840eb7222ed9f4c8940f5b2a608f302c74100342515ddf4064106ea5cdba759e2410ebe8d2f44297a411398830fec92a64117c36a10ebf7a7411b7085941d63c9411e30a77fe628d7411fa9e189d4ec99411fa9e189d4ec99411e30a77fe628d7411b7085941d63c94117c36a10ebf7a7411398830fec92a6410ebe8d2f44297a4106ea5cdba759e24100342515ddf40640f5b2a608f302c740eb7222ed9f4c8940e0595a5295ae0840d2475de0bf5afa40c317706ad3cc1740b285832dc1b0ef40a090f008a98844408b0d6c123b61914073e3abf005c4f24059cfd35eafe2ff403ca2b9714180f640199ccc999fff003ff0000000000000]

/-- The coefficients for `2 ell = 42`: one number for each of the 43 values of `mp`, consisting of the doubles for the 43 values of `m`. -/
def wigner42 : List Nat := [
  0x3ff00000000000004019ec474a261263403d57c1d6d9269e405ac943c75d7c3e4074e8f359c00303408cd2887efaf2db40a1e4bc76a50b9640b44a110dac892d40c53815bb56855740d49f09a10a36fd40e2baec8d3a4b5d40eff23ff9bd4f5740f9ac594cad23894103800eaabf683c410c10cc33a7956c41132c26b4af68d94118e7e01c305268411ecd01935aa3a341222648d0b6fd36412465f90f9101e34125dff12aa15ee6412663b932a8881d4125dff12aa15ee6412465f90f9101e341222648d0b6fd36411ecd01935aa3a34118e7e01c30526841132c26b4af68d9410c10cc33a7956c4103800eaabf683c40f9ac594cad238940eff23ff9bd4f5740e2baec8d3a4b5d40d49f09a10a36fd40c53815bb56855740b44a110dac892d40a1e4bc76a50b96408cd2887efaf2db4074e8f359c00303405ac943c75d7c3e403d57c1d6d9269e4019ec474a2612633ff0000000000000,
  0x4019ec474a26126340448000000000004066a3724d10762c4084263b7515f523409ea6cb0070dd8f40b491b65920f21840c8d9680cfe4c6640db64ca9baad30440ebd49b0986509e40fa403a92e3389f41071efb93df39c4411319fbe7feb943411db6040bf6d6bb4125d09c66427523412e5077eb86ea174133f812ba6e34194138fad2b66761b3413db4449526f5914140cd9f9eefe7b14142192a5d6877904142907e770f6c524142233a068d6d384140e072f7df79bf413de6cb8f3229b64139346f6e67db8a413432e6f4c89281412ebe8d2f44297a41263014cf251d71411e5077eb86ea1741138ee47efdca1f4107c4d00992456240fb1c9f59cca3dc40ece6ba78d7083540dca328a03db22240ca3182dbc9b54a40b5ea3bafbbdc0340a090f008a9884440863ca9751cb2b34069cfd35eafe2ff4048cc97f2912db540221c5b70d9f8233ff00000000000004019ec474a261263,
  0x403d57c1d6d9269e4066a3724d10762c408860000000000040a5237fb5d2b9bc40bf4f6ee8b700fa40d471817c5e285340e802df99f6e2e940f9b6aec65f52ef41095af19f07159241173100402964ae4123c9ba5045baff412fa4203e2875ee4137c997f08a1e6b4140dd050ec974bd414698c0a4d5df2e414caaf1491fb2ec41513db01e151f7b4153ae81656c8de1415556e6990957a34155fc1f75a94935415586aa0b847e744154079608310afd4151b494baca1191414db7f9f50f55cf4147a8b1bfee881f4141d83eb4b457ae413976ad7742a4a6413126d1fffd15b74125c2809ebafcd74119eb06832e0f7b410cdf81b134e39940fdf0a2a36b1a4140ecb979cf5cf6ac40d94cba748a3f4a40c43f7fb28f77e640ad0a8f2e5996e440924b55079788504073a531dc38a7e740511a460cc58e304025e8add236a58e3ff000000000000040221c5b70d9f823403d57c1d6d9269e,
  0x405ac943c75d7c3e4084263b7515f52340a5237fb5d2b9bc40c1d9800000000040d9b959b31d281640f054536db67f484102a19b54ac6e0541135d8a4d3ad6df41228450ad2aa5eb413068479338f5d0413b188890113f6b4144f0eafab91132414e669e3837b3ec4154c830c3453088415ad0f3be71311241605b312a2878fc4162e2f3f22a2f354164a96e515677be41656d9d9a3d4340416512a3237671944163a686726dab2841615ec87559c8e4415d17ca6045468c41570f55dd5feea04151472f2455d31041486f53b70215664140457f760cb67441345aba5698c4124127d62dfe9d80f3411a069d30837c88410a5b7dd36b90a540f89923f6625b6340e4fa382d78b53a40d02ab121345f1040b62e3d0baa3029409a82cb05ca63c2407ab871c62a351840558534f36e5e9a4028fae0c15ad3893ff00000000000004025e8add236a58e4048cc97f2912db5405ac943c75d7c3e,
  0x4074e8f359c00303409ea6cb0070dd8f40bf4f6ee8b700fa40d9b959b31d281640f2057000000000410639cbffee5ce141189cec765cc2af4128cebbefea38e74136fab2e5d5998f4143b45f6424a83c414f74d2d9eeec33415779098537dc2441606dfad91c92b84165a16e086c3878416ad673602050c4416f6dd915e32f2c417163b82ff9df8e4172326d6d6e507e4172039b9f19563b4170df2aa1570c52416de485d2cf31e64169087f15e7f6214163cc8dd4c513c0415d8a52549120024154c01284ac0075414b6393e81930194140ef967181d30b41338e4e2fc08f214124fe381dae53a84114d65c4415dc704102fe15c9cc1e0c40ef82cbbbaa623b40d783769939004a40bf10a734539de040a1c23aad4a96614080fb06cd4a13c84059ac16200f654d402b916ed68964ec3ff00000000000004028fae0c15ad38940511a460cc58e304069cfd35eafe2ff4074e8f359c00303,
  0x408cd2887efaf2db40b491b65920f21840d471817c5e285340f054536db67f48410639cbffee5ce1411a9ae400000000412c91df6e2e89c6413be55354bc9101414901a32df75eb84154ba6153163d85415ff2fc36f9dc314166fd3565d322cd416efd7ae93300eb41739d979f2f509641775d37f38a4002417a38a1e3366fe6417bc128283df7f8417bb91d63dcc42d417a2339588b4fe94177418f68dfe1df4173848d18953779416edfa90b3b7b3c4166fb62898d5898416012b6aa7cf4934155134b954ef07f4149d4c0ca0ecbb2413d7ce0cca7063e412f364d70685f9a411e75bc9e3714de410b35e9c8e5123840f60bb94053e17b40e00096913b8bde40c4785f88505af640a6897602c967ee40849d171144bd4e405d90cb7d88ecb4402dcca0d0cbf4083ff0000000000000402b916ed68964ec40558534f36e5e9a4073a531dc38a7e740863ca9751cb2b3408cd2887efaf2db,
  0x40a1e4bc76a50b9640c8d9680cfe4c6640e802df99f6e2e94102a19b54ac6e0541189cec765cc2af412c91df6e2e89c6413db89000000000414c156a7128cf89415855ebf3ee161e416379f90d4b9229416cf2a827f8c56441740edc84259df24179ffc107f2aa8f417f98a72770b6644182087b0ff31bd241835bbf0a3f163341838f1a3dc77e6041829b45860046ab4180aa500f5346a9417c1861e1eefb53417644e4369e677b417093abed4f2994416723010d86a75b415e348590c02b8b415263691ce46efc4144cdd3beaa61b74135c51f6f0f04df4124f2bd6a50a28941126625fff2d8dd40fd3857ff7b7d0a40e4b6f26f4dc51b40c9c6ae0bd3d82e40ab7a37644dcea240883388ac0d3d2a40609a19e69f4bee402fbfbf7ebc755e3ff0000000000000402dcca0d0cbf4084059ac16200f654d407ab871c62a351840924b550797885040a090f008a9884440a1e4bc76a50b96,
  0x40b44a110dac892d40db64ca9baad30440f9b6aec65f52ef41135d8a4d3ad6df4128cebbefea38e7413be55354bc9101414c156a7128cf894159a6ea0000000041657646453968834170902bde340e4c4177b4c1ed9bea5d417f96a5866ca4764183a746f1cb4b794186e3ada37150734188fdd7451b122a41899bd608a267434188a45b2fda042e41864519a6965e644182e58b3f27b90f417e165148cb8c78417671f55ff3d40c416f53c9153cf419416467993ff4ef514158bc5710566552414bccef94abfb1d413cd4e71294b319412b6d7987a04be34117c0c6862754a641028b6225ec049340e9c50b07ca6a7d40cf514d62d6f51e40b03cc710ab26d4408bb1d2dd8df3ff40624b622600bc194030bbb307acafda3ff0000000000000402fbfbf7ebc755e405d90cb7d88ecb44080fb06cd4a13c8409a82cb05ca63c240ad0a8f2e5996e440b5ea3bafbbdc0340b44a110dac892d,
  0x40c53815bb56855740ebd49b0986509e41095af19f07159241228450ad2aa5eb4136fab2e5d5998f414901a32df75eb8415855ebf3ee161e4165764645396883417150aac00000004179bc5dc942f0704181b5786b8758274186a73c1c76a904418b038e29559859418e180547d9ab7c418f5d3a02afd665418e9bb90b42bbc2418bfaee714f3dd14187f4b4cd271cec418332acde8dc297417cc4d2ff0203a941741eccecab4b2a416a35d57c9e0c10415fb469b2fe66ed4151bd280b87d1b0414246803de4178e41313aeed886769e411d810a6cef9e184106b6555db067b540ef07e44ed7071140d27afc1a9f003840b2b741291321de408f0d477a7a3b8a4063dc6045fca99340317e2bca46bab93ff00000000000004030bbb307acafda40609a19e69f4bee40849d171144bd4e40a1c23aad4a966140b62e3d0baa302940c43f7fb28f77e640ca3182dbc9b54a40c53815bb568557,
  0x40d49f09a10a36fd40fa403a92e3389f41173100402964ae413068479338f5d04143b45f6424a83c4154ba6153163d85416379f90d4b92294170902bde340e4c4179bc5dc942f070418263e5e000000041884bdebc68de9a418dc8f6de4b06c34190fcb221a7441e4192104cdbf6fc254191ee00daf409d641909f6a5564f5ad418cca987a93c867418747eb504217e241818f40a7e8f5804178ab48df10d4d441701a52c4ac5a4141637a7bd8f711374155bfd034db7d3a41464f36c546dfa34134e50abd41ba194121bad006c1f996410afc7524828cbc40f22d5dd244ecf140d54976ff7fd2b040b5210c481d5f0240911e5d5a42497e40654d2919e6863540322a788fc76de53ff000000000000040317e2bca46bab940624b622600bc1940883388ac0d3d2a40a6897602c967ee40bf10a734539de040d02ab121345f1040d94cba748a3f4a40dca328a03db22240d49f09a10a36fd,
  0x40e2baec8d3a4b5d41071efb93df39c44123c9ba5045baff413b188890113f6b414f74d2d9eeec33415ff2fc36f9dc31416cf2a827f8c5644177b4c1ed9bea5d4181b5786b87582741884bdebc68de9a418ec30780000000419209252b32901c4193a324f48c0f714193e32fded3ec174192c0c188b464664190788d643bd145418af18b7e8aaa8b41848152f598b3d5417cffaa4fb8a792417303079a5cd96341670c16511cde9e4159bbecf0b2ff19414a56f4eefc6c2241388fd6f0c446f64124b430f460afe0410f3b4f23d2ac7140f4cc2c4bfb237740d803d351f36b3540b76fa9cf98232e40929c21f5fdd08040669dca256b860e4032c2fc595456a63ff000000000000040322a788fc76de54063dc6045fca993408bb1d2dd8df3ff40ab7a37644dcea240c4785f88505af640d783769939004a40e4fa382d78b53a40ecb979cf5cf6ac40ece6ba78d7083540e2baec8d3a4b5d,
  0x40eff23ff9bd4f57411319fbe7feb943412fa4203e2875ee4144f0eafab91132415779098537dc244166fd3565d322cd41740edc84259df2417f96a5866ca4764186a73c1c76a904418dc8f6de4b06c3419209252b32901c41942ffcec0000004194eef43224dcc4419423dcc5bf41504191fddc5bb9efd8418dd943037f72e44186fa3efd7228dc418064d94393fbb54175a38ec1c37b46416a58c09e8ffe22415d7b6ab83ebe49414e2d070730a44a413c14041d2f90a741279092d6f673ff4111a804ad2a6cc940f74e1ea669502340da9ab47cd19dbd40b9999a9dccc7a24093fc87b2f1086c4067ce4c89a4b7134033498c97b105403ff00000000000004032c2fc595456a640654d2919e68635408f0d477a7a3b8a40b03cc710ab26d440c9c6ae0bd3d82e40e00096913b8bde40ef82cbbbaa623b40f89923f6625b6340fdf0a2a36b1a4140fb1c9f59cca3dc40eff23ff9bd4f57,
  0x40f9ac594cad2389411db6040bf6d6bb4137c997f08a1e6b414e669e3837b3ec41606dfad91c92b8416efd7ae93300eb4179ffc107f2aa8f4183a746f1cb4b79418b038e295598594190fcb221a7441e4193a324f48c0f714194eef43224dcc441949f20a40000004192cbbe02325a50418fb74b31f64afb4188c2e53de3515a4181deb429b692f54177ccb37b744310416d2b87a0878beb41606463b46185694150d077fc654399413f4a7af593abf0412a34434d7fe45c41138c63d257ad6940f9a1db5a1834a740dcffe4bff3326f40bb965f436f85a540953c9dd929e9434068deb6a3dd4ebf4033bf984cb56c773ff00000000000004033498c97b1054040669dca256b860e40911e5d5a42497e40b2b741291321de40cf514d62d6f51e40e4b6f26f4dc51b40f60bb94053e17b4102fe15c9cc1e0c410a5b7dd36b90a5410cdf81b134e3994107c4d00992456240f9ac594cad2389,
  0x4103800eaabf683c4125d09c664275234140dd050ec974bd4154c830c34530884165a16e086c387841739d979f2f5096417f98a72770b6644186e3ada3715073418e180547d9ab7c4192104cdbf6fc254193e32fded3ec17419423dcc5bf41504192cbbe02325a5041902e15ac0000004189b22ec671e6ba4182cebc9b40a4b74179562cf6028825416f5569ea989b9e4161b998ca5e2932415242d56d47f9a24141074e0e0b770d412c8546a044a76e41153afa400e4b4840fbb76656f0c8ce40df268a7826f24940bd5e78215d3ecb409659dfb2994a554069cf0cffdef7f740342641cf5695713ff00000000000004033bf984cb56c774067ce4c89a4b71340929c21f5fdd08040b5210c481d5f0240d27afc1a9f003840e9c50b07ca6a7d40fd3857ff7b7d0a410b35e9c8e512384114d65c4415dc70411a069d30837c884119eb06832e0f7b41138ee47efdca1f4103800eaabf683c,
  0x410c10cc33a7956c412e5077eb86ea17414698c0a4d5df2e415ad0f3be713112416ad673602050c441775d37f38a40024182087b0ff31bd24188fdd7451b122a418f5d3a02afd6654191ee00daf409d64192c0c188b464664191fddc5bb9efd8418fb74b31f64afb4189b22ec671e6ba4183210bc0000000417a22a3701aad5c417058bed1dca9404162a92727f5aa4741535a56591e0ca1414220297a0abff4412e6c8d56f0136d4116a5b32685a7a940fd80890e7c31de40e081aa5336838040beeb6579c52d944097522a73a0c20f406a9f52ebc63a7240347e7054af09893ff000000000000040342641cf5695714068deb6a3dd4ebf4093fc87b2f1086c40b76fa9cf98232e40d54976ff7fd2b040ef07e44ed7071141028b6225ec049341126625fff2d8dd411e75bc9e3714de4124fe381dae53a84127d62dfe9d80f34125c2809ebafcd7411e5077eb86ea17410c10cc33a7956c,
  0x41132c26b4af68d94133f812ba6e3419414caaf1491fb2ec41605b312a2878fc416f6dd915e32f2c417a38a1e3366fe641835bbf0a3f163341899bd608a26743418e9bb90b42bbc241909f6a5564f5ad4190788d643bd145418dd943037f72e44188c2e53de3515a4182cebc9b40a4b7417a22a3701aad5c4170941b40000000416324ac08048b6e41540839ef47aa314142e2f0294774b3412fd70083fffeee4117c0adc9842b3740fef12a7a602cf440e1464fd8601f6d40c01bd3bd37a66a409823b56f65137c406b4f8ad56cf64e4034c8dc2e42397f3ff000000000000040347e7054af09894069cf0cffdef7f740953c9dd929e94340b9999a9dccc7a240d803d351f36b3540f22d5dd244ecf14106b6555db067b54117c0c6862754a64124f2bd6a50a289412f364d70685f9a41338e4e2fc08f2141345aba5698c412413126d1fffd15b741263014cf251d7141132c26b4af68d9,
  0x4118e7e01c3052684138fad2b66761b341513db01e151f7b4162e2f3f22a2f35417163b82ff9df8e417bc128283df7f841838f1a3dc77e604188a45b2fda042e418bfaee714f3dd1418cca987a93c867418af18b7e8aaa8b4186fa3efd7228dc4181deb429b692f54179562cf6028825417058bed1dca940416324ac08048b6e4154433dc0000000414346a3583b125341305b2de31418bf411882a4ef4684fa40ffff97208c26bb40e1dd498b4df5dc40c09f5f2187f9854098cd0c13810812406bdfb6871569eb403506177f5491ba3ff00000000000004034c8dc2e42397f406a9f52ebc63a72409659dfb2994a5540bb965f436f85a540da9ab47cd19dbd40f4cc2c4bfb2377410afc7524828cbc411d810a6cef9e18412b6d7987a04be34135c51f6f0f04df413d7ce0cca7063e4140ef967181d30b4140457f760cb674413976ad7742a4a6412ebe8d2f44297a4118e7e01c305268,
  0x411ecd01935aa3a3413db4449526f5914153ae81656c8de14164a96e515677be4172326d6d6e507e417bb91d63dcc42d41829b45860046ab41864519a6965e644187f4b4cd271cec418747eb504217e241848152f598b3d5418064d94393fbb54177ccb37b744310416f5569ea989b9e4162a92727f5aa4741540839ef47aa31414346a3583b1253413080e7000000004118e53de71352a24100525c8af43afa40e2439c51b749b840c0fe94f49f41bd40994d094ed839cb406c4fd74f916266403536948017480f3ff0000000000000403506177f5491ba406b4f8ad56cf64e4097522a73a0c20f40bd5e78215d3ecb40dcffe4bff3326f40f74e1ea6695023410f3b4f23d2ac714121bad006c1f99641313aeed886769e413cd4e71294b3194144cdd3beaa61b74149d4c0ca0ecbb2414b6393e819301941486f53b70215664141d83eb4b457ae413432e6f4c89281411ecd01935aa3a3,
  0x41222648d0b6fd364140cd9f9eefe7b1415556e6990957a341656d9d9a3d43404172039b9f19563b417a2339588b4fe94180aa500f5346a94182e58b3f27b90f418332acde8dc29741818f40a7e8f580417cffaa4fb8a7924175a38ec1c37b46416d2b87a0878beb4161b998ca5e293241535a56591e0ca14142e2f0294774b341305b2de31418bf4118e53de71352a241006e200000000040e27746c1e4d9d140c138353d78b9c34099a2d422f595d1406c9fee1d0b2e2740355aaa002a9d593ff0000000000000403536948017480f406bdfb6871569eb409823b56f65137c40beeb6579c52d9440df268a7826f24940f9a1db5a1834a74111a804ad2a6cc94124b430f460afe04134e50abd41ba19414246803de4178e414bccef94abfb1d415263691ce46efc4155134b954ef07f4154c01284ac00754151472f2455d3104147a8b1bfee881f4139346f6e67db8a41222648d0b6fd36,
  0x412465f90f9101e34142192a5d6877904155fc1f75a94935416512a3237671944170df2aa1570c524177418f68dfe1df417c1861e1eefb53417e165148cb8c78417cc4d2ff0203a94178ab48df10d4d4417303079a5cd963416a58c09e8ffe2241606463b4618569415242d56d47f9a2414220297a0abff4412fd70083fffeee411882a4ef4684fa4100525c8af43afa40e27746c1e4d9d140c14b80000000004099cddd3323abb4406ccffb8eb6e94b403572969b8b5cd83ff000000000000040355aaa002a9d59406c4fd74f9162664098cd0c1381081240c01bd3bd37a66a40e081aa5336838040fbb76656f0c8ce41138c63d257ad6941279092d6f673ff41388fd6f0c446f641464f36c546dfa34151bd280b87d1b04158bc5710566552415e348590c02b8b416012b6aa7cf493415d8a525491200241570f55dd5feea0414db7f9f50f55cf413de6cb8f3229b6412465f90f9101e3,
  0x4125dff12aa15ee64142907e770f6c52415586aa0b847e744163a686726dab28416de485d2cf31e64173848d18953779417644e4369e677b417671f55ff3d40c41741eccecab4b2a41701a52c4ac5a4141670c16511cde9e415d7b6ab83ebe494150d077fc6543994141074e0e0b770d412e6c8d56f0136d4117c0adc9842b3740ffff97208c26bb40e2439c51b749b840c138353d78b9c34099cddd3323abb4406ce0000000000040357e82ecdabe8c3ff0000000000000403572969b8b5cd8406c9fee1d0b2e2740994d094ed839cb40c09f5f2187f98540e1464fd8601f6d40fd80890e7c31de41153afa400e4b48412a34434d7fe45c413c14041d2f90a7414a56f4eefc6c224155bfd034db7d3a415fb469b2fe66ed416467993ff4ef51416723010d86a75b4166fb62898d58984163cc8dd4c513c0415d17ca6045468c4151b494baca11914140e072f7df79bf4125dff12aa15ee6,
  0x412663b932a8881d4142233a068d6d384154079608310afd41615ec87559c8e44169087f15e7f621416edfa90b3b7b3c417093abed4f2994416f53c9153cf419416a35d57c9e0c1041637a7bd8f711374159bbecf0b2ff19414e2d070730a44a413f4a7af593abf0412c8546a044a76e4116a5b32685a7a940fef12a7a602cf440e1dd498b4df5dc40c0fe94f49f41bd4099a2d422f595d1406ccffb8eb6e94b40357e82ecdabe8c3ff000000000000040357e82ecdabe8c406ccffb8eb6e94b4099a2d422f595d140c0fe94f49f41bd40e1dd498b4df5dc40fef12a7a602cf44116a5b32685a7a9412c8546a044a76e413f4a7af593abf0414e2d070730a44a4159bbecf0b2ff1941637a7bd8f71137416a35d57c9e0c10416f53c9153cf419417093abed4f2994416edfa90b3b7b3c4169087f15e7f62141615ec87559c8e44154079608310afd4142233a068d6d38412663b932a8881d,
  0x4125dff12aa15ee64140e072f7df79bf4151b494baca1191415d17ca6045468c4163cc8dd4c513c04166fb62898d5898416723010d86a75b416467993ff4ef51415fb469b2fe66ed4155bfd034db7d3a414a56f4eefc6c22413c14041d2f90a7412a34434d7fe45c41153afa400e4b4840fd80890e7c31de40e1464fd8601f6d40c09f5f2187f98540994d094ed839cb406c9fee1d0b2e27403572969b8b5cd83ff000000000000040357e82ecdabe8c406ce000000000004099cddd3323abb440c138353d78b9c340e2439c51b749b840ffff97208c26bb4117c0adc9842b37412e6c8d56f0136d4141074e0e0b770d4150d077fc654399415d7b6ab83ebe4941670c16511cde9e41701a52c4ac5a4141741eccecab4b2a417671f55ff3d40c417644e4369e677b4173848d18953779416de485d2cf31e64163a686726dab28415586aa0b847e744142907e770f6c524125dff12aa15ee6,
  0x412465f90f9101e3413de6cb8f3229b6414db7f9f50f55cf41570f55dd5feea0415d8a5254912002416012b6aa7cf493415e348590c02b8b4158bc57105665524151bd280b87d1b041464f36c546dfa341388fd6f0c446f641279092d6f673ff41138c63d257ad6940fbb76656f0c8ce40e081aa5336838040c01bd3bd37a66a4098cd0c13810812406c4fd74f91626640355aaa002a9d593ff0000000000000403572969b8b5cd8406ccffb8eb6e94b4099cddd3323abb440c14b800000000040e27746c1e4d9d14100525c8af43afa411882a4ef4684fa412fd70083fffeee414220297a0abff4415242d56d47f9a241606463b4618569416a58c09e8ffe22417303079a5cd9634178ab48df10d4d4417cc4d2ff0203a9417e165148cb8c78417c1861e1eefb534177418f68dfe1df4170df2aa1570c52416512a3237671944155fc1f75a949354142192a5d687790412465f90f9101e3,
  0x41222648d0b6fd364139346f6e67db8a4147a8b1bfee881f4151472f2455d3104154c01284ac00754155134b954ef07f415263691ce46efc414bccef94abfb1d414246803de4178e4134e50abd41ba194124b430f460afe04111a804ad2a6cc940f9a1db5a1834a740df268a7826f24940beeb6579c52d94409823b56f65137c406bdfb6871569eb403536948017480f3ff000000000000040355aaa002a9d59406c9fee1d0b2e274099a2d422f595d140c138353d78b9c340e27746c1e4d9d141006e20000000004118e53de71352a241305b2de31418bf4142e2f0294774b341535a56591e0ca14161b998ca5e2932416d2b87a0878beb4175a38ec1c37b46417cffaa4fb8a79241818f40a7e8f580418332acde8dc2974182e58b3f27b90f4180aa500f5346a9417a2339588b4fe94172039b9f19563b41656d9d9a3d4340415556e6990957a34140cd9f9eefe7b141222648d0b6fd36,
  0x411ecd01935aa3a3413432e6f4c892814141d83eb4b457ae41486f53b7021566414b6393e81930194149d4c0ca0ecbb24144cdd3beaa61b7413cd4e71294b31941313aeed886769e4121bad006c1f996410f3b4f23d2ac7140f74e1ea669502340dcffe4bff3326f40bd5e78215d3ecb4097522a73a0c20f406b4f8ad56cf64e403506177f5491ba3ff0000000000000403536948017480f406c4fd74f91626640994d094ed839cb40c0fe94f49f41bd40e2439c51b749b84100525c8af43afa4118e53de71352a2413080e700000000414346a3583b125341540839ef47aa314162a92727f5aa47416f5569ea989b9e4177ccb37b744310418064d94393fbb541848152f598b3d5418747eb504217e24187f4b4cd271cec41864519a6965e6441829b45860046ab417bb91d63dcc42d4172326d6d6e507e4164a96e515677be4153ae81656c8de1413db4449526f591411ecd01935aa3a3,
  0x4118e7e01c305268412ebe8d2f44297a413976ad7742a4a64140457f760cb6744140ef967181d30b413d7ce0cca7063e4135c51f6f0f04df412b6d7987a04be3411d810a6cef9e18410afc7524828cbc40f4cc2c4bfb237740da9ab47cd19dbd40bb965f436f85a5409659dfb2994a55406a9f52ebc63a724034c8dc2e42397f3ff0000000000000403506177f5491ba406bdfb6871569eb4098cd0c1381081240c09f5f2187f98540e1dd498b4df5dc40ffff97208c26bb411882a4ef4684fa41305b2de31418bf414346a3583b12534154433dc0000000416324ac08048b6e417058bed1dca9404179562cf60288254181deb429b692f54186fa3efd7228dc418af18b7e8aaa8b418cca987a93c867418bfaee714f3dd14188a45b2fda042e41838f1a3dc77e60417bc128283df7f8417163b82ff9df8e4162e2f3f22a2f3541513db01e151f7b4138fad2b66761b34118e7e01c305268,
  0x41132c26b4af68d941263014cf251d71413126d1fffd15b741345aba5698c41241338e4e2fc08f21412f364d70685f9a4124f2bd6a50a2894117c0c6862754a64106b6555db067b540f22d5dd244ecf140d803d351f36b3540b9999a9dccc7a240953c9dd929e9434069cf0cffdef7f740347e7054af09893ff00000000000004034c8dc2e42397f406b4f8ad56cf64e409823b56f65137c40c01bd3bd37a66a40e1464fd8601f6d40fef12a7a602cf44117c0adc9842b37412fd70083fffeee4142e2f0294774b341540839ef47aa31416324ac08048b6e4170941b40000000417a22a3701aad5c4182cebc9b40a4b74188c2e53de3515a418dd943037f72e44190788d643bd14541909f6a5564f5ad418e9bb90b42bbc241899bd608a2674341835bbf0a3f1633417a38a1e3366fe6416f6dd915e32f2c41605b312a2878fc414caaf1491fb2ec4133f812ba6e341941132c26b4af68d9,
  0x410c10cc33a7956c411e5077eb86ea174125c2809ebafcd74127d62dfe9d80f34124fe381dae53a8411e75bc9e3714de41126625fff2d8dd41028b6225ec049340ef07e44ed7071140d54976ff7fd2b040b76fa9cf98232e4093fc87b2f1086c4068deb6a3dd4ebf40342641cf5695713ff000000000000040347e7054af0989406a9f52ebc63a724097522a73a0c20f40beeb6579c52d9440e081aa5336838040fd80890e7c31de4116a5b32685a7a9412e6c8d56f0136d414220297a0abff441535a56591e0ca14162a92727f5aa47417058bed1dca940417a22a3701aad5c4183210bc00000004189b22ec671e6ba418fb74b31f64afb4191fddc5bb9efd84192c0c188b464664191ee00daf409d6418f5d3a02afd6654188fdd7451b122a4182087b0ff31bd241775d37f38a4002416ad673602050c4415ad0f3be713112414698c0a4d5df2e412e5077eb86ea17410c10cc33a7956c,
  0x4103800eaabf683c41138ee47efdca1f4119eb06832e0f7b411a069d30837c884114d65c4415dc70410b35e9c8e5123840fd3857ff7b7d0a40e9c50b07ca6a7d40d27afc1a9f003840b5210c481d5f0240929c21f5fdd0804067ce4c89a4b7134033bf984cb56c773ff000000000000040342641cf5695714069cf0cffdef7f7409659dfb2994a5540bd5e78215d3ecb40df268a7826f24940fbb76656f0c8ce41153afa400e4b48412c8546a044a76e4141074e0e0b770d415242d56d47f9a24161b998ca5e2932416f5569ea989b9e4179562cf60288254182cebc9b40a4b74189b22ec671e6ba41902e15ac0000004192cbbe02325a50419423dcc5bf41504193e32fded3ec174192104cdbf6fc25418e180547d9ab7c4186e3ada3715073417f98a72770b66441739d979f2f50964165a16e086c38784154c830c34530884140dd050ec974bd4125d09c664275234103800eaabf683c,
  0x40f9ac594cad23894107c4d009924562410cdf81b134e399410a5b7dd36b90a54102fe15c9cc1e0c40f60bb94053e17b40e4b6f26f4dc51b40cf514d62d6f51e40b2b741291321de40911e5d5a42497e40669dca256b860e4033498c97b105403ff00000000000004033bf984cb56c774068deb6a3dd4ebf40953c9dd929e94340bb965f436f85a540dcffe4bff3326f40f9a1db5a1834a741138c63d257ad69412a34434d7fe45c413f4a7af593abf04150d077fc65439941606463b4618569416d2b87a0878beb4177ccb37b7443104181deb429b692f54188c2e53de3515a418fb74b31f64afb4192cbbe02325a5041949f20a40000004194eef43224dcc44193a324f48c0f714190fcb221a7441e418b038e295598594183a746f1cb4b794179ffc107f2aa8f416efd7ae93300eb41606dfad91c92b8414e669e3837b3ec4137c997f08a1e6b411db6040bf6d6bb40f9ac594cad2389,
  0x40eff23ff9bd4f5740fb1c9f59cca3dc40fdf0a2a36b1a4140f89923f6625b6340ef82cbbbaa623b40e00096913b8bde40c9c6ae0bd3d82e40b03cc710ab26d4408f0d477a7a3b8a40654d2919e686354032c2fc595456a63ff00000000000004033498c97b105404067ce4c89a4b7134093fc87b2f1086c40b9999a9dccc7a240da9ab47cd19dbd40f74e1ea66950234111a804ad2a6cc941279092d6f673ff413c14041d2f90a7414e2d070730a44a415d7b6ab83ebe49416a58c09e8ffe224175a38ec1c37b46418064d94393fbb54186fa3efd7228dc418dd943037f72e44191fddc5bb9efd8419423dcc5bf41504194eef43224dcc441942ffcec000000419209252b32901c418dc8f6de4b06c34186a73c1c76a904417f96a5866ca47641740edc84259df24166fd3565d322cd415779098537dc244144f0eafab91132412fa4203e2875ee411319fbe7feb94340eff23ff9bd4f57,
  0x40e2baec8d3a4b5d40ece6ba78d7083540ecb979cf5cf6ac40e4fa382d78b53a40d783769939004a40c4785f88505af640ab7a37644dcea2408bb1d2dd8df3ff4063dc6045fca99340322a788fc76de53ff00000000000004032c2fc595456a640669dca256b860e40929c21f5fdd08040b76fa9cf98232e40d803d351f36b3540f4cc2c4bfb2377410f3b4f23d2ac714124b430f460afe041388fd6f0c446f6414a56f4eefc6c224159bbecf0b2ff1941670c16511cde9e417303079a5cd963417cffaa4fb8a79241848152f598b3d5418af18b7e8aaa8b4190788d643bd1454192c0c188b464664193e32fded3ec174193a324f48c0f71419209252b32901c418ec3078000000041884bdebc68de9a4181b5786b8758274177b4c1ed9bea5d416cf2a827f8c564415ff2fc36f9dc31414f74d2d9eeec33413b188890113f6b4123c9ba5045baff41071efb93df39c440e2baec8d3a4b5d,
  0x40d49f09a10a36fd40dca328a03db22240d94cba748a3f4a40d02ab121345f1040bf10a734539de040a6897602c967ee40883388ac0d3d2a40624b622600bc1940317e2bca46bab93ff000000000000040322a788fc76de540654d2919e6863540911e5d5a42497e40b5210c481d5f0240d54976ff7fd2b040f22d5dd244ecf1410afc7524828cbc4121bad006c1f9964134e50abd41ba1941464f36c546dfa34155bfd034db7d3a41637a7bd8f7113741701a52c4ac5a414178ab48df10d4d441818f40a7e8f580418747eb504217e2418cca987a93c86741909f6a5564f5ad4191ee00daf409d64192104cdbf6fc254190fcb221a7441e418dc8f6de4b06c341884bdebc68de9a418263e5e00000004179bc5dc942f0704170902bde340e4c416379f90d4b92294154ba6153163d854143b45f6424a83c413068479338f5d041173100402964ae40fa403a92e3389f40d49f09a10a36fd,
  0x40c53815bb56855740ca3182dbc9b54a40c43f7fb28f77e640b62e3d0baa302940a1c23aad4a966140849d171144bd4e40609a19e69f4bee4030bbb307acafda3ff000000000000040317e2bca46bab94063dc6045fca993408f0d477a7a3b8a40b2b741291321de40d27afc1a9f003840ef07e44ed707114106b6555db067b5411d810a6cef9e1841313aeed886769e414246803de4178e4151bd280b87d1b0415fb469b2fe66ed416a35d57c9e0c1041741eccecab4b2a417cc4d2ff0203a9418332acde8dc2974187f4b4cd271cec418bfaee714f3dd1418e9bb90b42bbc2418f5d3a02afd665418e180547d9ab7c418b038e295598594186a73c1c76a9044181b5786b8758274179bc5dc942f070417150aac00000004165764645396883415855ebf3ee161e414901a32df75eb84136fab2e5d5998f41228450ad2aa5eb41095af19f07159240ebd49b0986509e40c53815bb568557,
  0x40b44a110dac892d40b5ea3bafbbdc0340ad0a8f2e5996e4409a82cb05ca63c24080fb06cd4a13c8405d90cb7d88ecb4402fbfbf7ebc755e3ff00000000000004030bbb307acafda40624b622600bc19408bb1d2dd8df3ff40b03cc710ab26d440cf514d62d6f51e40e9c50b07ca6a7d41028b6225ec04934117c0c6862754a6412b6d7987a04be3413cd4e71294b319414bccef94abfb1d4158bc5710566552416467993ff4ef51416f53c9153cf419417671f55ff3d40c417e165148cb8c784182e58b3f27b90f41864519a6965e644188a45b2fda042e41899bd608a267434188fdd7451b122a4186e3ada37150734183a746f1cb4b79417f96a5866ca4764177b4c1ed9bea5d4170902bde340e4c41657646453968834159a6ea00000000414c156a7128cf89413be55354bc91014128cebbefea38e741135d8a4d3ad6df40f9b6aec65f52ef40db64ca9baad30440b44a110dac892d,
  0x40a1e4bc76a50b9640a090f008a9884440924b5507978850407ab871c62a35184059ac16200f654d402dcca0d0cbf4083ff0000000000000402fbfbf7ebc755e40609a19e69f4bee40883388ac0d3d2a40ab7a37644dcea240c9c6ae0bd3d82e40e4b6f26f4dc51b40fd3857ff7b7d0a41126625fff2d8dd4124f2bd6a50a2894135c51f6f0f04df4144cdd3beaa61b7415263691ce46efc415e348590c02b8b416723010d86a75b417093abed4f2994417644e4369e677b417c1861e1eefb534180aa500f5346a941829b45860046ab41838f1a3dc77e6041835bbf0a3f16334182087b0ff31bd2417f98a72770b6644179ffc107f2aa8f41740edc84259df2416cf2a827f8c564416379f90d4b9229415855ebf3ee161e414c156a7128cf89413db89000000000412c91df6e2e89c641189cec765cc2af4102a19b54ac6e0540e802df99f6e2e940c8d9680cfe4c6640a1e4bc76a50b96,
  0x408cd2887efaf2db40863ca9751cb2b34073a531dc38a7e740558534f36e5e9a402b916ed68964ec3ff0000000000000402dcca0d0cbf408405d90cb7d88ecb440849d171144bd4e40a6897602c967ee40c4785f88505af640e00096913b8bde40f60bb94053e17b410b35e9c8e51238411e75bc9e3714de412f364d70685f9a413d7ce0cca7063e4149d4c0ca0ecbb24155134b954ef07f416012b6aa7cf4934166fb62898d5898416edfa90b3b7b3c4173848d189537794177418f68dfe1df417a2339588b4fe9417bb91d63dcc42d417bc128283df7f8417a38a1e3366fe641775d37f38a400241739d979f2f5096416efd7ae93300eb4166fd3565d322cd415ff2fc36f9dc314154ba6153163d85414901a32df75eb8413be55354bc9101412c91df6e2e89c6411a9ae400000000410639cbffee5ce140f054536db67f4840d471817c5e285340b491b65920f218408cd2887efaf2db,
  0x4074e8f359c003034069cfd35eafe2ff40511a460cc58e304028fae0c15ad3893ff0000000000000402b916ed68964ec4059ac16200f654d4080fb06cd4a13c840a1c23aad4a966140bf10a734539de040d783769939004a40ef82cbbbaa623b4102fe15c9cc1e0c4114d65c4415dc704124fe381dae53a841338e4e2fc08f214140ef967181d30b414b6393e81930194154c01284ac0075415d8a52549120024163cc8dd4c513c04169087f15e7f621416de485d2cf31e64170df2aa1570c524172039b9f19563b4172326d6d6e507e417163b82ff9df8e416f6dd915e32f2c416ad673602050c44165a16e086c387841606dfad91c92b8415779098537dc24414f74d2d9eeec334143b45f6424a83c4136fab2e5d5998f4128cebbefea38e741189cec765cc2af410639cbffee5ce140f205700000000040d9b959b31d281640bf4f6ee8b700fa409ea6cb0070dd8f4074e8f359c00303,
  0x405ac943c75d7c3e4048cc97f2912db54025e8add236a58e3ff00000000000004028fae0c15ad38940558534f36e5e9a407ab871c62a3518409a82cb05ca63c240b62e3d0baa302940d02ab121345f1040e4fa382d78b53a40f89923f6625b63410a5b7dd36b90a5411a069d30837c884127d62dfe9d80f341345aba5698c4124140457f760cb67441486f53b70215664151472f2455d31041570f55dd5feea0415d17ca6045468c41615ec87559c8e44163a686726dab28416512a32376719441656d9d9a3d43404164a96e515677be4162e2f3f22a2f3541605b312a2878fc415ad0f3be7131124154c830c3453088414e669e3837b3ec4144f0eafab91132413b188890113f6b413068479338f5d041228450ad2aa5eb41135d8a4d3ad6df4102a19b54ac6e0540f054536db67f4840d9b959b31d281640c1d9800000000040a5237fb5d2b9bc4084263b7515f523405ac943c75d7c3e,
  0x403d57c1d6d9269e40221c5b70d9f8233ff00000000000004025e8add236a58e40511a460cc58e304073a531dc38a7e740924b550797885040ad0a8f2e5996e440c43f7fb28f77e640d94cba748a3f4a40ecb979cf5cf6ac40fdf0a2a36b1a41410cdf81b134e3994119eb06832e0f7b4125c2809ebafcd7413126d1fffd15b7413976ad7742a4a64141d83eb4b457ae4147a8b1bfee881f414db7f9f50f55cf4151b494baca11914154079608310afd415586aa0b847e744155fc1f75a94935415556e6990957a34153ae81656c8de141513db01e151f7b414caaf1491fb2ec414698c0a4d5df2e4140dd050ec974bd4137c997f08a1e6b412fa4203e2875ee4123c9ba5045baff41173100402964ae41095af19f07159240f9b6aec65f52ef40e802df99f6e2e940d471817c5e285340bf4f6ee8b700fa40a5237fb5d2b9bc40886000000000004066a3724d10762c403d57c1d6d9269e,
  0x4019ec474a2612633ff000000000000040221c5b70d9f8234048cc97f2912db54069cfd35eafe2ff40863ca9751cb2b340a090f008a9884440b5ea3bafbbdc0340ca3182dbc9b54a40dca328a03db22240ece6ba78d7083540fb1c9f59cca3dc4107c4d00992456241138ee47efdca1f411e5077eb86ea1741263014cf251d71412ebe8d2f44297a413432e6f4c892814139346f6e67db8a413de6cb8f3229b64140e072f7df79bf4142233a068d6d384142907e770f6c524142192a5d6877904140cd9f9eefe7b1413db4449526f5914138fad2b66761b34133f812ba6e3419412e5077eb86ea174125d09c66427523411db6040bf6d6bb411319fbe7feb94341071efb93df39c440fa403a92e3389f40ebd49b0986509e40db64ca9baad30440c8d9680cfe4c6640b491b65920f218409ea6cb0070dd8f4084263b7515f5234066a3724d10762c40448000000000004019ec474a261263,
  0x3ff00000000000004019ec474a261263403d57c1d6d9269e405ac943c75d7c3e4074e8f359c00303408cd2887efaf2db40a1e4bc76a50b9640b44a110dac892d40c53815bb56855740d49f09a10a36fd40e2baec8d3a4b5d40eff23ff9bd4f5740f9ac594cad23894103800eaabf683c410c10cc33a7956c41132c26b4af68d94118e7e01c305268411ecd01935aa3a341222648d0b6fd36412465f90f9101e34125dff12aa15ee6412663b932a8881d4125dff12aa15ee6412465f90f9101e341222648d0b6fd36411ecd01935aa3a34118e7e01c30526841132c26b4af68d9410c10cc33a7956c4103800eaabf683c40f9ac594cad238940eff23ff9bd4f5740e2baec8d3a4b5d40d49f09a10a36fd40c53815bb56855740b44a110dac892d40a1e4bc76a50b96408cd2887efaf2db4074e8f359c00303405ac943c75d7c3e403d57c1d6d9269e4019ec474a2612633ff0000000000000]

end SF
