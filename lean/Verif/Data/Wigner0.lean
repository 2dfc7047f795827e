/-
Generated by tools/gen_tables.py from spherical_functions/Wigner_coefficients.npy: bytes 0 to 55440 after the header.
-/
set_option autoImplicit false
namespace SF

/-- The coefficients for `2 ell = 0`: one number for each of the 1 values of `mp`, consisting of the doubles for the 1 values of `m`. -/
def wigner0 : List Nat := [
  0x3ff0000000000000]

/-- The coefficients for `2 ell = 1`: one number for each of the 2 values of `mp`, consisting of the doubles for the 2 values of `m`. -/
def wigner1 : List Nat := [
  0x3ff00000000000003ff0000000000000,
  0x3ff00000000000003ff0000000000000]

/-- The coefficients for `2 ell = 2`: one number for each of the 3 values of `mp`, consisting of the doubles for the 3 values of `m`. -/
def wigner2 : List Nat := [
  0x3ff00000000000003ff6a09e667f3bcc3ff0000000000000,
  0x3ff6a09e667f3bcc3ff00000000000003ff6a09e667f3bcc,
  0x3ff00000000000003ff6a09e667f3bcc3ff0000000000000]

/-- The coefficients for `2 ell = 3`: one number for each of the 4 values of `mp`, consisting of the doubles for the 4 values of `m`. -/
def wigner3 : List Nat := [
  0x3ff00000000000003ffbb67ae8584caa3ffbb67ae8584caa3ff0000000000000,
  0x3ffbb67ae8584caa40000000000000003ff00000000000003ffbb67ae8584caa,
  0x3ffbb67ae8584caa3ff000000000000040000000000000003ffbb67ae8584caa,
  0x3ff00000000000003ffbb67ae8584caa3ffbb67ae8584caa3ff0000000000000]

/-- The coefficients for `2 ell = 4`: one number for each of the 5 values of `mp`, consisting of the doubles for the 5 values of `m`. -/
def wigner4 : List Nat := [
  0x3ff000000000000040000000000000004003988e1409212e40000000000000003ff0000000000000,
  0x400000000000000040080000000000004003988e1409212e3ff00000000000004000000000000000,
  0x4003988e1409212e4003988e1409212e3ff00000000000004003988e1409212e4003988e1409212e,
  0x40000000000000003ff00000000000004003988e1409212e40080000000000004000000000000000,
  0x3ff000000000000040000000000000004003988e1409212e40000000000000003ff0000000000000]

/-- The coefficients for `2 ell = 5`: one number for each of the 6 values of `mp`, consisting of the doubles for the 6 values of `m`. -/
def wigner5 : List Nat := [
  0x3ff00000000000004001e3779b97f4a740094c583ada5b5240094c583ada5b524001e3779b97f4a73ff0000000000000,
  0x4001e3779b97f4a740100000000000004010f876ccdf6cd94006a09e667f3bcc3ff00000000000004001e3779b97f4a7,
  0x40094c583ada5b524010f876ccdf6cd940080000000000003ff00000000000004006a09e667f3bcc40094c583ada5b52,
  0x40094c583ada5b524006a09e667f3bcc3ff000000000000040080000000000004010f876ccdf6cd940094c583ada5b52,
  0x4001e3779b97f4a73ff00000000000004006a09e667f3bcc4010f876ccdf6cd940100000000000004001e3779b97f4a7,
  0x3ff00000000000004001e3779b97f4a740094c583ada5b5240094c583ada5b524001e3779b97f4a73ff0000000000000]

/-- The coefficients for `2 ell = 6`: one number for each of the 7 values of `mp`, consisting of the doubles for the 7 values of `m`. -/
def wigner6 : List Nat := [
  0x3ff00000000000004003988e1409212e400efbdeb14f4ed94011e3779b97f4a7400efbdeb14f4ed94003988e1409212e3ff0000000000000,
  0x4003988e1409212e401400000000000040194c583ada5b524015e8add236a58e40094c583ada5b523ff00000000000004003988e1409212e,
  0x400efbdeb14f4ed940194c583ada5b524018000000000000400bb67ae8584caa3ff000000000000040094c583ada5b52400efbdeb14f4ed9,
  0x4011e3779b97f4a74015e8add236a58e400bb67ae8584caa3ff0000000000000400bb67ae8584caa4015e8add236a58e4011e3779b97f4a7,
  0x400efbdeb14f4ed940094c583ada5b523ff0000000000000400bb67ae8584caa401800000000000040194c583ada5b52400efbdeb14f4ed9,
  0x4003988e1409212e3ff000000000000040094c583ada5b524015e8add236a58e40194c583ada5b5240140000000000004003988e1409212e,
  0x3ff00000000000004003988e1409212e400efbdeb14f4ed94011e3779b97f4a7400efbdeb14f4ed94003988e1409212e3ff0000000000000]

/-- The coefficients for `2 ell = 7`: one number for each of the 8 values of `mp`, consisting of the doubles for the 8 values of `m`. -/
def wigner7 : List Nat := [
  0x3ff000000000000040052a7fa9d2f8e94012548eb9151e854017aa10d193c22c4017aa10d193c22c4012548eb9151e8540052a7fa9d2f8e93ff0000000000000,
  0x40052a7fa9d2f8e940180000000000004021520cd1372fea4021e3779b97f4a7401ad5336963eefb400bb67ae8584caa3ff000000000000040052a7fa9d2f8e9,
  0x4012548eb9151e854021520cd1372fea4024000000000000401efbdeb14f4ed9400efbdeb14f4ed93ff0000000000000400bb67ae8584caa4012548eb9151e85,
  0x4017aa10d193c22c4021e3779b97f4a7401efbdeb14f4ed940100000000000003ff0000000000000400efbdeb14f4ed9401ad5336963eefb4017aa10d193c22c,
  0x4017aa10d193c22c401ad5336963eefb400efbdeb14f4ed93ff00000000000004010000000000000401efbdeb14f4ed94021e3779b97f4a74017aa10d193c22c,
  0x4012548eb9151e85400bb67ae8584caa3ff0000000000000400efbdeb14f4ed9401efbdeb14f4ed940240000000000004021520cd1372fea4012548eb9151e85,
  0x40052a7fa9d2f8e93ff0000000000000400bb67ae8584caa401ad5336963eefb4021e3779b97f4a74021520cd1372fea401800000000000040052a7fa9d2f8e9,
  0x3ff000000000000040052a7fa9d2f8e94012548eb9151e854017aa10d193c22c4017aa10d193c22c4012548eb9151e8540052a7fa9d2f8e93ff0000000000000]

/-- The coefficients for `2 ell = 8`: one number for each of the 9 values of `mp`, consisting of the doubles for the 9 values of `m`. -/
def wigner8 : List Nat := [
  0x3ff00000000000004006a09e667f3bcc40152a7fa9d2f8e9401deeea11683f494020bbb307acafda401deeea11683f4940152a7fa9d2f8e94006a09e667f3bcc3ff0000000000000,
  0x4006a09e667f3bcc401c0000000000004026732f8d0e2f76402a751f9447b7244027aa10d193c22c401fbfbf7ebc755e400deeea11683f493ff00000000000004006a09e667f3bcc,
  0x40152a7fa9d2f8e94026732f8d0e2f76402e000000000000402c48c6001f0abf4022f9422c23c47d4010f876ccdf6cd93ff0000000000000400deeea11683f4940152a7fa9d2f8e9,
  0x401deeea11683f49402a751f9447b724402c48c6001f0abf40240000000000004011e3779b97f4a73ff00000000000004010f876ccdf6cd9401fbfbf7ebc755e401deeea11683f49,
  0x4020bbb307acafda4027aa10d193c22c4022f9422c23c47d4011e3779b97f4a73ff00000000000004011e3779b97f4a74022f9422c23c47d4027aa10d193c22c4020bbb307acafda,
  0x401deeea11683f49401fbfbf7ebc755e4010f876ccdf6cd93ff00000000000004011e3779b97f4a74024000000000000402c48c6001f0abf402a751f9447b724401deeea11683f49,
  0x40152a7fa9d2f8e9400deeea11683f493ff00000000000004010f876ccdf6cd94022f9422c23c47d402c48c6001f0abf402e0000000000004026732f8d0e2f7640152a7fa9d2f8e9,
  0x4006a09e667f3bcc3ff0000000000000400deeea11683f49401fbfbf7ebc755e4027aa10d193c22c402a751f9447b7244026732f8d0e2f76401c0000000000004006a09e667f3bcc,
  0x3ff00000000000004006a09e667f3bcc40152a7fa9d2f8e9401deeea11683f494020bbb307acafda401deeea11683f4940152a7fa9d2f8e94006a09e667f3bcc3ff0000000000000]

/-- The coefficients for `2 ell = 9`: one number for each of the 10 values of `mp`, consisting of the doubles for the 10 values of `m`. -/
def wigner9 : List Nat := [
  0x3ff0000000000000400800000000000040180000000000004022548eb9151e854026732f8d0e2f764026732f8d0e2f764022548eb9151e85401800000000000040080000000000003ff0000000000000,
  0x40080000000000004020000000000000402c0000000000004032548eb9151e854032b5524ae1278d402deeea11683f494022548eb9151e8540100000000000003ff00000000000004008000000000000,
  0x4018000000000000402c00000000000040350000000000004036e9b2675a66264032b5524ae1278d4026732f8d0e2f764012548eb9151e853ff000000000000040100000000000004018000000000000,
  0x4022548eb9151e854032548eb9151e854036e9b2675a6626403400000000000040287eb1990b697a4013988e1409212e3ff00000000000004012548eb9151e854022548eb9151e854022548eb9151e85,
  0x4026732f8d0e2f764032b5524ae1278d4032b5524ae1278d40287eb1990b697a40140000000000003ff00000000000004013988e1409212e4026732f8d0e2f76402deeea11683f494026732f8d0e2f76,
  0x4026732f8d0e2f76402deeea11683f494026732f8d0e2f764013988e1409212e3ff0000000000000401400000000000040287eb1990b697a4032b5524ae1278d4032b5524ae1278d4026732f8d0e2f76,
  0x4022548eb9151e854022548eb9151e854012548eb9151e853ff00000000000004013988e1409212e40287eb1990b697a40340000000000004036e9b2675a66264032548eb9151e854022548eb9151e85,
  0x401800000000000040100000000000003ff00000000000004012548eb9151e854026732f8d0e2f764032b5524ae1278d4036e9b2675a66264035000000000000402c0000000000004018000000000000,
  0x40080000000000003ff000000000000040100000000000004022548eb9151e85402deeea11683f494032b5524ae1278d4032548eb9151e85402c00000000000040200000000000004008000000000000,
  0x3ff0000000000000400800000000000040180000000000004022548eb9151e854026732f8d0e2f764026732f8d0e2f764022548eb9151e85401800000000000040080000000000003ff0000000000000]

/-- The coefficients for `2 ell = 10`: one number for each of the 11 values of `mp`, consisting of the doubles for the 11 values of `m`. -/
def wigner10 : List Nat := [
  0x3ff000000000000040094c583ada5b52401ad5336963eefb4025e8add236a58e402cfb95bb9dcc0c402fbfbf7ebc755e402cfb95bb9dcc0c4025e8add236a58e401ad5336963eefb40094c583ada5b523ff0000000000000,
  0x40094c583ada5b5240220000000000004030f876ccdf6cd940383fab8b4d4315403b7ed6159fadc74039198c8b8307c84032548eb9151e854024c8dc2e42397f4010f876ccdf6cd93ff000000000000040094c583ada5b52,
  0x401ad5336963eefb4030f876ccdf6cd9403c0000000000004041257c5187fd08404033ac8e57cb7e4037aa10d193c22c4029ec474a2612634013988e1409212e3ff00000000000004010f876ccdf6cd9401ad5336963eefb,
  0x4025e8add236a58e40383fab8b4d43154041257c5187fd084041800000000000403a751f9447b724402cfb95bb9dcc0c40152a7fa9d2f8e93ff00000000000004013988e1409212e4024c8dc2e42397f4025e8add236a58e,
  0x402cfb95bb9dcc0c403b7ed6159fadc7404033ac8e57cb7e403a751f9447b724402e0000000000004015e8add236a58e3ff000000000000040152a7fa9d2f8e94029ec474a2612634032548eb9151e85402cfb95bb9dcc0c,
  0x402fbfbf7ebc755e4039198c8b8307c84037aa10d193c22c402cfb95bb9dcc0c4015e8add236a58e3ff00000000000004015e8add236a58e402cfb95bb9dcc0c4037aa10d193c22c4039198c8b8307c8402fbfbf7ebc755e,
  0x402cfb95bb9dcc0c4032548eb9151e854029ec474a26126340152a7fa9d2f8e93ff00000000000004015e8add236a58e402e000000000000403a751f9447b724404033ac8e57cb7e403b7ed6159fadc7402cfb95bb9dcc0c,
  0x4025e8add236a58e4024c8dc2e42397f4013988e1409212e3ff000000000000040152a7fa9d2f8e9402cfb95bb9dcc0c403a751f9447b72440418000000000004041257c5187fd0840383fab8b4d43154025e8add236a58e,
  0x401ad5336963eefb4010f876ccdf6cd93ff00000000000004013988e1409212e4029ec474a2612634037aa10d193c22c404033ac8e57cb7e4041257c5187fd08403c0000000000004030f876ccdf6cd9401ad5336963eefb,
  0x40094c583ada5b523ff00000000000004010f876ccdf6cd94024c8dc2e42397f4032548eb9151e854039198c8b8307c8403b7ed6159fadc740383fab8b4d43154030f876ccdf6cd9402200000000000040094c583ada5b52,
  0x3ff000000000000040094c583ada5b52401ad5336963eefb4025e8add236a58e402cfb95bb9dcc0c402fbfbf7ebc755e402cfb95bb9dcc0c4025e8add236a58e401ad5336963eefb40094c583ada5b523ff0000000000000]

/-- The coefficients for `2 ell = 11`: one number for each of the 12 values of `mp`, consisting of the doubles for the 12 values of `m`. -/
def wigner11 : List Nat := [
  0x3ff0000000000000400a887293fd6f34401daa2fefaae1d74029b0c25315c2cd40322a788fc76de540357e82ecdabe8c40357e82ecdabe8c40322a788fc76de54029b0c25315c2cd401daa2fefaae1d7400a887293fd6f343ff0000000000000,
  0x400a887293fd6f34402400000000000040341fe68f0af33c403efbdeb14f4ed940432b9817efd0dd40437135779c8dca404033ac8e57cb7e4035e8add236a58e40273ce704fb7b234011e3779b97f4a73ff0000000000000400a887293fd6f34,
  0x401daa2fefaae1d740341fe68f0af33c404200000000000040483fab8b4d43154049b83a7a4bfb8d4045bcb04cb65909403cfb95bb9dcc0c402d64d51e0db1c54014c8dc2e42397f3ff00000000000004011e3779b97f4a7401daa2fefaae1d7,
  0x4029b0c25315c2cd403efbdeb14f4ed940483fab8b4d4315404c0000000000004048bfad401b29674040bbb307acafda4030bbb307acafda4016a09e667f3bcc3ff00000000000004014c8dc2e42397f40273ce704fb7b234029b0c25315c2cd,
  0x40322a788fc76de540432b9817efd0dd4049b83a7a4bfb8d4048bfad401b296740418000000000004031bf8c9d2ed1a14017aa10d193c22c3ff00000000000004016a09e667f3bcc402d64d51e0db1c54035e8add236a58e40322a788fc76de5,
  0x40357e82ecdabe8c40437135779c8dca4045bcb04cb659094040bbb307acafda4031bf8c9d2ed1a140180000000000003ff00000000000004017aa10d193c22c4030bbb307acafda403cfb95bb9dcc0c404033ac8e57cb7e40357e82ecdabe8c,
  0x40357e82ecdabe8c404033ac8e57cb7e403cfb95bb9dcc0c4030bbb307acafda4017aa10d193c22c3ff000000000000040180000000000004031bf8c9d2ed1a14040bbb307acafda4045bcb04cb6590940437135779c8dca40357e82ecdabe8c,
  0x40322a788fc76de54035e8add236a58e402d64d51e0db1c54016a09e667f3bcc3ff00000000000004017aa10d193c22c4031bf8c9d2ed1a140418000000000004048bfad401b29674049b83a7a4bfb8d40432b9817efd0dd40322a788fc76de5,
  0x4029b0c25315c2cd40273ce704fb7b234014c8dc2e42397f3ff00000000000004016a09e667f3bcc4030bbb307acafda4040bbb307acafda4048bfad401b2967404c00000000000040483fab8b4d4315403efbdeb14f4ed94029b0c25315c2cd,
  0x401daa2fefaae1d74011e3779b97f4a73ff00000000000004014c8dc2e42397f402d64d51e0db1c5403cfb95bb9dcc0c4045bcb04cb659094049b83a7a4bfb8d40483fab8b4d4315404200000000000040341fe68f0af33c401daa2fefaae1d7,
  0x400a887293fd6f343ff00000000000004011e3779b97f4a740273ce704fb7b234035e8add236a58e404033ac8e57cb7e40437135779c8dca40432b9817efd0dd403efbdeb14f4ed940341fe68f0af33c4024000000000000400a887293fd6f34,
  0x3ff0000000000000400a887293fd6f34401daa2fefaae1d74029b0c25315c2cd40322a788fc76de540357e82ecdabe8c40357e82ecdabe8c40322a788fc76de54029b0c25315c2cd401daa2fefaae1d7400a887293fd6f343ff0000000000000]

/-- The coefficients for `2 ell = 12`: one number for each of the 13 values of `mp`, consisting of the doubles for the 13 values of `m`. -/
def wigner12 : List Nat := [
  0x3ff0000000000000400bb67ae8584caa40203f81f636b80b402daa2fefaae1d740363fa3f3c02961403c247a85fe81fa403e65b9edeba38d403c247a85fe81fa40363fa3f3c02961402daa2fefaae1d740203f81f636b80b400bb67ae8584caa3ff0000000000000,
  0x400bb67ae8584caa4026000000000000403773bb6fa96c5040434491be50521a4049b0c25315c2cd404c6f236edfc214404a532c32c23dd440444f6273c4660e4039b0c25315c2cd4029b0c25315c2cd4012c2fc595456a63ff0000000000000400bb67ae8584caa,
  0x40203f81f636b80b403773bb6fa96c50404680000000000040506e825da8fc2b40532b9817efd0dd40522fc0a879f24f404c0ffb7051bb544041520cd1372fea40306e825da8fc2b4015e8add236a58e3ff00000000000004012c2fc595456a640203f81f636b80b,
  0x402daa2fefaae1d740434491be50521a40506e825da8fc2b4055000000000000405500000000000040509a19e69f4bee40447e7054af09894032f9422c23c47d40180000000000003ff00000000000004015e8add236a58e4029b0c25315c2cd402daa2fefaae1d7,
  0x40363fa3f3c029614049b0c25315c2cd40532b9817efd0dd40550000000000004051800000000000404622cd337f0fe840347e7054af098940194c583ada5b523ff0000000000000401800000000000040306e825da8fc2b4039b0c25315c2cd40363fa3f3c02961,
  0x403c247a85fe81fa404c6f236edfc21440522fc0a879f24f40509a19e69f4bee404622cd337f0fe840350000000000004019ec474a2612633ff000000000000040194c583ada5b524032f9422c23c47d4041520cd1372fea40444f6273c4660e403c247a85fe81fa,
  0x403e65b9edeba38d404a532c32c23dd4404c0ffb7051bb5440447e7054af098940347e7054af09894019ec474a2612633ff00000000000004019ec474a26126340347e7054af098940447e7054af0989404c0ffb7051bb54404a532c32c23dd4403e65b9edeba38d,
  0x403c247a85fe81fa40444f6273c4660e4041520cd1372fea4032f9422c23c47d40194c583ada5b523ff00000000000004019ec474a2612634035000000000000404622cd337f0fe840509a19e69f4bee40522fc0a879f24f404c6f236edfc214403c247a85fe81fa,
  0x40363fa3f3c029614039b0c25315c2cd40306e825da8fc2b40180000000000003ff000000000000040194c583ada5b5240347e7054af0989404622cd337f0fe84051800000000000405500000000000040532b9817efd0dd4049b0c25315c2cd40363fa3f3c02961,
  0x402daa2fefaae1d74029b0c25315c2cd4015e8add236a58e3ff000000000000040180000000000004032f9422c23c47d40447e7054af098940509a19e69f4bee4055000000000000405500000000000040506e825da8fc2b40434491be50521a402daa2fefaae1d7,
  0x40203f81f636b80b4012c2fc595456a63ff00000000000004015e8add236a58e40306e825da8fc2b4041520cd1372fea404c0ffb7051bb5440522fc0a879f24f40532b9817efd0dd40506e825da8fc2b4046800000000000403773bb6fa96c5040203f81f636b80b,
  0x400bb67ae8584caa3ff00000000000004012c2fc595456a64029b0c25315c2cd4039b0c25315c2cd40444f6273c4660e404a532c32c23dd4404c6f236edfc2144049b0c25315c2cd40434491be50521a403773bb6fa96c504026000000000000400bb67ae8584caa,
  0x3ff0000000000000400bb67ae8584caa40203f81f636b80b402daa2fefaae1d740363fa3f3c02961403c247a85fe81fa403e65b9edeba38d403c247a85fe81fa40363fa3f3c02961402daa2fefaae1d740203f81f636b80b400bb67ae8584caa3ff0000000000000]

/-- The coefficients for `2 ell = 13`: one number for each of the 14 values of `mp`, consisting of the doubles for the 14 values of `m`. -/
def wigner13 : List Nat := [
  0x3ff0000000000000400cd82b446159f34021a9dc8f6df1034030e95a539f492b403abd4ed15b96404041eff8dd34fde24044b65a49968d7e4044b65a49968d7e4041eff8dd34fde2403abd4ed15b96404030e95a539f492b4021a9dc8f6df103400cd82b446159f33ff0000000000000,
  0x400cd82b446159f34028000000000000403af1c35b8c8d9f404773bb6fa96c504050afbaf6d01f094053e655eefe136740541b20cd3676d240513bd2f90a1cb44048dfeb6abd9840403daa2fefaae1d7402c247a85fe81fa4013988e1409212e3ff0000000000000400cd82b446159f3,
  0x4021a9dc8f6df103403af1c35b8c8d9f404b80000000000040558ac7b74ca3e1405b3fb4d7ab24d7405c6f236edfc21440589feb353eb1ba405196cc93bf113c40444f6273c4660e40322a788fc76de54016fa6ea162d0f03ff00000000000004013988e1409212e4021a9dc8f6df103,
  0x4030e95a539f492b404773bb6fa96c5040558ac7b74ca3e1405e00000000000040609a19e69f4bee405db2cfe686fe7c40556edb65e9fc4a40487eb1990b697a403536948017480f40194c583ada5b523ff00000000000004016fa6ea162d0f0402c247a85fe81fa4030e95a539f492b,
  0x403abd4ed15b96404050afbaf6d01f09405b3fb4d7ab24d740609a19e69f4bee405f80000000000040577a8cfc37711c404b1c62db2564fe40373ce704fb7b23401ad5336963eefb3ff000000000000040194c583ada5b5240322a788fc76de5403daa2fefaae1d7403abd4ed15b9640,
  0x4041eff8dd34fde24053e655eefe1367405c6f236edfc214405db2cfe686fe7c40577a8cfc37711c404c00000000000040383fab8b4d4315401bb67ae8584caa3ff0000000000000401ad5336963eefb403536948017480f40444f6273c4660e4048dfeb6abd98404041eff8dd34fde2,
  0x4044b65a49968d7e40541b20cd3676d240589feb353eb1ba40556edb65e9fc4a404b1c62db2564fe40383fab8b4d4315401c0000000000003ff0000000000000401bb67ae8584caa40373ce704fb7b2340487eb1990b697a405196cc93bf113c40513bd2f90a1cb44044b65a49968d7e,
  0x4044b65a49968d7e40513bd2f90a1cb4405196cc93bf113c40487eb1990b697a40373ce704fb7b23401bb67ae8584caa3ff0000000000000401c00000000000040383fab8b4d4315404b1c62db2564fe40556edb65e9fc4a40589feb353eb1ba40541b20cd3676d24044b65a49968d7e,
  0x4041eff8dd34fde24048dfeb6abd984040444f6273c4660e403536948017480f401ad5336963eefb3ff0000000000000401bb67ae8584caa40383fab8b4d4315404c00000000000040577a8cfc37711c405db2cfe686fe7c405c6f236edfc2144053e655eefe13674041eff8dd34fde2,
  0x403abd4ed15b9640403daa2fefaae1d740322a788fc76de540194c583ada5b523ff0000000000000401ad5336963eefb40373ce704fb7b23404b1c62db2564fe40577a8cfc37711c405f80000000000040609a19e69f4bee405b3fb4d7ab24d74050afbaf6d01f09403abd4ed15b9640,
  0x4030e95a539f492b402c247a85fe81fa4016fa6ea162d0f03ff000000000000040194c583ada5b52403536948017480f40487eb1990b697a40556edb65e9fc4a405db2cfe686fe7c40609a19e69f4bee405e00000000000040558ac7b74ca3e1404773bb6fa96c504030e95a539f492b,
  0x4021a9dc8f6df1034013988e1409212e3ff00000000000004016fa6ea162d0f040322a788fc76de540444f6273c4660e405196cc93bf113c40589feb353eb1ba405c6f236edfc214405b3fb4d7ab24d740558ac7b74ca3e1404b800000000000403af1c35b8c8d9f4021a9dc8f6df103,
  0x400cd82b446159f33ff00000000000004013988e1409212e402c247a85fe81fa403daa2fefaae1d74048dfeb6abd984040513bd2f90a1cb440541b20cd3676d24053e655eefe13674050afbaf6d01f09404773bb6fa96c50403af1c35b8c8d9f4028000000000000400cd82b446159f3,
  0x3ff0000000000000400cd82b446159f34021a9dc8f6df1034030e95a539f492b403abd4ed15b96404041eff8dd34fde24044b65a49968d7e4044b65a49968d7e4041eff8dd34fde2403abd4ed15b96404030e95a539f492b4021a9dc8f6df103400cd82b446159f33ff0000000000000]

/-- The coefficients for `2 ell = 14`: one number for each of the 15 values of `mp`, consisting of the doubles for the 15 values of `m`. -/
def wigner14 : List Nat := [
  0x3ff0000000000000400deeea11683f494023142b30a929ab4033142b30a929ab403fa37a3e5bbca140465f320a9951d6404b665a70daa248404d4aa8b979af2e404b665a70daa24840465f320a9951d6403fa37a3e5bbca14033142b30a929ab4023142b30a929ab400deeea11683f493ff0000000000000,
  0x400deeea11683f49402a000000000000403e98180e9b47f1404c0b6b62b901f2405523b0e8871b76405ae7f54bcf7cd4405d4aa8b979af2e405b665a70daa2484055f7fe8b1b4363404de54970ada7244040e95a539f492b402e98180e9b47f1401465655f122ff63ff0000000000000400deeea11683f49,
  0x4023142b30a929ab403e98180e9b47f14050800000000000405b8000000000004062a7f0900e323040651b5be47ee17b40641b20cd3676d240601ee231a40ee940558ac7b74ca3e1404773bb6fa96c504033e655eefe136740180000000000003ff0000000000000401465655f122ff64023142b30a929ab,
  0x4033142b30a929ab404c0b6b62b901f2405b8000000000004064a000000000004068dfeb6abd984040689feb353eb1ba40641b20cd3676d2405ade23a8116e30404cb90a49bb852c403773bb6fa96c50401a887293fd6f343ff00000000000004018000000000000402e98180e9b47f14033142b30a929ab,
  0x403fa37a3e5bbca1405523b0e8871b764062a7f0900e32304068dfeb6abd9840406a4000000000004066461bece53edd405e4f966e2093da405033ac8e57cb7e4039fb1339d2c7df401c48c6001f0abf3ff0000000000000401a887293fd6f344033e655eefe13674040e95a539f492b403fa37a3e5bbca1,
  0x40465f320a9951d6405ae7f54bcf7cd440651b5be47ee17b40689feb353eb1ba4066461bece53edd405f8000000000004051257c5187fd08403b7ed6159fadc7401d64d51e0db1c53ff0000000000000401c48c6001f0abf403773bb6fa96c50404773bb6fa96c50404de54970ada72440465f320a9951d6,
  0x404b665a70daa248405d4aa8b979af2e40641b20cd3676d240641b20cd3676d2405e4f966e2093da4051257c5187fd08403c000000000000401deeea11683f493ff0000000000000401d64d51e0db1c54039fb1339d2c7df404cb90a49bb852c40558ac7b74ca3e14055f7fe8b1b4363404b665a70daa248,
  0x404d4aa8b979af2e405b665a70daa24840601ee231a40ee9405ade23a8116e30405033ac8e57cb7e403b7ed6159fadc7401deeea11683f493ff0000000000000401deeea11683f49403b7ed6159fadc7405033ac8e57cb7e405ade23a8116e3040601ee231a40ee9405b665a70daa248404d4aa8b979af2e,
  0x404b665a70daa2484055f7fe8b1b436340558ac7b74ca3e1404cb90a49bb852c4039fb1339d2c7df401d64d51e0db1c53ff0000000000000401deeea11683f49403c0000000000004051257c5187fd08405e4f966e2093da40641b20cd3676d240641b20cd3676d2405d4aa8b979af2e404b665a70daa248,
  0x40465f320a9951d6404de54970ada724404773bb6fa96c50403773bb6fa96c50401c48c6001f0abf3ff0000000000000401d64d51e0db1c5403b7ed6159fadc74051257c5187fd08405f8000000000004066461bece53edd40689feb353eb1ba40651b5be47ee17b405ae7f54bcf7cd440465f320a9951d6,
  0x403fa37a3e5bbca14040e95a539f492b4033e655eefe1367401a887293fd6f343ff0000000000000401c48c6001f0abf4039fb1339d2c7df405033ac8e57cb7e405e4f966e2093da4066461bece53edd406a4000000000004068dfeb6abd98404062a7f0900e3230405523b0e8871b76403fa37a3e5bbca1,
  0x4033142b30a929ab402e98180e9b47f140180000000000003ff0000000000000401a887293fd6f34403773bb6fa96c50404cb90a49bb852c405ade23a8116e3040641b20cd3676d240689feb353eb1ba4068dfeb6abd98404064a00000000000405b800000000000404c0b6b62b901f24033142b30a929ab,
  0x4023142b30a929ab401465655f122ff63ff000000000000040180000000000004033e655eefe1367404773bb6fa96c5040558ac7b74ca3e140601ee231a40ee940641b20cd3676d240651b5be47ee17b4062a7f0900e3230405b8000000000004050800000000000403e98180e9b47f14023142b30a929ab,
  0x400deeea11683f493ff0000000000000401465655f122ff6402e98180e9b47f14040e95a539f492b404de54970ada7244055f7fe8b1b4363405b665a70daa248405d4aa8b979af2e405ae7f54bcf7cd4405523b0e8871b76404c0b6b62b901f2403e98180e9b47f1402a000000000000400deeea11683f49,
  0x3ff0000000000000400deeea11683f494023142b30a929ab4033142b30a929ab403fa37a3e5bbca140465f320a9951d6404b665a70daa248404d4aa8b979af2e404b665a70daa24840465f320a9951d6403fa37a3e5bbca14033142b30a929ab4023142b30a929ab400deeea11683f493ff0000000000000]

/-- The coefficients for `2 ell = 15`: one number for each of the 16 values of `mp`, consisting of the doubles for the 16 values of `m`. -/
def wigner15 : List Nat := [
  0x3ff0000000000000400efbdeb14f4ed940247e7054af0989403554aaa7ffeaa9404279137606bf37404b665a70daa2484051afbede0fc44840540dfb1d04b0b040540dfb1d04b0b04051afbede0fc448404b665a70daa248404279137606bf37403554aaa7ffeaa940247e7054af0989400efbdeb14f4ed93ff0000000000000,
  0x400efbdeb14f4ed9402c00000000000040413287b9fb6a3d405085d06e1f0517405a3bbb62e8994b4061afbede0fc44840648cc3d4a3f9b64064b65a49968d7e40621f8f0063bbce405b665a70daa2484051afbede0fc4484043142b30a929ab403085d06e1f051740152a7fa9d2f8e93ff0000000000000400efbdeb14f4ed9,
  0x40247e7054af098940413287b9fb6a3d405380000000000040612c7a84ee716e4068c9c52ec3a94d406e14f8ab870908406f11876e61d43e406b665a70daa24840648cc3d4a3f9b64059e3f0dbfc30de404abd4ed15b96404035a220734903764018fae0c15ad3893ff000000000000040152a7fa9d2f8e940247e7054af0989,
  0x403554aaa7ffeaa9405085d06e1f051740612c7a84ee716e406b8000000000004071dc9d37c0e96940734491be50521a4071698b311e50fa406a532c32c23dd4406073fb9fb966a4405095479c7e65804039b0c25315c2cd401bb67ae8584caa3ff00000000000004018fae0c15ad389403085d06e1f0517403554aaa7ffeaa9,
  0x404279137606bf37405a3bbb62e8994b4068c9c52ec3a94d4071dc9d37c0e9694074a00000000000407377af75482435406e28b133d1b23b4062ff9434b346384052ff9434b34638403cb90a49bb852c401daa2fefaae1d73ff0000000000000401bb67ae8584caa4035a220734903764043142b30a929ab404279137606bf37,
  0x404b665a70daa2484061afbede0fc448406e14f8ab87090840734491be50521a407377af75482435406f8000000000004064554a245c0bbe40547e7054af0989403ebda87f068e4d401efbdeb14f4ed93ff0000000000000401daa2fefaae1d74039b0c25315c2cd404abd4ed15b96404051afbede0fc448404b665a70daa248,
  0x4051afbede0fc44840648cc3d4a3f9b6406f11876e61d43e4071698b311e50fa406e28b133d1b23b4064554a245c0bbe4055000000000000403fbfbf7ebc755e401fbfbf7ebc755e3ff0000000000000401efbdeb14f4ed9403cb90a49bb852c405095479c7e65804059e3f0dbfc30de405b665a70daa2484051afbede0fc448,
  0x40540dfb1d04b0b04064b65a49968d7e406b665a70daa248406a532c32c23dd44062ff9434b3463840547e7054af0989403fbfbf7ebc755e40200000000000003ff0000000000000401fbfbf7ebc755e403ebda87f068e4d4052ff9434b34638406073fb9fb966a440648cc3d4a3f9b640621f8f0063bbce40540dfb1d04b0b0,
  0x40540dfb1d04b0b040621f8f0063bbce40648cc3d4a3f9b6406073fb9fb966a44052ff9434b34638403ebda87f068e4d401fbfbf7ebc755e3ff00000000000004020000000000000403fbfbf7ebc755e40547e7054af09894062ff9434b34638406a532c32c23dd4406b665a70daa2484064b65a49968d7e40540dfb1d04b0b0,
  0x4051afbede0fc448405b665a70daa2484059e3f0dbfc30de405095479c7e6580403cb90a49bb852c401efbdeb14f4ed93ff0000000000000401fbfbf7ebc755e403fbfbf7ebc755e40550000000000004064554a245c0bbe406e28b133d1b23b4071698b311e50fa406f11876e61d43e40648cc3d4a3f9b64051afbede0fc448,
  0x404b665a70daa2484051afbede0fc448404abd4ed15b96404039b0c25315c2cd401daa2fefaae1d73ff0000000000000401efbdeb14f4ed9403ebda87f068e4d40547e7054af09894064554a245c0bbe406f800000000000407377af7548243540734491be50521a406e14f8ab8709084061afbede0fc448404b665a70daa248,
  0x404279137606bf374043142b30a929ab4035a22073490376401bb67ae8584caa3ff0000000000000401daa2fefaae1d7403cb90a49bb852c4052ff9434b346384062ff9434b34638406e28b133d1b23b407377af754824354074a000000000004071dc9d37c0e9694068c9c52ec3a94d405a3bbb62e8994b404279137606bf37,
  0x403554aaa7ffeaa9403085d06e1f05174018fae0c15ad3893ff0000000000000401bb67ae8584caa4039b0c25315c2cd405095479c7e6580406073fb9fb966a4406a532c32c23dd44071698b311e50fa40734491be50521a4071dc9d37c0e969406b80000000000040612c7a84ee716e405085d06e1f0517403554aaa7ffeaa9,
  0x40247e7054af098940152a7fa9d2f8e93ff00000000000004018fae0c15ad3894035a22073490376404abd4ed15b96404059e3f0dbfc30de40648cc3d4a3f9b6406b665a70daa248406f11876e61d43e406e14f8ab8709084068c9c52ec3a94d40612c7a84ee716e405380000000000040413287b9fb6a3d40247e7054af0989,
  0x400efbdeb14f4ed93ff000000000000040152a7fa9d2f8e9403085d06e1f05174043142b30a929ab4051afbede0fc448405b665a70daa24840621f8f0063bbce4064b65a49968d7e40648cc3d4a3f9b64061afbede0fc448405a3bbb62e8994b405085d06e1f051740413287b9fb6a3d402c000000000000400efbdeb14f4ed9,
  0x3ff0000000000000400efbdeb14f4ed940247e7054af0989403554aaa7ffeaa9404279137606bf37404b665a70daa2484051afbede0fc44840540dfb1d04b0b040540dfb1d04b0b04051afbede0fc448404b665a70daa248404279137606bf37403554aaa7ffeaa940247e7054af0989400efbdeb14f4ed93ff0000000000000]

/-- The coefficients for `2 ell = 16`: one number for each of the 17 values of `mp`, consisting of the doubles for the 17 values of `m`. -/
def wigner16 : List Nat := [
  0x3ff000000000000040100000000000004025e8add236a58e4037aa10d193c22c404554aaa7ffeaa9405085d06e1f051740565f320a9951d6405abd4ed15b9640405c5c8ba190fb2d405abd4ed15b964040565f320a9951d6405085d06e1f0517404554aaa7ffeaa94037aa10d193c22c4025e8add236a58e40100000000000003ff0000000000000,
  0x4010000000000000402e00000000000040432b9817efd0dd40533a2daa480dc4405ffefffbffdffe4066b7fe976aa700406bf6fe8d3fa64c406e14f8ab870908406c5c8ba190fb2d406765a4f73023784060c76587f2fd614054a74489a6c65d404554aaa7ffeaa94031bf8c9d2ed1a14015e8add236a58e3ff00000000000004010000000000000,
  0x4025e8add236a58e40432b9817efd0dd4056c0000000000040650ff9ec3eeef140701087764c43e34074bd4096d3359c4076f9b6cb0e610a4075f7fe8b1b436340721f8f0063bbce4069a153a24a7949405ea2490ebdd6b8404e2a8c7e4a7c8540375ddc4efa914a4019ec474a2612633ff00000000000004015e8add236a58e4025e8add236a58e,
  0x4037aa10d193c22c40533a2daa480dc440650ff9ec3eeef14071e000000000004078c9c52ec3a94d407ccd1e65f2ce14407c5c8ba190fb2d4077ba9baec4cd794070c76587f2fd614063c62c66f955e54052e85d1660a773403bedb0defaf661401cd82b446159f33ff00000000000004019ec474a2612634031bf8c9d2ed1a14037aa10d193c22c,
  0x404554aaa7ffeaa9405ffefffbffdffe40701087764c43e34078c9c52ec3a94d407ef00000000000407ff3bda6d9c950407b87fed67276aa4073be612611ae5f406744a4b2972ea14055effa2a4c88db403f76da19a7630c401efbdeb14f4ed93ff0000000000000401cd82b446159f340375ddc4efa914a404554aaa7ffeaa9404554aaa7ffeaa9,
  0x405085d06e1f05174066b7fe976aa7004074bd4096d3359c407ccd1e65f2ce14407ff3bda6d9c950407ce000000000004075535a9327d18f40697d2d0524285b405807feab1c42744040fe1e036d703c40203f81f636b80b3ff0000000000000401efbdeb14f4ed9403bedb0defaf661404e2a8c7e4a7c854054a74489a6c65d405085d06e1f0517,
  0x40565f320a9951d6406bf6fe8d3fa64c4076f9b6cb0e610a407c5c8ba190fb2d407b87fed67276aa4075535a9327d18f406a4000000000004059198c8b8307c84041bf8c9d2ed1a14020bbb307acafda3ff000000000000040203f81f636b80b403f76da19a7630c4052e85d1660a773405ea2490ebdd6b84060c76587f2fd6140565f320a9951d6,
  0x405abd4ed15b9640406e14f8ab8709084075f7fe8b1b43634077ba9baec4cd794073be612611ae5f40697d2d0524285b4059198c8b8307c840420000000000004020f876ccdf6cd93ff00000000000004020bbb307acafda4040fe1e036d703c4055effa2a4c88db4063c62c66f955e54069a153a24a7949406765a4f7302378405abd4ed15b9640,
  0x405c5c8ba190fb2d406c5c8ba190fb2d40721f8f0063bbce4070c76587f2fd61406744a4b2972ea1405807feab1c42744041bf8c9d2ed1a14020f876ccdf6cd93ff00000000000004020f876ccdf6cd94041bf8c9d2ed1a1405807feab1c4274406744a4b2972ea14070c76587f2fd6140721f8f0063bbce406c5c8ba190fb2d405c5c8ba190fb2d,
  0x405abd4ed15b9640406765a4f73023784069a153a24a79494063c62c66f955e54055effa2a4c88db4040fe1e036d703c4020bbb307acafda3ff00000000000004020f876ccdf6cd940420000000000004059198c8b8307c840697d2d0524285b4073be612611ae5f4077ba9baec4cd794075f7fe8b1b4363406e14f8ab870908405abd4ed15b9640,
  0x40565f320a9951d64060c76587f2fd61405ea2490ebdd6b84052e85d1660a773403f76da19a7630c40203f81f636b80b3ff00000000000004020bbb307acafda4041bf8c9d2ed1a14059198c8b8307c8406a4000000000004075535a9327d18f407b87fed67276aa407c5c8ba190fb2d4076f9b6cb0e610a406bf6fe8d3fa64c40565f320a9951d6,
  0x405085d06e1f05174054a74489a6c65d404e2a8c7e4a7c85403bedb0defaf661401efbdeb14f4ed93ff000000000000040203f81f636b80b4040fe1e036d703c405807feab1c427440697d2d0524285b4075535a9327d18f407ce00000000000407ff3bda6d9c950407ccd1e65f2ce144074bd4096d3359c4066b7fe976aa700405085d06e1f0517,
  0x404554aaa7ffeaa9404554aaa7ffeaa940375ddc4efa914a401cd82b446159f33ff0000000000000401efbdeb14f4ed9403f76da19a7630c4055effa2a4c88db406744a4b2972ea14073be612611ae5f407b87fed67276aa407ff3bda6d9c950407ef000000000004078c9c52ec3a94d40701087764c43e3405ffefffbffdffe404554aaa7ffeaa9,
  0x4037aa10d193c22c4031bf8c9d2ed1a14019ec474a2612633ff0000000000000401cd82b446159f3403bedb0defaf6614052e85d1660a7734063c62c66f955e54070c76587f2fd614077ba9baec4cd79407c5c8ba190fb2d407ccd1e65f2ce144078c9c52ec3a94d4071e0000000000040650ff9ec3eeef140533a2daa480dc44037aa10d193c22c,
  0x4025e8add236a58e4015e8add236a58e3ff00000000000004019ec474a26126340375ddc4efa914a404e2a8c7e4a7c85405ea2490ebdd6b84069a153a24a794940721f8f0063bbce4075f7fe8b1b43634076f9b6cb0e610a4074bd4096d3359c40701087764c43e340650ff9ec3eeef14056c0000000000040432b9817efd0dd4025e8add236a58e,
  0x40100000000000003ff00000000000004015e8add236a58e4031bf8c9d2ed1a1404554aaa7ffeaa94054a74489a6c65d4060c76587f2fd61406765a4f7302378406c5c8ba190fb2d406e14f8ab870908406bf6fe8d3fa64c4066b7fe976aa700405ffefffbffdffe40533a2daa480dc440432b9817efd0dd402e0000000000004010000000000000,
  0x3ff000000000000040100000000000004025e8add236a58e4037aa10d193c22c404554aaa7ffeaa9405085d06e1f051740565f320a9951d6405abd4ed15b9640405c5c8ba190fb2d405abd4ed15b964040565f320a9951d6405085d06e1f0517404554aaa7ffeaa94037aa10d193c22c4025e8add236a58e40100000000000003ff0000000000000]

/-- The coefficients for `2 ell = 17`: one number for each of the 18 values of `mp`, consisting of the doubles for the 18 values of `m`. -/
def wigner17 : List Nat := [
  0x3ff000000000000040107e0f66afed06402752e50db3a3a1403a13a9cb99665040486482dd5650214053aa7c62233603405bcfd6944d4f2940616e984240109a40637d5526a15c9840637d5526a15c9840616e984240109a405bcfd6944d4f294053aa7c6223360340486482dd565021403a13a9cb996650402752e50db3a3a140107e0f66afed063ff0000000000000,
  0x40107e0f66afed064030000000000000404536948017480f405622cd337f0fe840633a2daa480dc4406c9e40c8fdbe8040728cbd57e2601f407523b0e8871b7640754568b92cbc624072e85d1660a773406d985e1256c00c40643c71772580224057d935fcd374154047aa10d193c22c4032f9422c23c47d4016a09e667f3bcc3ff000000000000040107e0f66afed06,
  0x402752e50db3a3a1404536948017480f405a40000000000040696f6e113c0fde407464c2315a7652407bd31c03d3902f408065551dd15fcf4080d0f94f61ae04407e14f8ab870908407765a4f7302378406f63f3831cbc4d4061e2e87d9e97104050dd09389f401c4039198c8b8307c8401ad5336963eefb3ff00000000000004016a09e667f3bcc402752e50db3a3a1,
  0x403a13a9cb996650405622cd337f0fe840696f6e113c0fde4076c000000000004080b874bfb93b594084bd4096d3359c4085ff4ffd3fe9ff40840dfb1d04b0b0407f63f3831cbc4d4074ed4d02132833406765a4f7302378405554aaa7ffeaa9403e2a8c7e4a7c85401deeea11683f493ff0000000000000401ad5336963eefb4032f9422c23c47d403a13a9cb996650,
  0x40486482dd56502140633a2daa480dc4407464c2315a76524080b874bfb93b5940865800000000004088f14ee20b2cfa40878420518fa3824082c2663f1919b540792b184bec7c11406bf6fe8d3fa64c40590332fecc224640411a460cc58e3040201fe03f61bad03ff0000000000000401deeea11683f494039198c8b8307c84047aa10d193c22c40486482dd565021,
  0x4053aa7c62233603406c9e40c8fdbe80407bd31c03d3902f4084bd4096d3359c4088f14ee20b2cfa4088c0000000000040846aeeee7ccef5407bebf8d64f04c1406f37acf8a65898405bbfb6325af96a40429d508edf58804020f876ccdf6cd93ff000000000000040201fe03f61bad0403e2a8c7e4a7c854050dd09389f401c4057d935fcd374154053aa7c62233603,
  0x405bcfd6944d4f2940728cbd57e2601f408065551dd15fcf4085ff4ffd3fe9ff40878420518fa38240846aeeee7ccef5407ce00000000000407073fb9fb966a4405d6e9fc396fea840439f152d0f547040218cc821d6d3e23ff00000000000004020f876ccdf6cd940411a460cc58e30405554aaa7ffeaa94061e2e87d9e971040643c7177258022405bcfd6944d4f29,
  0x40616e984240109a407523b0e8871b764080d0f94f61ae0440840dfb1d04b0b04082c2663f1919b5407bebf8d64f04c1407073fb9fb966a4405e00000000000040441fe68f0af33c4021e3779b97f4a73ff000000000000040218cc821d6d3e240429d508edf588040590332fecc2246406765a4f7302378406f63f3831cbc4d406d985e1256c00c40616e984240109a,
  0x40637d5526a15c9840754568b92cbc62407e14f8ab870908407f63f3831cbc4d40792b184bec7c11406f37acf8a65898405d6e9fc396fea840441fe68f0af33c40220000000000003ff00000000000004021e3779b97f4a740439f152d0f5470405bbfb6325af96a406bf6fe8d3fa64c4074ed4d02132833407765a4f73023784072e85d1660a77340637d5526a15c98,
  0x40637d5526a15c984072e85d1660a773407765a4f73023784074ed4d02132833406bf6fe8d3fa64c405bbfb6325af96a40439f152d0f54704021e3779b97f4a73ff0000000000000402200000000000040441fe68f0af33c405d6e9fc396fea8406f37acf8a6589840792b184bec7c11407f63f3831cbc4d407e14f8ab87090840754568b92cbc6240637d5526a15c98,
  0x40616e984240109a406d985e1256c00c406f63f3831cbc4d406765a4f730237840590332fecc224640429d508edf588040218cc821d6d3e23ff00000000000004021e3779b97f4a740441fe68f0af33c405e000000000000407073fb9fb966a4407bebf8d64f04c14082c2663f1919b540840dfb1d04b0b04080d0f94f61ae04407523b0e8871b7640616e984240109a,
  0x405bcfd6944d4f2940643c71772580224061e2e87d9e9710405554aaa7ffeaa940411a460cc58e304020f876ccdf6cd93ff000000000000040218cc821d6d3e240439f152d0f5470405d6e9fc396fea8407073fb9fb966a4407ce0000000000040846aeeee7ccef540878420518fa3824085ff4ffd3fe9ff408065551dd15fcf40728cbd57e2601f405bcfd6944d4f29,
  0x4053aa7c622336034057d935fcd374154050dd09389f401c403e2a8c7e4a7c8540201fe03f61bad03ff00000000000004020f876ccdf6cd940429d508edf5880405bbfb6325af96a406f37acf8a65898407bebf8d64f04c140846aeeee7ccef54088c000000000004088f14ee20b2cfa4084bd4096d3359c407bd31c03d3902f406c9e40c8fdbe804053aa7c62233603,
  0x40486482dd5650214047aa10d193c22c4039198c8b8307c8401deeea11683f493ff000000000000040201fe03f61bad040411a460cc58e3040590332fecc2246406bf6fe8d3fa64c40792b184bec7c114082c2663f1919b540878420518fa3824088f14ee20b2cfa40865800000000004080b874bfb93b59407464c2315a765240633a2daa480dc440486482dd565021,
  0x403a13a9cb9966504032f9422c23c47d401ad5336963eefb3ff0000000000000401deeea11683f49403e2a8c7e4a7c85405554aaa7ffeaa9406765a4f73023784074ed4d02132833407f63f3831cbc4d40840dfb1d04b0b04085ff4ffd3fe9ff4084bd4096d3359c4080b874bfb93b594076c0000000000040696f6e113c0fde405622cd337f0fe8403a13a9cb996650,
  0x402752e50db3a3a14016a09e667f3bcc3ff0000000000000401ad5336963eefb4039198c8b8307c84050dd09389f401c4061e2e87d9e9710406f63f3831cbc4d407765a4f7302378407e14f8ab8709084080d0f94f61ae04408065551dd15fcf407bd31c03d3902f407464c2315a765240696f6e113c0fde405a400000000000404536948017480f402752e50db3a3a1,
  0x40107e0f66afed063ff00000000000004016a09e667f3bcc4032f9422c23c47d4047aa10d193c22c4057d935fcd3741540643c7177258022406d985e1256c00c4072e85d1660a77340754568b92cbc62407523b0e8871b7640728cbd57e2601f406c9e40c8fdbe8040633a2daa480dc4405622cd337f0fe8404536948017480f403000000000000040107e0f66afed06,
  0x3ff000000000000040107e0f66afed06402752e50db3a3a1403a13a9cb99665040486482dd5650214053aa7c62233603405bcfd6944d4f2940616e984240109a40637d5526a15c9840637d5526a15c9840616e984240109a405bcfd6944d4f294053aa7c6223360340486482dd565021403a13a9cb996650402752e50db3a3a140107e0f66afed063ff0000000000000]

/-- The coefficients for `2 ell = 18`: one number for each of the 19 values of `mp`, consisting of the doubles for the 19 values of `m`. -/
def wigner18 : List Nat := [
  0x3ff00000000000004010f876ccdf6cd94028bd171a07e38a403c90d29d2d43cd404ba89c325845e7405724103f96baf9406107fe1f005db740664c9205aabb23406a25e4636018e7406b8ffb5b2304ea406a25e4636018e740664c9205aabb23406107fe1f005db7405724103f96baf9404ba89c325845e7403c90d29d2d43cd4028bd171a07e38a4010f876ccdf6cd93ff0000000000000,
  0x4010f876ccdf6cd94031000000000000404752e50db3a3a140593faee39c23984066d134922639864071ba0634927d30407815f5f3de59c7407ce8604f144860407ed0d3d9d8432e407d3bffb9f20ae44078a70fe179cf58407265548f69ff83406815f5f3de59c7405b459364929936404a13a9cb996650403432f24fb01c7a401752e50db3a3a13ff00000000000004010f876ccdf6cd9,
  0x4028bd171a07e38a404752e50db3a3a1405e000000000000406e4f966e2093da40796f6e113c0fde40823d96a29b86904086b7fe976aa7004088c9c52ec3a94d4087c8270597fee540840dfb1d04b0b0407d985e1256c00c4072eddc64dfe3074064a74489a6c65d4052b5524ae1278d403ad5336963eefb401bb67ae8584caa3ff0000000000000401752e50db3a3a14028bd171a07e38a,
  0x403c90d29d2d43cd40593faee39c2398406e4f966e2093da407c70000000000040860710520e620e408cf5f7a4d6888b409065551dd15fcf409019b2dc9f8a57408b75fe2de2143b4084432f2834e9b24079a153a24a7949406b5265d37b575e4057d935fcd37415404033ac8e57cb7e401efbdeb14f4ed93ff0000000000000401bb67ae8584caa403432f24fb01c7a403c90d29d2d43cd,
  0x404ba89c325845e74066d1349226398640796f6e113c0fde40860710520e620e408f4800000000004092b1b20292ec7640930cdc11b6f5314090a0df415cc8a64088d0fa2d5edbc8407f63f3831cbc4d40708b5173949285405c37c86eeb06ec404279137606bf374020bbb307acafda3ff0000000000000401efbdeb14f4ed9403ad5336963eefb404a13a9cb996650404ba89c325845e7,
  0x405724103f96baf94071ba0634927d3040823d96a29b8690408cf5f7a4d6888b4092b1b20292ec7640941c00000000004092372b73e9608b408bd31c03d3902f4081cbf4c3139a1a4072c2663f1919b5405fa37a3e5bbca140443c71772580224021a9dc8f6df1033ff00000000000004020bbb307acafda404033ac8e57cb7e4052b5524ae1278d405b459364929936405724103f96baf9,
  0x406107fe1f005db7407815f5f3de59c74086b7fe976aa700409065551dd15fcf40930cdc11b6f5314092372b73e9608b408ce000000000004082e7332eddc7794074269abe0d12a44060fe1e036d703c40457e82ecdabe8c4022548eb9151e853ff00000000000004021a9dc8f6df103404279137606bf374057d935fcd374154064a74489a6c65d406815f5f3de59c7406107fe1f005db7,
  0x40664c9205aabb23407ce8604f1448604088c9c52ec3a94d409019b2dc9f8a574090a0df415cc8a6408bd31c03d3902f4082e7332eddc7794074a00000000000406196cc93bf113c40463fa3f3c029614022c2fc595456a63ff00000000000004022548eb9151e8540443c7177258022405c37c86eeb06ec406b5265d37b575e4072eddc64dfe307407265548f69ff8340664c9205aabb23,
  0x406a25e4636018e7407ed0d3d9d8432e4087c8270597fee5408b75fe2de2143b4088d0fa2d5edbc84081cbf4c3139a1a4074269abe0d12a4406196cc93bf113c40468000000000004022f9422c23c47d3ff00000000000004022c2fc595456a640457e82ecdabe8c405fa37a3e5bbca140708b51739492854079a153a24a7949407d985e1256c00c4078a70fe179cf58406a25e4636018e7,
  0x406b8ffb5b2304ea407d3bffb9f20ae440840dfb1d04b0b04084432f2834e9b2407f63f3831cbc4d4072c2663f1919b54060fe1e036d703c40463fa3f3c029614022f9422c23c47d3ff00000000000004022f9422c23c47d40463fa3f3c029614060fe1e036d703c4072c2663f1919b5407f63f3831cbc4d4084432f2834e9b240840dfb1d04b0b0407d3bffb9f20ae4406b8ffb5b2304ea,
  0x406a25e4636018e74078a70fe179cf58407d985e1256c00c4079a153a24a794940708b5173949285405fa37a3e5bbca140457e82ecdabe8c4022c2fc595456a63ff00000000000004022f9422c23c47d4046800000000000406196cc93bf113c4074269abe0d12a44081cbf4c3139a1a4088d0fa2d5edbc8408b75fe2de2143b4087c8270597fee5407ed0d3d9d8432e406a25e4636018e7,
  0x40664c9205aabb23407265548f69ff834072eddc64dfe307406b5265d37b575e405c37c86eeb06ec40443c71772580224022548eb9151e853ff00000000000004022c2fc595456a640463fa3f3c02961406196cc93bf113c4074a000000000004082e7332eddc779408bd31c03d3902f4090a0df415cc8a6409019b2dc9f8a574088c9c52ec3a94d407ce8604f14486040664c9205aabb23,
  0x406107fe1f005db7406815f5f3de59c74064a74489a6c65d4057d935fcd37415404279137606bf374021a9dc8f6df1033ff00000000000004022548eb9151e8540457e82ecdabe8c4060fe1e036d703c4074269abe0d12a44082e7332eddc779408ce000000000004092372b73e9608b40930cdc11b6f531409065551dd15fcf4086b7fe976aa700407815f5f3de59c7406107fe1f005db7,
  0x405724103f96baf9405b4593649299364052b5524ae1278d404033ac8e57cb7e4020bbb307acafda3ff00000000000004021a9dc8f6df10340443c7177258022405fa37a3e5bbca14072c2663f1919b54081cbf4c3139a1a408bd31c03d3902f4092372b73e9608b40941c00000000004092b1b20292ec76408cf5f7a4d6888b40823d96a29b86904071ba0634927d30405724103f96baf9,
  0x404ba89c325845e7404a13a9cb996650403ad5336963eefb401efbdeb14f4ed93ff00000000000004020bbb307acafda404279137606bf37405c37c86eeb06ec40708b5173949285407f63f3831cbc4d4088d0fa2d5edbc84090a0df415cc8a640930cdc11b6f5314092b1b20292ec76408f48000000000040860710520e620e40796f6e113c0fde4066d13492263986404ba89c325845e7,
  0x403c90d29d2d43cd403432f24fb01c7a401bb67ae8584caa3ff0000000000000401efbdeb14f4ed9404033ac8e57cb7e4057d935fcd37415406b5265d37b575e4079a153a24a79494084432f2834e9b2408b75fe2de2143b409019b2dc9f8a57409065551dd15fcf408cf5f7a4d6888b40860710520e620e407c700000000000406e4f966e2093da40593faee39c2398403c90d29d2d43cd,
  0x4028bd171a07e38a401752e50db3a3a13ff0000000000000401bb67ae8584caa403ad5336963eefb4052b5524ae1278d4064a74489a6c65d4072eddc64dfe307407d985e1256c00c40840dfb1d04b0b04087c8270597fee54088c9c52ec3a94d4086b7fe976aa70040823d96a29b869040796f6e113c0fde406e4f966e2093da405e000000000000404752e50db3a3a14028bd171a07e38a,
  0x4010f876ccdf6cd93ff0000000000000401752e50db3a3a1403432f24fb01c7a404a13a9cb996650405b459364929936406815f5f3de59c7407265548f69ff834078a70fe179cf58407d3bffb9f20ae4407ed0d3d9d8432e407ce8604f144860407815f5f3de59c74071ba0634927d304066d1349226398640593faee39c2398404752e50db3a3a140310000000000004010f876ccdf6cd9,
  0x3ff00000000000004010f876ccdf6cd94028bd171a07e38a403c90d29d2d43cd404ba89c325845e7405724103f96baf9406107fe1f005db740664c9205aabb23406a25e4636018e7406b8ffb5b2304ea406a25e4636018e740664c9205aabb23406107fe1f005db7405724103f96baf9404ba89c325845e7403c90d29d2d43cd4028bd171a07e38a4010f876ccdf6cd93ff0000000000000]

/-- The coefficients for `2 ell = 19`: one number for each of the 20 values of `mp`, consisting of the doubles for the 20 values of `m`. -/
def wigner19 : List Nat := [
  0x3ff000000000000040116f8334644df8402a2744ce9674f4403f20f6bb68a9cb404f20f6bb68a9cb405af553391bbf11406496f95ed93217406c0f207c3ce29b40712ebfb8c3e4b54072fefff94303854072fefff943038540712ebfb8c3e4b5406c0f207c3ce29b406496f95ed93217405af553391bbf11404f20f6bb68a9cb403f20f6bb68a9cb402a2744ce9674f440116f8334644df83ff0000000000000,
  0x40116f8334644df840320000000000004049800000000000405c90d29d2d43cd406ac7c5735a6f904075a57436c6e719407eb416ab27b47b40834fc4591da9304085ae483b4f36484085ca3e52d014c140839c6b4a8812ad407f89233efeda98407687ba67f7f00d406c577762e992e8405eec5ce089dc6d404c90d29d2d43cd40356c9df5e1f2da40180000000000003ff000000000000040116f8334644df8,
  0x402a2744ce9674f4404980000000000040610000000000004071da83a23c4a60407f3e665be982284087733de6022505408eb416ab27b47b4091b3c951b085c14092113c316cad3c409057aebe1c0f90408a25e4636018e7408265548f69ff83407687ba67f7f00d40679e38d26d4fc140549d93405be848403c90d29d2d43cd401c90d29d2d43cd3ff00000000000004018000000000000402a2744ce9674f4,
  0x403f20f6bb68a9cb405c90d29d2d43cd4071da83a23c4a604081800000000000408c7000000000004093b3bb612ec6814097a57a9fb9b2154098c9c52ec3a94d4096c4f650e3b8ae40924ea973ec0d7d4089a153a24a7949407ee941fb0065c6406f8c6f52ca7a62405a751f9447b7244041520cd1372fea40200000000000003ff0000000000000401c90d29d2d43cd40356c9df5e1f2da403f20f6bb68a9cb,
  0x404f20f6bb68a9cb406ac7c5735a6f90407f3e665be98228408c7000000000004095540000000000409b1721a5a050f1409d8ed947a81e9a409be2fdd49c1e764096c4f650e3b8ae409004d4456e8bcd408338feb9b7daf6407351c93ce03f9b405f8c6f52ca7a624043d7d7af35c95b4021520cd1372fea3ff00000000000004020000000000000403c90d29d2d43cd404c90d29d2d43cd404f20f6bb68a9cb,
  0x405af553391bbf114075a57436c6e7194087733de60225054093b3bb612ec681409b1721a5a050f1409f480000000000409eb7b32c2864254099c2b7c765aa264092677e78c96947408632468dc11009407632468dc110094061d8b8b32fe9f74045db84a92f79184022548eb9151e853ff00000000000004021520cd1372fea4041520cd1372fea40549d93405be848405eec5ce089dc6d405af553391bbf11,
  0x406496f95ed93217407eb416ab27b47b408eb416ab27b47b4097a57a9fb9b215409d8ed947a81e9a409eb7b32c286425409ad000000000004093accc8a2e72f8408818cb317265d4407837def7a7689040635fe592ec53a640475ddc4efa914a4023142b30a929ab3ff00000000000004022548eb9151e854043d7d7af35c95b405a751f9447b72440679e38d26d4fc1406c577762e992e8406496f95ed93217,
  0x406c0f207c3ce29b40834fc4591da9304091b3c951b085c14098c9c52ec3a94d409be2fdd49c1e764099c2b7c765aa264093accc8a2e72f84088c00000000000407942a725d3c4c540644f6273c4660e40485f42f15214114023988e1409212e3ff00000000000004023142b30a929ab4045db84a92f7918405f8c6f52ca7a62406f8c6f52ca7a62407687ba67f7f00d407687ba67f7f00d406c0f207c3ce29b,
  0x40712ebfb8c3e4b54085ae483b4f36484092113c316cad3c4096c4f650e3b8ae4096c4f650e3b8ae4092677e78c96947408818cb317265d4407942a725d3c4c54064a000000000004048dfeb6abd98404023e655eefe13673ff00000000000004023988e1409212e40475ddc4efa914a4061d8b8b32fe9f7407351c93ce03f9b407ee941fb0065c6408265548f69ff83407f89233efeda9840712ebfb8c3e4b5,
  0x4072fefff94303854085ca3e52d014c1409057aebe1c0f9040924ea973ec0d7d409004d4456e8bcd408632468dc11009407837def7a7689040644f6273c4660e4048dfeb6abd984040240000000000003ff00000000000004023e655eefe136740485f42f152141140635fe592ec53a6407632468dc11009408338feb9b7daf64089a153a24a7949408a25e4636018e740839c6b4a8812ad4072fefff9430385,
  0x4072fefff943038540839c6b4a8812ad408a25e4636018e74089a153a24a7949408338feb9b7daf6407632468dc1100940635fe592ec53a640485f42f15214114023e655eefe13673ff000000000000040240000000000004048dfeb6abd984040644f6273c4660e407837def7a76890408632468dc11009409004d4456e8bcd40924ea973ec0d7d409057aebe1c0f904085ca3e52d014c14072fefff9430385,
  0x40712ebfb8c3e4b5407f89233efeda98408265548f69ff83407ee941fb0065c6407351c93ce03f9b4061d8b8b32fe9f740475ddc4efa914a4023988e1409212e3ff00000000000004023e655eefe13674048dfeb6abd98404064a00000000000407942a725d3c4c5408818cb317265d44092677e78c969474096c4f650e3b8ae4096c4f650e3b8ae4092113c316cad3c4085ae483b4f364840712ebfb8c3e4b5,
  0x406c0f207c3ce29b407687ba67f7f00d407687ba67f7f00d406f8c6f52ca7a62405f8c6f52ca7a624045db84a92f79184023142b30a929ab3ff00000000000004023988e1409212e40485f42f152141140644f6273c4660e407942a725d3c4c54088c000000000004093accc8a2e72f84099c2b7c765aa26409be2fdd49c1e764098c9c52ec3a94d4091b3c951b085c140834fc4591da930406c0f207c3ce29b,
  0x406496f95ed93217406c577762e992e840679e38d26d4fc1405a751f9447b7244043d7d7af35c95b4022548eb9151e853ff00000000000004023142b30a929ab40475ddc4efa914a40635fe592ec53a6407837def7a76890408818cb317265d44093accc8a2e72f8409ad00000000000409eb7b32c286425409d8ed947a81e9a4097a57a9fb9b215408eb416ab27b47b407eb416ab27b47b406496f95ed93217,
  0x405af553391bbf11405eec5ce089dc6d40549d93405be8484041520cd1372fea4021520cd1372fea3ff00000000000004022548eb9151e854045db84a92f79184061d8b8b32fe9f7407632468dc11009408632468dc110094092677e78c969474099c2b7c765aa26409eb7b32c286425409f480000000000409b1721a5a050f14093b3bb612ec6814087733de60225054075a57436c6e719405af553391bbf11,
  0x404f20f6bb68a9cb404c90d29d2d43cd403c90d29d2d43cd40200000000000003ff00000000000004021520cd1372fea4043d7d7af35c95b405f8c6f52ca7a62407351c93ce03f9b408338feb9b7daf6409004d4456e8bcd4096c4f650e3b8ae409be2fdd49c1e76409d8ed947a81e9a409b1721a5a050f14095540000000000408c700000000000407f3e665be98228406ac7c5735a6f90404f20f6bb68a9cb,
  0x403f20f6bb68a9cb40356c9df5e1f2da401c90d29d2d43cd3ff000000000000040200000000000004041520cd1372fea405a751f9447b724406f8c6f52ca7a62407ee941fb0065c64089a153a24a794940924ea973ec0d7d4096c4f650e3b8ae4098c9c52ec3a94d4097a57a9fb9b2154093b3bb612ec681408c70000000000040818000000000004071da83a23c4a60405c90d29d2d43cd403f20f6bb68a9cb,
  0x402a2744ce9674f440180000000000003ff0000000000000401c90d29d2d43cd403c90d29d2d43cd40549d93405be84840679e38d26d4fc1407687ba67f7f00d408265548f69ff83408a25e4636018e7409057aebe1c0f904092113c316cad3c4091b3c951b085c1408eb416ab27b47b4087733de6022505407f3e665be982284071da83a23c4a6040610000000000004049800000000000402a2744ce9674f4,
  0x40116f8334644df83ff0000000000000401800000000000040356c9df5e1f2da404c90d29d2d43cd405eec5ce089dc6d406c577762e992e8407687ba67f7f00d407f89233efeda9840839c6b4a8812ad4085ca3e52d014c14085ae483b4f364840834fc4591da930407eb416ab27b47b4075a57436c6e719406ac7c5735a6f90405c90d29d2d43cd4049800000000000403200000000000040116f8334644df8,
  0x3ff000000000000040116f8334644df8402a2744ce9674f4403f20f6bb68a9cb404f20f6bb68a9cb405af553391bbf11406496f95ed93217406c0f207c3ce29b40712ebfb8c3e4b54072fefff94303854072fefff943038540712ebfb8c3e4b5406c0f207c3ce29b406496f95ed93217405af553391bbf11404f20f6bb68a9cb403f20f6bb68a9cb402a2744ce9674f440116f8334644df83ff0000000000000]

/-- The coefficients for `2 ell = 20`: one number for each of the 21 values of `mp`, consisting of the doubles for the 21 values of `m`. -/
def wigner20 : List Nat := [
  0x3ff00000000000004011e3779b97f4a7402b916ed68964ec4040e1c7047b3b50405166c943c20e3c405f20f6bb68a9cb40689c04e04d8934407166c943c20e3c40762ec2ab6ad94c40799d448989fce4407add5206492f5440799d448989fce440762ec2ab6ad94c407166c943c20e3c40689c04e04d8934405f20f6bb68a9cb405166c943c20e3c4040e1c7047b3b50402b916ed68964ec4011e3779b97f4a73ff0000000000000,
  0x4011e3779b97f4a74033000000000000404bbd67a995e72440600b1c248e1e28406f20f6bb68a9cb407a1a2de5a3155a4083428b77d9123b40894ac8784509f5408dc2db4a9ad67c408f805f7d67234d408e0913f5b82d754089c61f9525d7104083d73cdc6739a8407b3cd7e3fb94914070822e66ba0fa0406166c943c20e3c404f20f6bb68a9cb4036a645d9411b844018a85c24f706593ff00000000000004011e3779b97f4a7,
  0x402b916ed68964ec404bbd67a995e72440632000000000004074d216f549b3414082efc32ab51ab2408da3f2c65d676140944ef5bbbe2e3440989e17511ea2b5409a8dadfa88c8a240998d11fbd3a1184095ecffcb75882b4090b96d84400c5a408687ba67f7f00d407a82de08972560406ac7c5735a6f904056954b41cd4293403e4c6b77882ab7401d64d51e0db1c53ff00000000000004018a85c24f70659402b916ed68964ec,
  0x4040e1c7047b3b5040600b1c248e1e284074d216f549b3414085400000000000409209e0d8506b3f409a37d40fb9024340a094eed7bdb65440a26cd534b88acd40a2113c316cad3c409f4b2469e22f8f4097dea8d78a1b17408fdccca3a9ca06408265548f69ff83407209e0d8506b3f405d279e51208c8a4042706821902e9a40207e0f66afed063ff0000000000000401d64d51e0db1c54036a645d9411b844040e1c7047b3b50,
  0x405166c943c20e3c406f20f6bb68a9cb4082efc32ab51ab2409209e0d8506b3f409c70000000000040a313928ced0be640a61e82d7b1e03440a658000000000040a3b807816a155e409e5bf31684f63e4094432f2834e9b240872ef17c404c5440764ee6dffbe4754061800000000000404536948017480f4021e3779b97f4a73ff000000000000040207e0f66afed06403e4c6b77882ab7404f20f6bb68a9cb405166c943c20e3c,
  0x405f20f6bb68a9cb407a1a2de5a3155a408da3f2c65d6761409a37d40fb9024340a313928ced0be640a776000000000040a8bae13f87f3c540a67ba393ce3bbd40a1a3183d2bbaa24097c2833c4a467f408b2f56809599b64079eb77e4ae1e5c4063f3fc643bd08d40477a8cfc37711c4022f9422c23c47d3ff00000000000004021e3779b97f4a74042706821902e9a4056954b41cd4293406166c943c20e3c405f20f6bb68a9cb,
  0x40689c04e04d89344083428b77d9123b40944ef5bbbe2e3440a094eed7bdb65440a61e82d7b1e03440a8bae13f87f3c540a776000000000040a2f594b8e19b9a409a070f0ab3d82a408e0dd668a14681407ca7c94819ed224065db84a92f791840493d25dbd52eb44023cc8a99af54523ff00000000000004022f9422c23c47d404536948017480f405d279e51208c8a406ac7c5735a6f904070822e66ba0fa040689c04e04d8934,
  0x407166c943c20e3c40894ac8784509f540989e17511ea2b540a26cd534b88acd40a658000000000040a67ba393ce3bbd40a2f594b8e19b9a409ad00000000000408f8cd8cf102231407e5bf31684f63e40672835e4cec1f0404a7ecad724e985402465655f122ff63ff00000000000004023cc8a99af545240477a8cfc37711c4061800000000000407209e0d8506b3f407a82de08972560407b3cd7e3fb9491407166c943c20e3c,
  0x40762ec2ab6ad94c408dc2db4a9ad67c409a8dadfa88c8a240a2113c316cad3c40a3b807816a155e40a1a3183d2bbaa2409a070f0ab3d82a408f8cd8cf102231407ef000000000004067d0d19fabe1e2404b3fb4d7ab24d74024c8dc2e42397f3ff0000000000000402465655f122ff640493d25dbd52eb44063f3fc643bd08d40764ee6dffbe475408265548f69ff83408687ba67f7f00d4083d73cdc6739a840762ec2ab6ad94c,
  0x40799d448989fce4408f805f7d67234d40998d11fbd3a118409f4b2469e22f8f409e5bf31684f63e4097c2833c4a467f408e0dd668a14681407e5bf31684f63e4067d0d19fabe1e2404b8000000000004024f9e6bbc4ecb33ff00000000000004024c8dc2e42397f404a7ecad724e9854065db84a92f79184079eb77e4ae1e5c40872ef17c404c54408fdccca3a9ca064090b96d84400c5a4089c61f9525d71040799d448989fce4,
  0x407add5206492f54408e0913f5b82d754095ecffcb75882b4097dea8d78a1b174094432f2834e9b2408b2f56809599b6407ca7c94819ed2240672835e4cec1f0404b3fb4d7ab24d74024f9e6bbc4ecb33ff00000000000004024f9e6bbc4ecb3404b3fb4d7ab24d740672835e4cec1f0407ca7c94819ed22408b2f56809599b64094432f2834e9b24097dea8d78a1b174095ecffcb75882b408e0913f5b82d75407add5206492f54,
  0x40799d448989fce44089c61f9525d7104090b96d84400c5a408fdccca3a9ca0640872ef17c404c544079eb77e4ae1e5c4065db84a92f7918404a7ecad724e9854024c8dc2e42397f3ff00000000000004024f9e6bbc4ecb3404b8000000000004067d0d19fabe1e2407e5bf31684f63e408e0dd668a146814097c2833c4a467f409e5bf31684f63e409f4b2469e22f8f40998d11fbd3a118408f805f7d67234d40799d448989fce4,
  0x40762ec2ab6ad94c4083d73cdc6739a8408687ba67f7f00d408265548f69ff8340764ee6dffbe4754063f3fc643bd08d40493d25dbd52eb4402465655f122ff63ff00000000000004024c8dc2e42397f404b3fb4d7ab24d74067d0d19fabe1e2407ef00000000000408f8cd8cf102231409a070f0ab3d82a40a1a3183d2bbaa240a3b807816a155e40a2113c316cad3c409a8dadfa88c8a2408dc2db4a9ad67c40762ec2ab6ad94c,
  0x407166c943c20e3c407b3cd7e3fb9491407a82de08972560407209e0d8506b3f406180000000000040477a8cfc37711c4023cc8a99af54523ff0000000000000402465655f122ff6404a7ecad724e98540672835e4cec1f0407e5bf31684f63e408f8cd8cf102231409ad0000000000040a2f594b8e19b9a40a67ba393ce3bbd40a658000000000040a26cd534b88acd40989e17511ea2b540894ac8784509f5407166c943c20e3c,
  0x40689c04e04d89344070822e66ba0fa0406ac7c5735a6f90405d279e51208c8a404536948017480f4022f9422c23c47d3ff00000000000004023cc8a99af545240493d25dbd52eb44065db84a92f7918407ca7c94819ed22408e0dd668a14681409a070f0ab3d82a40a2f594b8e19b9a40a776000000000040a8bae13f87f3c540a61e82d7b1e03440a094eed7bdb65440944ef5bbbe2e344083428b77d9123b40689c04e04d8934,
  0x405f20f6bb68a9cb406166c943c20e3c4056954b41cd42934042706821902e9a4021e3779b97f4a73ff00000000000004022f9422c23c47d40477a8cfc37711c4063f3fc643bd08d4079eb77e4ae1e5c408b2f56809599b64097c2833c4a467f40a1a3183d2bbaa240a67ba393ce3bbd40a8bae13f87f3c540a776000000000040a313928ced0be6409a37d40fb90243408da3f2c65d6761407a1a2de5a3155a405f20f6bb68a9cb,
  0x405166c943c20e3c404f20f6bb68a9cb403e4c6b77882ab740207e0f66afed063ff00000000000004021e3779b97f4a7404536948017480f406180000000000040764ee6dffbe47540872ef17c404c544094432f2834e9b2409e5bf31684f63e40a3b807816a155e40a658000000000040a61e82d7b1e03440a313928ced0be6409c700000000000409209e0d8506b3f4082efc32ab51ab2406f20f6bb68a9cb405166c943c20e3c,
  0x4040e1c7047b3b504036a645d9411b84401d64d51e0db1c53ff000000000000040207e0f66afed064042706821902e9a405d279e51208c8a407209e0d8506b3f408265548f69ff83408fdccca3a9ca064097dea8d78a1b17409f4b2469e22f8f40a2113c316cad3c40a26cd534b88acd40a094eed7bdb654409a37d40fb90243409209e0d8506b3f40854000000000004074d216f549b34140600b1c248e1e284040e1c7047b3b50,
  0x402b916ed68964ec4018a85c24f706593ff0000000000000401d64d51e0db1c5403e4c6b77882ab74056954b41cd4293406ac7c5735a6f90407a82de08972560408687ba67f7f00d4090b96d84400c5a4095ecffcb75882b40998d11fbd3a118409a8dadfa88c8a240989e17511ea2b540944ef5bbbe2e34408da3f2c65d67614082efc32ab51ab24074d216f549b3414063200000000000404bbd67a995e724402b916ed68964ec,
  0x4011e3779b97f4a73ff00000000000004018a85c24f706594036a645d9411b84404f20f6bb68a9cb406166c943c20e3c4070822e66ba0fa0407b3cd7e3fb94914083d73cdc6739a84089c61f9525d710408e0913f5b82d75408f805f7d67234d408dc2db4a9ad67c40894ac8784509f54083428b77d9123b407a1a2de5a3155a406f20f6bb68a9cb40600b1c248e1e28404bbd67a995e72440330000000000004011e3779b97f4a7,
  0x3ff00000000000004011e3779b97f4a7402b916ed68964ec4040e1c7047b3b50405166c943c20e3c405f20f6bb68a9cb40689c04e04d8934407166c943c20e3c40762ec2ab6ad94c40799d448989fce4407add5206492f5440799d448989fce440762ec2ab6ad94c407166c943c20e3c40689c04e04d8934405f20f6bb68a9cb405166c943c20e3c4040e1c7047b3b50402b916ed68964ec4011e3779b97f4a73ff0000000000000]

/-- The coefficients for `2 ell = 21`: one number for each of the 22 values of `mp`, consisting of the doubles for the 22 values of `m`. -/
def wigner21 : List Nat := [
  0x3ff00000000000004012548eb9151e85402cfb95bb9dcc0c40423c0d99c1743540535737d0f147244061d4cc2768cf9e406d1e4876e3da8140754ff9fe7ec745407c31941b488c344080f139944e863340828f311d1cd2c840828f311d1cd2c84080f139944e8633407c31941b488c3440754ff9fe7ec745406d1e4876e3da814061d4cc2768cf9e40535737d0f1472440423c0d99c17435402cfb95bb9dcc0c4012548eb9151e853ff0000000000000,
  0x4012548eb9151e854034000000000000404e0aa8c5e34c724061e7efea86d98d4071efe374c2ef05407f20f6bb68a9cb4087d3f79b45ddaf409047122766db0f4093fec3f63eff7a40962ec2ab6ad94c4096465f7267d7db40943ff9add2c43c4090a312009022f940889c04e04d8934408047122766db0f40730ff94904b1594063749a35216a1e4050e1c7047b3b504037dfea8e09221140194c583ada5b523ff00000000000004012548eb9151e85,
  0x402cfb95bb9dcc0c404e0aa8c5e34c724065600000000000407810aa36d52d3d4086b054a02d472f40927503a83a26e7409a5f6d3025e1b640a0baaa9d1078b240a2f8165a33c77740a34a665569dbca40a19c1f1e8edddd409cd0ed1abb3c8040950b585d2da9f4408b3cd7e3fb9491407ee2760e45cb22406e23ea802b4b1a40589c04e04d8934404003ff801ff603401e3307cc56cf5b3ff000000000000040194c583ada5b52402cfb95bb9dcc0c,
  0x40423c0d99c174354061e7efea86d98d407810aa36d52d3d4089800000000000409689fdc818bc9040a11ce76d9cab2440a6b49d26931be040aa97094edbbbc840aba33fcf14d03440a98d11fbd3a11840a4fe099f624ee2409e88c82da64431409382ffc4f563be4085a57436c6e7194074742e8b6df2e9405feffbfdfebf1f40438ebf58b30cbc4020f876ccdf6cd93ff0000000000000401e3307cc56cf5b4037dfea8e09221140423c0d99c17435,
  0x40535737d0f147244071efe374c2ef054086b054a02d472f409689fdc818bc9040a298000000000040aa37d40fb9024340b00e2380c7ed5440b13c316f5c434140b049216f512e8140ab19da4a2303da40a3cab0f451a3ca409930841fadb930408b97fed71eff45407982aa86fc7af8406348b834fd9bcf4046954b41cd42934022706821902e9a3ff00000000000004020f876ccdf6cd9404003ff801ff6034050e1c7047b3b5040535737d0f14724,
  0x4061d4cc2768cf9e407f20f6bb68a9cb40927503a83a26e740a11ce76d9cab2440aa37d40fb9024340b110000000000040b327e0e315ecaf40b2b1b20292ec7640afcbb3e3f7f04740a78420518fa382409e0dd668a14681409064a37ee39ad2407dedfa9659b8d4406622cd337f0fe84049198c8b8307c84023988e1409212e3ff00000000000004022706821902e9a40438ebf58b30cbc40589c04e04d89344063749a35216a1e4061d4cc2768cf9e,
  0x406d1e4876e3da814087d3f79b45ddaf409a5f6d3025e1b640a6b49d26931be040b00e2380c7ed5440b327e0e315ecaf40b38d000000000040b12bf11ef4a97d40a9f60a1790f39140a0ccfc6622f8364092677e78c969474080bb2d27fceb5840686ffac31b9795404b1c62db2564fe40247e7054af09893ff00000000000004023988e1409212e4046954b41cd4293405feffbfdfebf1f406e23ea802b4b1a40730ff94904b159406d1e4876e3da81,
  0x40754ff9fe7ec745409047122766db0f40a0baaa9d1078b240aa97094edbbbc840b13c316f5c434140b2b1b20292ec7640b12bf11ef4a97d40aad0000000000040a1bc1bf7cb458f4093accc8a2e72f84081f5f286b793e8406a1fec66dc7a0c404c9e40c8fdbe8040252a7fa9d2f8e93ff000000000000040247e7054af09894049198c8b8307c8406348b834fd9bcf4074742e8b6df2e9407ee2760e45cb22408047122766db0f40754ff9fe7ec745,
  0x407c31941b488c344093fec3f63eff7a40a2f8165a33c77740aba33fcf14d03440b049216f512e8140afcbb3e3f7f04740a9f60a1790f39140a1bc1bf7cb458f40941c000000000040829753e312bef9406b277169797524404d9f64731022b34025a220734903763ff000000000000040252a7fa9d2f8e9404b1c62db2564fe406622cd337f0fe8407982aa86fc7af84085a57436c6e719408b3cd7e3fb949140889c04e04d8934407c31941b488c34,
  0x4080f139944e863340962ec2ab6ad94c40a34a665569dbca40a98d11fbd3a11840ab19da4a2303da40a78420518fa38240a0ccfc6622f8364093accc8a2e72f840829753e312bef9406b800000000000404e1fef010b23a44025e8add236a58e3ff00000000000004025a22073490376404c9e40c8fdbe8040686ffac31b9795407dedfa9659b8d4408b97fed71eff45409382ffc4f563be40950b585d2da9f44090a312009022f94080f139944e8633,
  0x40828f311d1cd2c84096465f7267d7db40a19c1f1e8edddd40a4fe099f624ee240a3cab0f451a3ca409e0dd668a146814092677e78c969474081f5f286b793e8406b277169797524404e1fef010b23a440260000000000003ff00000000000004025e8add236a58e404d9f64731022b3406a1fec66dc7a0c4080bb2d27fceb58409064a37ee39ad2409930841fadb930409e88c82da64431409cd0ed1abb3c8040943ff9add2c43c40828f311d1cd2c8,
  0x40828f311d1cd2c840943ff9add2c43c409cd0ed1abb3c80409e88c82da64431409930841fadb930409064a37ee39ad24080bb2d27fceb58406a1fec66dc7a0c404d9f64731022b34025e8add236a58e3ff00000000000004026000000000000404e1fef010b23a4406b2771697975244081f5f286b793e84092677e78c96947409e0dd668a1468140a3cab0f451a3ca40a4fe099f624ee240a19c1f1e8edddd4096465f7267d7db40828f311d1cd2c8,
  0x4080f139944e86334090a312009022f940950b585d2da9f4409382ffc4f563be408b97fed71eff45407dedfa9659b8d440686ffac31b9795404c9e40c8fdbe804025a220734903763ff00000000000004025e8add236a58e404e1fef010b23a4406b80000000000040829753e312bef94093accc8a2e72f840a0ccfc6622f83640a78420518fa38240ab19da4a2303da40a98d11fbd3a11840a34a665569dbca40962ec2ab6ad94c4080f139944e8633,
  0x407c31941b488c3440889c04e04d8934408b3cd7e3fb94914085a57436c6e719407982aa86fc7af8406622cd337f0fe8404b1c62db2564fe40252a7fa9d2f8e93ff00000000000004025a22073490376404d9f64731022b3406b27716979752440829753e312bef940941c000000000040a1bc1bf7cb458f40a9f60a1790f39140afcbb3e3f7f04740b049216f512e8140aba33fcf14d03440a2f8165a33c7774093fec3f63eff7a407c31941b488c34,
  0x40754ff9fe7ec745408047122766db0f407ee2760e45cb224074742e8b6df2e9406348b834fd9bcf4049198c8b8307c840247e7054af09893ff000000000000040252a7fa9d2f8e9404c9e40c8fdbe80406a1fec66dc7a0c4081f5f286b793e84093accc8a2e72f840a1bc1bf7cb458f40aad0000000000040b12bf11ef4a97d40b2b1b20292ec7640b13c316f5c434140aa97094edbbbc840a0baaa9d1078b2409047122766db0f40754ff9fe7ec745,
  0x406d1e4876e3da8140730ff94904b159406e23ea802b4b1a405feffbfdfebf1f4046954b41cd42934023988e1409212e3ff000000000000040247e7054af0989404b1c62db2564fe40686ffac31b97954080bb2d27fceb584092677e78c9694740a0ccfc6622f83640a9f60a1790f39140b12bf11ef4a97d40b38d000000000040b327e0e315ecaf40b00e2380c7ed5440a6b49d26931be0409a5f6d3025e1b64087d3f79b45ddaf406d1e4876e3da81,
  0x4061d4cc2768cf9e4063749a35216a1e40589c04e04d893440438ebf58b30cbc4022706821902e9a3ff00000000000004023988e1409212e4049198c8b8307c8406622cd337f0fe8407dedfa9659b8d4409064a37ee39ad2409e0dd668a1468140a78420518fa38240afcbb3e3f7f04740b2b1b20292ec7640b327e0e315ecaf40b110000000000040aa37d40fb9024340a11ce76d9cab2440927503a83a26e7407f20f6bb68a9cb4061d4cc2768cf9e,
  0x40535737d0f147244050e1c7047b3b50404003ff801ff6034020f876ccdf6cd93ff00000000000004022706821902e9a4046954b41cd4293406348b834fd9bcf407982aa86fc7af8408b97fed71eff45409930841fadb93040a3cab0f451a3ca40ab19da4a2303da40b049216f512e8140b13c316f5c434140b00e2380c7ed5440aa37d40fb9024340a2980000000000409689fdc818bc904086b054a02d472f4071efe374c2ef0540535737d0f14724,
  0x40423c0d99c174354037dfea8e092211401e3307cc56cf5b3ff00000000000004020f876ccdf6cd940438ebf58b30cbc405feffbfdfebf1f4074742e8b6df2e94085a57436c6e719409382ffc4f563be409e88c82da6443140a4fe099f624ee240a98d11fbd3a11840aba33fcf14d03440aa97094edbbbc840a6b49d26931be040a11ce76d9cab24409689fdc818bc904089800000000000407810aa36d52d3d4061e7efea86d98d40423c0d99c17435,
  0x402cfb95bb9dcc0c40194c583ada5b523ff0000000000000401e3307cc56cf5b404003ff801ff60340589c04e04d8934406e23ea802b4b1a407ee2760e45cb22408b3cd7e3fb949140950b585d2da9f4409cd0ed1abb3c8040a19c1f1e8edddd40a34a665569dbca40a2f8165a33c77740a0baaa9d1078b2409a5f6d3025e1b640927503a83a26e74086b054a02d472f407810aa36d52d3d4065600000000000404e0aa8c5e34c72402cfb95bb9dcc0c,
  0x4012548eb9151e853ff000000000000040194c583ada5b524037dfea8e0922114050e1c7047b3b504063749a35216a1e40730ff94904b159408047122766db0f40889c04e04d89344090a312009022f940943ff9add2c43c4096465f7267d7db40962ec2ab6ad94c4093fec3f63eff7a409047122766db0f4087d3f79b45ddaf407f20f6bb68a9cb4071efe374c2ef054061e7efea86d98d404e0aa8c5e34c7240340000000000004012548eb9151e85,
  0x3ff00000000000004012548eb9151e85402cfb95bb9dcc0c40423c0d99c1743540535737d0f147244061d4cc2768cf9e406d1e4876e3da8140754ff9fe7ec745407c31941b488c344080f139944e863340828f311d1cd2c840828f311d1cd2c84080f139944e8633407c31941b488c3440754ff9fe7ec745406d1e4876e3da814061d4cc2768cf9e40535737d0f1472440423c0d99c17435402cfb95bb9dcc0c4012548eb9151e853ff0000000000000]

/-- The coefficients for `2 ell = 22`: one number for each of the 23 values of `mp`, consisting of the doubles for the 23 values of `m`. -/
def wigner22 : List Nat := [
  0x3ff00000000000004012c2fc595456a6402e65b9edeba38d40439f152d0f5470405561c709864bb3406448e19ba4050140711275f9f4906a4079cf84064678a44081abdb54bb662440860a3d9dd6554540892124e8c5f92b408a3f333014309840892124e8c5f92b40860a3d9dd655454081abdb54bb66244079cf84064678a440711275f9f4906a406448e19ba40501405561c709864bb340439f152d0f5470402e65b9edeba38d4012c2fc595456a63ff0000000000000,
  0x4012c2fc595456a64035000000000000405033ac8e57cb7e4063dee4991d10d34074838f4cf9a2bc40826149190f330f408d1e4876e3da814094a2ba00689388409a5f6d3025e1b6409e8b0b1d8e97e340a012a720927f16409ec6f5d8adc764409ac9c136497e7b4095252f14766927408e23ea802b4b1a4083428b77d9123b4075d6b6592ae3e140659fa14aa8784e40523c0d99c174354039198c8b8307c84019ec474a2612633ff00000000000004012c2fc595456a6,
  0x402e65b9edeba38d405033ac8e57cb7e4067c00000000000407b985255eaa239408ae7d52f2466884096b054a02d472f40a0d95403b1576a40a649ff3143038540aa737d800723f940ac47070e1b572140ab47f3af0def4740a7bebff793c46740a299c90ea0c60d409a1a2de5a3155a409047122766db0f4081d4cc2768cf9e4070d95403b1576a405ab154803544b04040e1c7047b3b50401efbdeb14f4ed93ff00000000000004019ec474a261263402e65b9edeba38d,
  0x40439f152d0f54704063dee4991d10d3407b985255eaa239408e480000000000409bc9b91b7fdc4440a5f7e452f57c6c40ae73e0369398e940b2b42aaa7a006240b47d2c7cf4beb740b4140ca688aa4e40b19c1f1e8edddd40ab96de7db1019540a335f367277dab409796a8d1f8472f4089379937549bf540770520d1d13b8d406166c943c20e3c4044ad1320e70bb140216f8334644df83ff0000000000000401efbdeb14f4ed94039198c8b8307c840439f152d0f5470,
  0x405561c709864bb34074838f4cf9a2bc408ae7d52f246688409bc9b91b7fdc4440a7e8000000000040b1a3bb850940ad40b6b49d26931be040b9bee27616708940b9da4a270a64e240b7080a81e6ad8140b22e0d9625d3ff40a951554c5867c6409ed9c97aeadc1d40903c1729152d52407ced144f7c69b740651fe7c35a9dfa4047f3fcfe7f0f574022f9422c23c47d3ff000000000000040216f8334644df84040e1c7047b3b5040523c0d99c17435405561c709864bb3,
  0x406448e19ba4050140826149190f330f4096b054a02d472f40a5f7e452f57c6c40b1a3bb850940ad40b82c000000000040bcb870894e687d40bdda24837f468f40bb404a33466d8540b5d979c518083a40aea948c7cac15040a2ae58f86d52dd409382ffc4f563be40811ce76d9cab2440686482dd565021404ab884ef702283402432f24fb01c7a3ff00000000000004022f9422c23c47d4044ad1320e70bb1405ab154803544b040659fa14aa8784e406448e19ba40501,
  0x40711275f9f4906a408d1e4876e3da8140a0d95403b1576a40ae73e0369398e940b6b49d26931be040bcb870894e687d40bf48000000000040bd8ed947a81e9a40b848ccf5b3b77840b14eb1650b4d0b40a5405d5c9045f8409632468dc11009408351c93ce03f9b406b1c62db2564fe404cfb95bb9dcc0c40252a7fa9d2f8e93ff0000000000000402432f24fb01c7a4047f3fcfe7f0f57406166c943c20e3c4070d95403b1576a4075d6b6592ae3e140711275f9f4906a,
  0x4079cf84064678a44094a2ba0068938840a649ff3143038540b2b42aaa7a006240b9bee27616708940bdda24837f468f40bd8ed947a81e9a40b923000000000040b25b75a4a2c9b840a6e5417e9b8ca7409818cb317265d44084f93ee9efbcb9406d355362b9359d404ebda87f068e4d4025e8add236a58e3ff000000000000040252a7fa9d2f8e9404ab884ef70228340651fe7c35a9dfa40770520d1d13b8d4081d4cc2768cf9e4083428b77d9123b4079cf84064678a4,
  0x4081abdb54bb6624409a5f6d3025e1b640aa737d800723f940b47d2c7cf4beb740b9da4a270a64e240bb404a33466d8540b848ccf5b3b77840b25b75a4a2c9b840a7760000000000409914af1f95d9064085ff4ffd3fe9ff406ea2490ebdd6b8404ffefffbffdffe4026732f8d0e2f763ff00000000000004025e8add236a58e404cfb95bb9dcc0c40686482dd565021407ced144f7c69b74089379937549bf5409047122766db0f408e23ea802b4b1a4081abdb54bb6624,
  0x40860a3d9dd65545409e8b0b1d8e97e340ac47070e1b572140b4140ca688aa4e40b7080a81e6ad8140b5d979c518083a40b14eb1650b4d0b40a6e5417e9b8ca7409914af1f95d9064086580000000000406f5ad5c214da0340505fe0bb7c87814026cdb2bbb212eb3ff00000000000004026732f8d0e2f76404ebda87f068e4d406b1c62db2564fe40811ce76d9cab2440903c1729152d52409796a8d1f8472f409a1a2de5a3155a4095252f1476692740860a3d9dd65545,
  0x40892124e8c5f92b40a012a720927f1640ab47f3af0def4740b19c1f1e8edddd40b22e0d9625d3ff40aea948c7cac15040a5405d5c9045f8409818cb317265d44085ff4ffd3fe9ff406f5ad5c214da0340508000000000004026fa6ea162d0f03ff00000000000004026cdb2bbb212eb404ffefffbffdffe406d355362b9359d408351c93ce03f9b409382ffc4f563be409ed9c97aeadc1d40a335f367277dab40a299c90ea0c60d409ac9c136497e7b40892124e8c5f92b,
  0x408a3f3330143098409ec6f5d8adc76440a7bebff793c46740ab96de7db1019540a951554c5867c640a2ae58f86d52dd409632468dc110094084f93ee9efbcb9406ea2490ebdd6b840505fe0bb7c87814026fa6ea162d0f03ff00000000000004026fa6ea162d0f040505fe0bb7c8781406ea2490ebdd6b84084f93ee9efbcb9409632468dc1100940a2ae58f86d52dd40a951554c5867c640ab96de7db1019540a7bebff793c467409ec6f5d8adc764408a3f3330143098,
  0x40892124e8c5f92b409ac9c136497e7b40a299c90ea0c60d40a335f367277dab409ed9c97aeadc1d409382ffc4f563be408351c93ce03f9b406d355362b9359d404ffefffbffdffe4026cdb2bbb212eb3ff00000000000004026fa6ea162d0f04050800000000000406f5ad5c214da034085ff4ffd3fe9ff409818cb317265d440a5405d5c9045f840aea948c7cac15040b22e0d9625d3ff40b19c1f1e8edddd40ab47f3af0def4740a012a720927f1640892124e8c5f92b,
  0x40860a3d9dd655454095252f14766927409a1a2de5a3155a409796a8d1f8472f40903c1729152d5240811ce76d9cab24406b1c62db2564fe404ebda87f068e4d4026732f8d0e2f763ff00000000000004026cdb2bbb212eb40505fe0bb7c8781406f5ad5c214da034086580000000000409914af1f95d90640a6e5417e9b8ca740b14eb1650b4d0b40b5d979c518083a40b7080a81e6ad8140b4140ca688aa4e40ac47070e1b5721409e8b0b1d8e97e340860a3d9dd65545,
  0x4081abdb54bb6624408e23ea802b4b1a409047122766db0f4089379937549bf5407ced144f7c69b740686482dd565021404cfb95bb9dcc0c4025e8add236a58e3ff00000000000004026732f8d0e2f76404ffefffbffdffe406ea2490ebdd6b84085ff4ffd3fe9ff409914af1f95d90640a776000000000040b25b75a4a2c9b840b848ccf5b3b77840bb404a33466d8540b9da4a270a64e240b47d2c7cf4beb740aa737d800723f9409a5f6d3025e1b64081abdb54bb6624,
  0x4079cf84064678a44083428b77d9123b4081d4cc2768cf9e40770520d1d13b8d40651fe7c35a9dfa404ab884ef70228340252a7fa9d2f8e93ff00000000000004025e8add236a58e404ebda87f068e4d406d355362b9359d4084f93ee9efbcb9409818cb317265d440a6e5417e9b8ca740b25b75a4a2c9b840b923000000000040bd8ed947a81e9a40bdda24837f468f40b9bee27616708940b2b42aaa7a006240a649ff314303854094a2ba006893884079cf84064678a4,
  0x40711275f9f4906a4075d6b6592ae3e14070d95403b1576a406166c943c20e3c4047f3fcfe7f0f57402432f24fb01c7a3ff000000000000040252a7fa9d2f8e9404cfb95bb9dcc0c406b1c62db2564fe408351c93ce03f9b409632468dc1100940a5405d5c9045f840b14eb1650b4d0b40b848ccf5b3b77840bd8ed947a81e9a40bf48000000000040bcb870894e687d40b6b49d26931be040ae73e0369398e940a0d95403b1576a408d1e4876e3da8140711275f9f4906a,
  0x406448e19ba4050140659fa14aa8784e405ab154803544b04044ad1320e70bb14022f9422c23c47d3ff0000000000000402432f24fb01c7a404ab884ef70228340686482dd56502140811ce76d9cab24409382ffc4f563be40a2ae58f86d52dd40aea948c7cac15040b5d979c518083a40bb404a33466d8540bdda24837f468f40bcb870894e687d40b82c000000000040b1a3bb850940ad40a5f7e452f57c6c4096b054a02d472f40826149190f330f406448e19ba40501,
  0x405561c709864bb340523c0d99c174354040e1c7047b3b5040216f8334644df83ff00000000000004022f9422c23c47d4047f3fcfe7f0f5740651fe7c35a9dfa407ced144f7c69b740903c1729152d52409ed9c97aeadc1d40a951554c5867c640b22e0d9625d3ff40b7080a81e6ad8140b9da4a270a64e240b9bee27616708940b6b49d26931be040b1a3bb850940ad40a7e80000000000409bc9b91b7fdc44408ae7d52f2466884074838f4cf9a2bc405561c709864bb3,
  0x40439f152d0f54704039198c8b8307c8401efbdeb14f4ed93ff000000000000040216f8334644df84044ad1320e70bb1406166c943c20e3c40770520d1d13b8d4089379937549bf5409796a8d1f8472f40a335f367277dab40ab96de7db1019540b19c1f1e8edddd40b4140ca688aa4e40b47d2c7cf4beb740b2b42aaa7a006240ae73e0369398e940a5f7e452f57c6c409bc9b91b7fdc44408e480000000000407b985255eaa2394063dee4991d10d340439f152d0f5470,
  0x402e65b9edeba38d4019ec474a2612633ff0000000000000401efbdeb14f4ed94040e1c7047b3b50405ab154803544b04070d95403b1576a4081d4cc2768cf9e409047122766db0f409a1a2de5a3155a40a299c90ea0c60d40a7bebff793c46740ab47f3af0def4740ac47070e1b572140aa737d800723f940a649ff3143038540a0d95403b1576a4096b054a02d472f408ae7d52f246688407b985255eaa2394067c00000000000405033ac8e57cb7e402e65b9edeba38d,
  0x4012c2fc595456a63ff00000000000004019ec474a2612634039198c8b8307c840523c0d99c1743540659fa14aa8784e4075d6b6592ae3e14083428b77d9123b408e23ea802b4b1a4095252f14766927409ac9c136497e7b409ec6f5d8adc76440a012a720927f16409e8b0b1d8e97e3409a5f6d3025e1b64094a2ba00689388408d1e4876e3da8140826149190f330f4074838f4cf9a2bc4063dee4991d10d3405033ac8e57cb7e40350000000000004012c2fc595456a6,
  0x3ff00000000000004012c2fc595456a6402e65b9edeba38d40439f152d0f5470405561c709864bb3406448e19ba4050140711275f9f4906a4079cf84064678a44081abdb54bb662440860a3d9dd6554540892124e8c5f92b408a3f333014309840892124e8c5f92b40860a3d9dd655454081abdb54bb66244079cf84064678a440711275f9f4906a406448e19ba40501405561c709864bb340439f152d0f5470402e65b9edeba38d4012c2fc595456a63ff0000000000000]

/-- The coefficients for `2 ell = 23`: one number for each of the 24 values of `mp`, consisting of the doubles for the 24 values of `m`. -/
def wigner23 : List Nat := [
  0x3ff000000000000040132eee75770416402fcfdbc999e97d40450aa7f6895f9d40578676f0cbfda64066edf8ef560c284073db8b93837642407ef2220f4f0aa24085e1cb4379e577408c3fe28c6674044090b670dab9fb8640922b27d27997cd40922b27d27997cd4090b670dab9fb86408c3fe28c6674044085e1cb4379e577407ef2220f4f0aa24073db8b938376424066edf8ef560c2840578676f0cbfda640450aa7f6895f9d402fcfdbc999e97d40132eee757704163ff0000000000000,
  0x40132eee7577041640360000000000004051698b311e50fa4065effa2a4c88db40774ce925823445408583e1e1cccd71409198f7c9e4f79d4099cf84064678a440a11c3499fc4a7c40a49dd5382ff72a40a6a6c1ff0cecab40a6baff733842ed40a4d614d448e80440a16c953a58b60d409a81c8ff191937409240381bb7c6eb40869593857da98f4078d7f468524e834067e7de891c727d40539f152d0f5470403a532c32c23dd4401a887293fd6f343ff000000000000040132eee75770416,
  0x402fcfdbc999e97d4051698b311e50fa406a400000000000407f6b158015297a408f9d3277fb6567409b91eda596cc9740a539321c52c37640ad2ee74fb21f2e40b20e62c05b811740b433cfa3e82ce440b47d2c7cf4beb740b2d8dbae947ae040af696e22f7777540a7a41fa3df5235409ff7f6fdbe2ae84093428b77d9123b40846da1eafcaf6d4072b9ff09eeac77405cd4d70e35f5be4041bf8c9d2ed1a1401fbfbf7ebc755e3ff0000000000000401a887293fd6f34402fcfdbc999e97d,
  0x40450aa7f6895f9d4065effa2a4c88db407f6b158015297a4091d0000000000040a0ed7feefc8b4340abc9b91b7fdc4440b40de32db1a5b340b9bcb7b68f7e9d40bd92c198bf69eb40be8b0b1d8e97e340bc6520aa19a82d40b7bebff793c46740b1cf0ff9aed34d40a7d3f79b45ddaf409c31941b488c34408d1e4876e3da814079bcb7b68f7e9d4062dfe4dfb641994045cb64017d61764021e3779b97f4a73ff0000000000000401fbfbf7ebc755e403a532c32c23dd440450aa7f6895f9d,
  0x40578676f0cbfda640774ce925823445408f9d3277fb656740a0ed7feefc8b4340ae48000000000040b74d09c37aa0da40bf63ce0c55224940c2b42aaa7a006240c3d69e20055afb40c2c813728b042740bfbf21b86cd8d440b7e49fc2fa654d40afdb7faea331bd40a2a5fabeaeee5c4092e9b2e97f74f7408047122766db0f40670520d1d13b8d404952aa86b8d8f840237e5bd40f95a13ff00000000000004021e3779b97f4a74041bf8c9d2ed1a140539f152d0f547040578676f0cbfda6,
  0x4066edf8ef560c28408583e1e1cccd71409b91eda596cc9740abc9b91b7fdc4440b74d09c37aa0da40c0bc000000000040c4eef71741b2e940c70711005dc75c40c6639b629f74eb40c344fb5af86f3240bd506f61f886e840b39c6b4a8812ad40a6e127d6f415ca4096f599797cd5134083677a6d823a44406ab884ef702283404c577762e992e84024c8dc2e42397f3ff000000000000040237e5bd40f95a14045cb64017d6176405cd4d70e35f5be4067e7de891c727d4066edf8ef560c28,
  0x4073db8b93837642409198f7c9e4f79d40a539321c52c37640b40de32db1a5b340bf63ce0c55224940c4eef71741b2e940c82c000000000040c85fc888496c2240c58b3dcb33541140c0b0166d3e97cf40b690eab506bfd040aa6b42c0a53148409a6b42c0a53148408617b907289f25406ddfeedca22e34404edac054c8f94c4025d142b6dbadc53ff00000000000004024c8dc2e42397f404952aa86b8d8f84062dfe4dfb641994072b9ff09eeac774078d7f468524e834073db8b93837642,
  0x407ef2220f4f0aa24099cf84064678a440ad2ee74fb21f2e40b9bcb7b68f7e9d40c2b42aaa7a006240c70711005dc75c40c85fc888496c2240c658000000000040c1c63b6d5381e140b879f230d90cf540acf5f7a4d6888b409d0fd85c627d7a408837def7a76890407033ac8e57cb7e40506e825da8fc2b4026a09e667f3bcc3ff00000000000004025d142b6dbadc5404c577762e992e840670520d1d13b8d4079bcb7b68f7e9d40846da1eafcaf6d40869593857da98f407ef2220f4f0aa2,
  0x4085e1cb4379e57740a11c3499fc4a7c40b20e62c05b811740bd92c198bf69eb40c3d69e20055afb40c6639b629f74eb40c58b3dcb33541140c1c63b6d5381e140b923000000000040ae49b670d3c6d4409eb7b32c2864254089aff4c9ccf82340711ff88688a56d40512f45cd83cc9c40273ce704fb7b233ff00000000000004026a09e667f3bcc404edac054c8f94c406ab884ef702283408047122766db0f408d1e4876e3da814093428b77d9123b409240381bb7c6eb4085e1cb4379e577,
  0x408c3fe28c66740440a49dd5382ff72a40b433cfa3e82ce440be8b0b1d8e97e340c2c813728b042740c344fb5af86f3240c0b0166d3e97cf40b879f230d90cf540ae49b670d3c6d4409f480000000000408a6ffeca2312ee4071afbede0fc4484051afbede0fc4484027aa10d193c22c3ff000000000000040273ce704fb7b2340506e825da8fc2b406ddfeedca22e344083677a6d823a444092e9b2e97f74f7409c31941b488c34409ff7f6fdbe2ae8409a81c8ff191937408c3fe28c667404,
  0x4090b670dab9fb8640a6a6c1ff0cecab40b47d2c7cf4beb740bc6520aa19a82d40bfbf21b86cd8d440bd506f61f886e840b690eab506bfd040acf5f7a4d6888b409eb7b32c286425408a6ffeca2312ee4071e000000000004051eff8dd34fde24027eaa126f152833ff00000000000004027aa10d193c22c40512f45cd83cc9c407033ac8e57cb7e408617b907289f254096f599797cd51340a2a5fabeaeee5c40a7d3f79b45ddaf40a7a41fa3df523540a16c953a58b60d4090b670dab9fb86,
  0x40922b27d27997cd40a6baff733842ed40b2d8dbae947ae040b7bebff793c46740b7e49fc2fa654d40b39c6b4a8812ad40aa6b42c0a53148409d0fd85c627d7a4089aff4c9ccf8234071afbede0fc4484051eff8dd34fde240280000000000003ff00000000000004027eaa126f152834051afbede0fc44840711ff88688a56d408837def7a76890409a6b42c0a5314840a6e127d6f415ca40afdb7faea331bd40b1cf0ff9aed34d40af696e22f7777540a4d614d448e80440922b27d27997cd,
  0x40922b27d27997cd40a4d614d448e80440af696e22f7777540b1cf0ff9aed34d40afdb7faea331bd40a6e127d6f415ca409a6b42c0a53148408837def7a7689040711ff88688a56d4051afbede0fc4484027eaa126f152833ff000000000000040280000000000004051eff8dd34fde24071afbede0fc4484089aff4c9ccf823409d0fd85c627d7a40aa6b42c0a5314840b39c6b4a8812ad40b7e49fc2fa654d40b7bebff793c46740b2d8dbae947ae040a6baff733842ed40922b27d27997cd,
  0x4090b670dab9fb8640a16c953a58b60d40a7a41fa3df523540a7d3f79b45ddaf40a2a5fabeaeee5c4096f599797cd513408617b907289f25407033ac8e57cb7e40512f45cd83cc9c4027aa10d193c22c3ff00000000000004027eaa126f152834051eff8dd34fde24071e00000000000408a6ffeca2312ee409eb7b32c28642540acf5f7a4d6888b40b690eab506bfd040bd506f61f886e840bfbf21b86cd8d440bc6520aa19a82d40b47d2c7cf4beb740a6a6c1ff0cecab4090b670dab9fb86,
  0x408c3fe28c667404409a81c8ff191937409ff7f6fdbe2ae8409c31941b488c344092e9b2e97f74f74083677a6d823a44406ddfeedca22e3440506e825da8fc2b40273ce704fb7b233ff00000000000004027aa10d193c22c4051afbede0fc4484071afbede0fc448408a6ffeca2312ee409f48000000000040ae49b670d3c6d440b879f230d90cf540c0b0166d3e97cf40c344fb5af86f3240c2c813728b042740be8b0b1d8e97e340b433cfa3e82ce440a49dd5382ff72a408c3fe28c667404,
  0x4085e1cb4379e577409240381bb7c6eb4093428b77d9123b408d1e4876e3da81408047122766db0f406ab884ef702283404edac054c8f94c4026a09e667f3bcc3ff000000000000040273ce704fb7b2340512f45cd83cc9c40711ff88688a56d4089aff4c9ccf823409eb7b32c28642540ae49b670d3c6d440b923000000000040c1c63b6d5381e140c58b3dcb33541140c6639b629f74eb40c3d69e20055afb40bd92c198bf69eb40b20e62c05b811740a11c3499fc4a7c4085e1cb4379e577,
  0x407ef2220f4f0aa240869593857da98f40846da1eafcaf6d4079bcb7b68f7e9d40670520d1d13b8d404c577762e992e84025d142b6dbadc53ff00000000000004026a09e667f3bcc40506e825da8fc2b407033ac8e57cb7e408837def7a76890409d0fd85c627d7a40acf5f7a4d6888b40b879f230d90cf540c1c63b6d5381e140c658000000000040c85fc888496c2240c70711005dc75c40c2b42aaa7a006240b9bcb7b68f7e9d40ad2ee74fb21f2e4099cf84064678a4407ef2220f4f0aa2,
  0x4073db8b938376424078d7f468524e834072b9ff09eeac774062dfe4dfb64199404952aa86b8d8f84024c8dc2e42397f3ff00000000000004025d142b6dbadc5404edac054c8f94c406ddfeedca22e34408617b907289f25409a6b42c0a5314840aa6b42c0a5314840b690eab506bfd040c0b0166d3e97cf40c58b3dcb33541140c85fc888496c2240c82c000000000040c4eef71741b2e940bf63ce0c55224940b40de32db1a5b340a539321c52c376409198f7c9e4f79d4073db8b93837642,
  0x4066edf8ef560c284067e7de891c727d405cd4d70e35f5be4045cb64017d617640237e5bd40f95a13ff00000000000004024c8dc2e42397f404c577762e992e8406ab884ef7022834083677a6d823a444096f599797cd51340a6e127d6f415ca40b39c6b4a8812ad40bd506f61f886e840c344fb5af86f3240c6639b629f74eb40c70711005dc75c40c4eef71741b2e940c0bc000000000040b74d09c37aa0da40abc9b91b7fdc44409b91eda596cc97408583e1e1cccd714066edf8ef560c28,
  0x40578676f0cbfda640539f152d0f54704041bf8c9d2ed1a14021e3779b97f4a73ff000000000000040237e5bd40f95a1404952aa86b8d8f840670520d1d13b8d408047122766db0f4092e9b2e97f74f740a2a5fabeaeee5c40afdb7faea331bd40b7e49fc2fa654d40bfbf21b86cd8d440c2c813728b042740c3d69e20055afb40c2b42aaa7a006240bf63ce0c55224940b74d09c37aa0da40ae48000000000040a0ed7feefc8b43408f9d3277fb656740774ce92582344540578676f0cbfda6,
  0x40450aa7f6895f9d403a532c32c23dd4401fbfbf7ebc755e3ff00000000000004021e3779b97f4a74045cb64017d61764062dfe4dfb641994079bcb7b68f7e9d408d1e4876e3da81409c31941b488c3440a7d3f79b45ddaf40b1cf0ff9aed34d40b7bebff793c46740bc6520aa19a82d40be8b0b1d8e97e340bd92c198bf69eb40b9bcb7b68f7e9d40b40de32db1a5b340abc9b91b7fdc4440a0ed7feefc8b434091d00000000000407f6b158015297a4065effa2a4c88db40450aa7f6895f9d,
  0x402fcfdbc999e97d401a887293fd6f343ff0000000000000401fbfbf7ebc755e4041bf8c9d2ed1a1405cd4d70e35f5be4072b9ff09eeac7740846da1eafcaf6d4093428b77d9123b409ff7f6fdbe2ae840a7a41fa3df523540af696e22f7777540b2d8dbae947ae040b47d2c7cf4beb740b433cfa3e82ce440b20e62c05b811740ad2ee74fb21f2e40a539321c52c376409b91eda596cc97408f9d3277fb6567407f6b158015297a406a4000000000004051698b311e50fa402fcfdbc999e97d,
  0x40132eee757704163ff0000000000000401a887293fd6f34403a532c32c23dd440539f152d0f54704067e7de891c727d4078d7f468524e8340869593857da98f409240381bb7c6eb409a81c8ff19193740a16c953a58b60d40a4d614d448e80440a6baff733842ed40a6a6c1ff0cecab40a49dd5382ff72a40a11c3499fc4a7c4099cf84064678a4409198f7c9e4f79d408583e1e1cccd7140774ce9258234454065effa2a4c88db4051698b311e50fa403600000000000040132eee75770416,
  0x3ff000000000000040132eee75770416402fcfdbc999e97d40450aa7f6895f9d40578676f0cbfda64066edf8ef560c284073db8b93837642407ef2220f4f0aa24085e1cb4379e577408c3fe28c6674044090b670dab9fb8640922b27d27997cd40922b27d27997cd4090b670dab9fb86408c3fe28c6674044085e1cb4379e577407ef2220f4f0aa24073db8b938376424066edf8ef560c2840578676f0cbfda640450aa7f6895f9d402fcfdbc999e97d40132eee757704163ff0000000000000]

/-- The coefficients for `2 ell = 24`: one number for each of the 25 values of `mp`, consisting of the doubles for the 25 values of `m`. -/
def wigner24 : List Nat := [
  0x3ff00000000000004013988e1409212e40309cfdcd8ed00840467e93ddbc0e724059c54789553a304069c54789553a304076edf8ef560c2840826272c691db8e408accc4ba7477d34091ddd87c4da5374095e1cb4379e5774098afad0a7926714099b1ba2e2cc76a4098afad0a7926714095e1cb4379e5774091ddd87c4da537408accc4ba7477d340826272c691db8e4076edf8ef560c284069c54789553a304059c54789553a3040467e93ddbc0e7240309cfdcd8ed0084013988e1409212e3ff0000000000000,
  0x4013988e1409212e40370000000000004052a6c2a38d8f1840681b30992284fc407a4d51f42bb7854088fca774c3218b40950fe9f85bca6f409fe5f2a523635640a5e1cb4379e57740ab5a3e14585ed440af443ad987e12040b0607eb5c796ea40af7809a90d01fe40abb6fdd12a61da40a6554e9b610e8540a06958729b6c194095e1cb4379e577408a44e5f1686fec407c1537f5cfb894406a4d51f42bb78540550aa7f6895f9d403b8cc9d3952a45401b211b1c70d0233ff00000000000004013988e1409212e,
  0x40309cfdcd8ed0084052a6c2a38d8f18406ce000000000004081c576254bd94c40926bad0d625a3f40a0941bbf3eead240aa6573aed7736c40b2d00366e8ba9b40b8328bc5e2111940bc3af866dd13f340bdf709180e5f3040bcf9cbc00a516140b984e38807a1d340b46e7f427d6de540ada2bd09b9d17c40a35ba304b4da7b40969593857da98f40873d3161015efc4074b3f656ef416d405f0630ee1ee8d640429d508edf588040203f81f636b80b3ff0000000000000401b211b1c70d02340309cfdcd8ed008,
  0x40467e93ddbc0e7240681b30992284fc4081c576254bd94c4094c8000000000040a46822e40c82fa40b158840ea43c2140b9fe4753dfb08f40c15e13b12fe9aa40c4d978a7dd21f940c69642b5da3a2340c6216f693c68b640c39ddf1ec89ce740bf696e22f7777540b6a27799ac664640ad2ee74fb21f2e40a0adfa1fe41b2e4090adfa1fe41b2e407c9af341f48feb4064630ac44b0cfd4046e9b2675a66264022548eb9151e853ff000000000000040203f81f636b80b403b8cc9d3952a4540467e93ddbc0e72,
  0x4059c54789553a30407a4d51f42bb78540926bad0d625a3f40a46822e40c82fa40b2ed000000000040be48000000000040c5454f562a72bc40ca877ea367745440cd92c198bf69eb40cd92c198bf69eb40ca8fa57009754340c5674fa377fad940bed8871885a8dc40b3c1d35bd1365240a649ff314303854095d6b6592ae3e1408232ed4a4e68914068f7feb7e8e5f5404ab154803544b040240000000000003ff00000000000004022548eb9151e8540429d508edf588040550aa7f6895f9d4059c54789553a30,
  0x4069c54789553a304088fca774c3218b40a0941bbf3eead240b158840ea43c2140be48000000000040c6b6000000000040cdc76f123b6d6e40d13e78b7033ed040d1be742872d92740d043ea7a69470e40ca8fa57009754340c34361465261c340b8ad38e06aed7d40aba8f4b3be7f40409abf323b1d376d4085d6b6592ae3e1406d1e4876e3da81404df664dcb113f340255aaa002a9d593ff000000000000040240000000000004046e9b2675a6626405f0630ee1ee8d6406a4d51f42bb7854069c54789553a30,
  0x4076edf8ef560c2840950fe9f85bca6f40aa6573aed7736c40b9fe4753dfb08f40c5454f562a72bc40cdc76f123b6d6e40d221000000000040d361700cc53ef940d247d66637111940ce77baaa5bc72b40c6639b629f74eb40bcdddb595a6d2340b02da26bf7f012409f164eaefeebaf40890cfca079205b40705cf20924c25440505cf20924c2544026732f8d0e2f763ff000000000000040255aaa002a9d59404ab154803544b04064630ac44b0cfd4074b3f656ef416d407c1537f5cfb8944076edf8ef560c28,
  0x40826272c691db8e409fe5f2a523635640b2d00366e8ba9b40c15e13b12fe9aa40ca877ea367745440d13e78b7033ed040d361700cc53ef940d2fe000000000040d049216f512e8140c86db226f9c5c140bfe9cb4b9891bf40b20062a99c44ff40a14b97ee206b1a408bb1d2dd8df3ff4071da83a23c4a6040517e2bca46bab9402752e50db3a3a13ff00000000000004026732f8d0e2f76404df664dcb113f34068f7feb7e8e5f5407c9af341f48feb40873d3161015efc408a44e5f1686fec40826272c691db8e,
  0x408accc4ba7477d340a5e1cb4379e57740b8328bc5e2111940c4d978a7dd21f940cd92c198bf69eb40d1be742872d92740d247d66637111940d049216f512e8140c923000000000040c0c2000000000040b327e0e315ecaf40a285fd4cfb97aa408da9429a7600d74072ff9434b3463840525f0532c88f1b40280000000000003ff0000000000000402752e50db3a3a140505cf20924c254406d1e4876e3da81408232ed4a4e68914090adfa1fe41b2e40969593857da98f4095e1cb4379e577408accc4ba7477d3,
  0x4091ddd87c4da53740ab5a3e14585ed440bc3af866dd13f340c69642b5da3a2340cd92c198bf69eb40d043ea7a69470e40ce77baaa5bc72b40c86db226f9c5c140c0c2000000000040b38d000000000040a327e0e315ecaf408edf50d5a3521c4073c62c66f955e54052ff9434b3463840287eb1990b697a3ff0000000000000402800000000000040517e2bca46bab940705cf20924c2544085d6b6592ae3e14095d6b6592ae3e140a0adfa1fe41b2e40a35ba304b4da7b40a06958729b6c194091ddd87c4da537,
  0x4095e1cb4379e57740af443ad987e12040bdf709180e5f3040c6216f693c68b640ca8fa57009754340ca8fa57009754340c6639b629f74eb40bfe9cb4b9891bf40b327e0e315ecaf40a327e0e315ecaf408f48000000000040742a6c9ac74a8b40535fe592ec53a64028d1c0be7f20ab3ff000000000000040287eb1990b697a40525f0532c88f1b4071da83a23c4a6040890cfca079205b409abf323b1d376d40a649ff3143038540ad2ee74fb21f2e40ada2bd09b9d17c40a6554e9b610e854095e1cb4379e577,
  0x4098afad0a79267140b0607eb5c796ea40bcf9cbc00a516140c39ddf1ec89ce740c5674fa377fad940c34361465261c340bcdddb595a6d2340b20062a99c44ff40a285fd4cfb97aa408edf50d5a3521c40742a6c9ac74a8b40538000000000004028fae0c15ad3893ff00000000000004028d1c0be7f20ab4052ff9434b346384072ff9434b34638408bb1d2dd8df3ff409f164eaefeebaf40aba8f4b3be7f4040b3c1d35bd1365240b6a27799ac664640b46e7f427d6de540abb6fdd12a61da4098afad0a792671,
  0x4099b1ba2e2cc76a40af7809a90d01fe40b984e38807a1d340bf696e22f7777540bed8871885a8dc40b8ad38e06aed7d40b02da26bf7f01240a14b97ee206b1a408da9429a7600d74073c62c66f955e540535fe592ec53a64028fae0c15ad3893ff00000000000004028fae0c15ad38940535fe592ec53a64073c62c66f955e5408da9429a7600d740a14b97ee206b1a40b02da26bf7f01240b8ad38e06aed7d40bed8871885a8dc40bf696e22f7777540b984e38807a1d340af7809a90d01fe4099b1ba2e2cc76a,
  0x4098afad0a79267140abb6fdd12a61da40b46e7f427d6de540b6a27799ac664640b3c1d35bd1365240aba8f4b3be7f40409f164eaefeebaf408bb1d2dd8df3ff4072ff9434b346384052ff9434b346384028d1c0be7f20ab3ff00000000000004028fae0c15ad389405380000000000040742a6c9ac74a8b408edf50d5a3521c40a285fd4cfb97aa40b20062a99c44ff40bcdddb595a6d2340c34361465261c340c5674fa377fad940c39ddf1ec89ce740bcf9cbc00a516140b0607eb5c796ea4098afad0a792671,
  0x4095e1cb4379e57740a6554e9b610e8540ada2bd09b9d17c40ad2ee74fb21f2e40a649ff31430385409abf323b1d376d40890cfca079205b4071da83a23c4a6040525f0532c88f1b40287eb1990b697a3ff00000000000004028d1c0be7f20ab40535fe592ec53a640742a6c9ac74a8b408f48000000000040a327e0e315ecaf40b327e0e315ecaf40bfe9cb4b9891bf40c6639b629f74eb40ca8fa57009754340ca8fa57009754340c6216f693c68b640bdf709180e5f3040af443ad987e1204095e1cb4379e577,
  0x4091ddd87c4da53740a06958729b6c1940a35ba304b4da7b40a0adfa1fe41b2e4095d6b6592ae3e14085d6b6592ae3e140705cf20924c25440517e2bca46bab940280000000000003ff000000000000040287eb1990b697a4052ff9434b346384073c62c66f955e5408edf50d5a3521c40a327e0e315ecaf40b38d000000000040c0c2000000000040c86db226f9c5c140ce77baaa5bc72b40d043ea7a69470e40cd92c198bf69eb40c69642b5da3a2340bc3af866dd13f340ab5a3e14585ed44091ddd87c4da537,
  0x408accc4ba7477d34095e1cb4379e57740969593857da98f4090adfa1fe41b2e408232ed4a4e6891406d1e4876e3da8140505cf20924c254402752e50db3a3a13ff0000000000000402800000000000040525f0532c88f1b4072ff9434b34638408da9429a7600d740a285fd4cfb97aa40b327e0e315ecaf40c0c2000000000040c923000000000040d049216f512e8140d247d66637111940d1be742872d92740cd92c198bf69eb40c4d978a7dd21f940b8328bc5e2111940a5e1cb4379e577408accc4ba7477d3,
  0x40826272c691db8e408a44e5f1686fec40873d3161015efc407c9af341f48feb4068f7feb7e8e5f5404df664dcb113f34026732f8d0e2f763ff0000000000000402752e50db3a3a140517e2bca46bab94071da83a23c4a60408bb1d2dd8df3ff40a14b97ee206b1a40b20062a99c44ff40bfe9cb4b9891bf40c86db226f9c5c140d049216f512e8140d2fe000000000040d361700cc53ef940d13e78b7033ed040ca877ea367745440c15e13b12fe9aa40b2d00366e8ba9b409fe5f2a523635640826272c691db8e,
  0x4076edf8ef560c28407c1537f5cfb8944074b3f656ef416d4064630ac44b0cfd404ab154803544b040255aaa002a9d593ff00000000000004026732f8d0e2f7640505cf20924c25440705cf20924c25440890cfca079205b409f164eaefeebaf40b02da26bf7f01240bcdddb595a6d2340c6639b629f74eb40ce77baaa5bc72b40d247d66637111940d361700cc53ef940d221000000000040cdc76f123b6d6e40c5454f562a72bc40b9fe4753dfb08f40aa6573aed7736c40950fe9f85bca6f4076edf8ef560c28,
  0x4069c54789553a30406a4d51f42bb785405f0630ee1ee8d64046e9b2675a662640240000000000003ff000000000000040255aaa002a9d59404df664dcb113f3406d1e4876e3da814085d6b6592ae3e1409abf323b1d376d40aba8f4b3be7f4040b8ad38e06aed7d40c34361465261c340ca8fa57009754340d043ea7a69470e40d1be742872d92740d13e78b7033ed040cdc76f123b6d6e40c6b6000000000040be48000000000040b158840ea43c2140a0941bbf3eead24088fca774c3218b4069c54789553a30,
  0x4059c54789553a3040550aa7f6895f9d40429d508edf58804022548eb9151e853ff00000000000004024000000000000404ab154803544b04068f7feb7e8e5f5408232ed4a4e68914095d6b6592ae3e140a649ff3143038540b3c1d35bd1365240bed8871885a8dc40c5674fa377fad940ca8fa57009754340cd92c198bf69eb40cd92c198bf69eb40ca877ea367745440c5454f562a72bc40be48000000000040b2ed000000000040a46822e40c82fa40926bad0d625a3f407a4d51f42bb7854059c54789553a30,
  0x40467e93ddbc0e72403b8cc9d3952a4540203f81f636b80b3ff00000000000004022548eb9151e854046e9b2675a66264064630ac44b0cfd407c9af341f48feb4090adfa1fe41b2e40a0adfa1fe41b2e40ad2ee74fb21f2e40b6a27799ac664640bf696e22f7777540c39ddf1ec89ce740c6216f693c68b640c69642b5da3a2340c4d978a7dd21f940c15e13b12fe9aa40b9fe4753dfb08f40b158840ea43c2140a46822e40c82fa4094c800000000004081c576254bd94c40681b30992284fc40467e93ddbc0e72,
  0x40309cfdcd8ed008401b211b1c70d0233ff000000000000040203f81f636b80b40429d508edf5880405f0630ee1ee8d64074b3f656ef416d40873d3161015efc40969593857da98f40a35ba304b4da7b40ada2bd09b9d17c40b46e7f427d6de540b984e38807a1d340bcf9cbc00a516140bdf709180e5f3040bc3af866dd13f340b8328bc5e2111940b2d00366e8ba9b40aa6573aed7736c40a0941bbf3eead240926bad0d625a3f4081c576254bd94c406ce000000000004052a6c2a38d8f1840309cfdcd8ed008,
  0x4013988e1409212e3ff0000000000000401b211b1c70d023403b8cc9d3952a4540550aa7f6895f9d406a4d51f42bb785407c1537f5cfb894408a44e5f1686fec4095e1cb4379e57740a06958729b6c1940a6554e9b610e8540abb6fdd12a61da40af7809a90d01fe40b0607eb5c796ea40af443ad987e12040ab5a3e14585ed440a5e1cb4379e577409fe5f2a523635640950fe9f85bca6f4088fca774c3218b407a4d51f42bb78540681b30992284fc4052a6c2a38d8f1840370000000000004013988e1409212e,
  0x3ff00000000000004013988e1409212e40309cfdcd8ed00840467e93ddbc0e724059c54789553a304069c54789553a304076edf8ef560c2840826272c691db8e408accc4ba7477d34091ddd87c4da5374095e1cb4379e5774098afad0a7926714099b1ba2e2cc76a4098afad0a7926714095e1cb4379e5774091ddd87c4da537408accc4ba7477d340826272c691db8e4076edf8ef560c284069c54789553a304059c54789553a3040467e93ddbc0e7240309cfdcd8ed0084013988e1409212e3ff0000000000000]

/-- The coefficients for `2 ell = 25`: one number for each of the 26 values of `mp`, consisting of the doubles for the 26 values of `m`. -/
def wigner25 : List Nat := [
  0x3ff000000000000040140000000000004031520cd1372fea4047faaa12d4c51c405c1e38d52b120f406ccffb8eb6e94b407a4d51f42bb7854085aa9a419de35140903ff3b1366a7c4096554e9b610e85409c3fe28c66740440a07e82d787b66940a1d0d550580fd640a1d0d550580fd640a07e82d787b669409c3fe28c6674044096554e9b610e8540903ff3b1366a7c4085aa9a419de351407a4d51f42bb785406ccffb8eb6e94b405c1e38d52b120f4047faaa12d4c51c4031520cd1372fea40140000000000003ff0000000000000,
  0x401400000000000040380000000000004053eb2856ff771a406a6087e183a59e407d86221306d2f6408ccffb8eb6e94b4098fca774c3218b40a37ff13b0e196240ab9feb13a94ea140b1ddd87c4da53740b52fe9e94cd70340b71783fa8acc2c40b729154ed8e16340b560fffa03463440b224c320487bda40ac3fe28c66740440a419938bd759de4099ffec4ebd772e408e553e5bdd0b0b407f8ffbf1ce0f6c406ccffb8eb6e94b40567e93ddbc0e72403cc665b0328621401bb67ae8584caa3ff00000000000004014000000000000,
  0x4031520cd1372fea4053eb2856ff771a406fa000000000004083fce15b4fd24a40954e9cdbaad7fe40a3c0ffc5aeb2c440b03abfacb1e1fd40b7ec75fbda8a8040bfe5f2a523635640c35755499166a540c5681f1fad93fe40c5aa2646f4108540c40ebc98826f3c40c0f8c6f7334a6d40ba3023042f766e40b2593f3fb95a4840a735998b7b47f9409a44e5f1686fec408a44e5f1686fec4076c739ede334324060a2868b85a40340437b1311fb492240209cfdcd8ed0083ff0000000000000401bb67ae8584caa4031520cd1372fea,
  0x4047faaa12d4c51c406a6087e183a59e4083fce15b4fd24a409810000000000040a85e40c2060a8b40b5671ed0652b3040c09b7862058a0140c70a633832f21d40ccccfc063faea540d04c7e4640061040d0c03d3da6f8d240cf4c22a2c0bd9f40ca8fa57009754340c46e7f427d6de540bc5fbfc08fcadb40b1abdb54bb662440a38efdede66dad4092f97ee2fcc763407f9fd37a4ff6fb4065effa2a4c88db404807feab1c42744022c2fc595456a63ff000000000000040209cfdcd8ed008403cc665b03286214047faaa12d4c51c,
  0x405c1e38d52b120f407d86221306d2f640954e9cdbaad7fe40a85e40c2060a8b40b761000000000040c364a5cc22a2c640cc5354fef8e5e240d26bc6d69d8b7e40d57dbd4fb7cd6840d69642b5da3a2340d56d88b71ec76440d25987dc7619c440cc50727ed027d640c39a27e1a3cccf40b8328bc5e2111940aa5f6d3025e1b6409904f72fd628c540843a1b9652a335406af824c86e2ef1404c0ffb7051bb5440247e7054af09893ff00000000000004022c2fc595456a640437b1311fb492240567e93ddbc0e72405c1e38d52b120f,
  0x406ccffb8eb6e94b408ccffb8eb6e94b40a3c0ffc5aeb2c440b5671ed0652b3040c364a5cc22a2c640ce48000000000040d4bb6e7c2c362a40d92afa4231544c40db43e472601b5240da737d800723f940d700aa97f6a5f640d1e852103e254840c8de62597accbd40be9b8cbce5e84c40b087ae3660bff3409ee2760e45cb2240886a9b3b1a4897406f954e20de87e7404f954e20de87e74025e8add236a58e3ff000000000000040247e7054af0989404807feab1c42744060a2868b85a403406ccffb8eb6e94b406ccffb8eb6e94b,
  0x407a4d51f42bb7854098fca774c3218b40b03abfacb1e1fd40c09b7862058a0140cc5354fef8e5e240d4bb6e7c2c362a40da7f000000000040ddde16c8b8b2f940ddde16c8b8b2f940da8fa57009754340d4ff97a452086c40cd6cceae2ceb5b40c22959817a8a6a40b38efdede66dad40a21b92e156b838408c31941b488c344071d4cc2768cf9e40514c810886c6a5402710ac0b5e5e313ff00000000000004025e8add236a58e404c0ffb7051bb544065effa2a4c88db4076c739ede33432407f8ffbf1ce0f6c407a4d51f42bb785,
  0x4085aa9a419de35140a37ff13b0e196240b7ec75fbda8a8040c70a633832f21d40d26bc6d69d8b7e40d92afa4231544c40ddde16c8b8b2f940df14000000000040dc7d000000000040d7080a81e6ad8140d0631b53d2062b40c4696afa0de9f540b60c18acab40aa40a459ef644f4f62408f671abbc6a30340738ebf58b30cbc40528dd15385eaa740280000000000003ff0000000000000402710ac0b5e5e31404f954e20de87e7406af824c86e2ef1407f9fd37a4ff6fb408a44e5f1686fec408e553e5bdd0b0b4085aa9a419de351,
  0x40903ff3b1366a7c40ab9feb13a94ea140bfe5f2a523635640ccccfc063faea540d57dbd4fb7cd6840db43e472601b5240ddde16c8b8b2f940dc7d000000000040d7bd800000000040d14607e16d022040c5d979c518083a40b7d05223bae64840a60c18acab40aa4090f59cd3976cd24074ef6727d9c20240538ebf58b30cbc4028bd171a07e38a3ff0000000000000402800000000000040514c810886c6a5406f954e20de87e740843a1b9652a3354092f97ee2fcc763409a44e5f1686fec4099ffec4ebd772e40903ff3b1366a7c,
  0x4096554e9b610e8540b1ddd87c4da53740c35755499166a540d04c7e4640061040d69642b5da3a2340da737d800723f940da8fa57009754340d7080a81e6ad8140d14607e16d022040c658000000000040b8bae13f87f3c540a71a4cca15cdb04091d2fb425e2f324075effa2a4c88db40544f6273c4660e40294c583ada5b523ff00000000000004028bd171a07e38a40528dd15385eaa74071d4cc2768cf9e40886a9b3b1a4897409904f72fd628c540a38efdede66dad40a735998b7b47f940a419938bd759de4096554e9b610e85,
  0x409c3fe28c66740440b52fe9e94cd70340c5681f1fad93fe40d0c03d3da6f8d240d56d88b71ec76440d700aa97f6a5f640d4ff97a452086c40d0631b53d2062b40c5d979c518083a40b8bae13f87f3c540a7760000000000409243aa2711787e40768bc408e9eaa64054cfc8a5c43b104029b0c25315c2cd3ff000000000000040294c583ada5b5240538ebf58b30cbc40738ebf58b30cbc408c31941b488c34409ee2760e45cb2240aa5f6d3025e1b640b1abdb54bb662440b2593f3fb95a4840ac3fe28c667404409c3fe28c667404,
  0x40a07e82d787b66940b71783fa8acc2c40c5aa2646f4108540cf4c22a2c0bd9f40d25987dc7619c440d1e852103e254840cd6cceae2ceb5b40c4696afa0de9f540b7d05223bae64840a71a4cca15cdb0409243aa2711787e4076c0000000000040550ff9ec3eeef14029ec474a2612633ff00000000000004029b0c25315c2cd40544f6273c4660e4074ef6727d9c202408f671abbc6a30340a21b92e156b83840b087ae3660bff340b8328bc5e2111940bc5fbfc08fcadb40ba3023042f766e40b224c320487bda40a07e82d787b669,
  0x40a1d0d550580fd640b729154ed8e16340c40ebc98826f3c40ca8fa57009754340cc50727ed027d640c8de62597accbd40c22959817a8a6a40b60c18acab40aa40a60c18acab40aa4091d2fb425e2f3240768bc408e9eaa640550ff9ec3eeef1402a0000000000003ff00000000000004029ec474a2612634054cfc8a5c43b104075effa2a4c88db4090f59cd3976cd240a459ef644f4f6240b38efdede66dad40be9b8cbce5e84c40c39a27e1a3cccf40c46e7f427d6de540c0f8c6f7334a6d40b560fffa03463440a1d0d550580fd6,
  0x40a1d0d550580fd640b560fffa03463440c0f8c6f7334a6d40c46e7f427d6de540c39a27e1a3cccf40be9b8cbce5e84c40b38efdede66dad40a459ef644f4f624090f59cd3976cd24075effa2a4c88db4054cfc8a5c43b104029ec474a2612633ff0000000000000402a00000000000040550ff9ec3eeef140768bc408e9eaa64091d2fb425e2f3240a60c18acab40aa40b60c18acab40aa40c22959817a8a6a40c8de62597accbd40cc50727ed027d640ca8fa57009754340c40ebc98826f3c40b729154ed8e16340a1d0d550580fd6,
  0x40a07e82d787b66940b224c320487bda40ba3023042f766e40bc5fbfc08fcadb40b8328bc5e2111940b087ae3660bff340a21b92e156b838408f671abbc6a3034074ef6727d9c20240544f6273c4660e4029b0c25315c2cd3ff00000000000004029ec474a26126340550ff9ec3eeef14076c00000000000409243aa2711787e40a71a4cca15cdb040b7d05223bae64840c4696afa0de9f540cd6cceae2ceb5b40d1e852103e254840d25987dc7619c440cf4c22a2c0bd9f40c5aa2646f4108540b71783fa8acc2c40a07e82d787b669,
  0x409c3fe28c66740440ac3fe28c66740440b2593f3fb95a4840b1abdb54bb662440aa5f6d3025e1b6409ee2760e45cb22408c31941b488c3440738ebf58b30cbc40538ebf58b30cbc40294c583ada5b523ff00000000000004029b0c25315c2cd4054cfc8a5c43b1040768bc408e9eaa6409243aa2711787e40a776000000000040b8bae13f87f3c540c5d979c518083a40d0631b53d2062b40d4ff97a452086c40d700aa97f6a5f640d56d88b71ec76440d0c03d3da6f8d240c5681f1fad93fe40b52fe9e94cd703409c3fe28c667404,
  0x4096554e9b610e8540a419938bd759de40a735998b7b47f940a38efdede66dad409904f72fd628c540886a9b3b1a48974071d4cc2768cf9e40528dd15385eaa74028bd171a07e38a3ff000000000000040294c583ada5b5240544f6273c4660e4075effa2a4c88db4091d2fb425e2f3240a71a4cca15cdb040b8bae13f87f3c540c658000000000040d14607e16d022040d7080a81e6ad8140da8fa57009754340da737d800723f940d69642b5da3a2340d04c7e4640061040c35755499166a540b1ddd87c4da5374096554e9b610e85,
  0x40903ff3b1366a7c4099ffec4ebd772e409a44e5f1686fec4092f97ee2fcc76340843a1b9652a335406f954e20de87e740514c810886c6a540280000000000003ff00000000000004028bd171a07e38a40538ebf58b30cbc4074ef6727d9c2024090f59cd3976cd240a60c18acab40aa40b7d05223bae64840c5d979c518083a40d14607e16d022040d7bd800000000040dc7d000000000040ddde16c8b8b2f940db43e472601b5240d57dbd4fb7cd6840ccccfc063faea540bfe5f2a523635640ab9feb13a94ea140903ff3b1366a7c,
  0x4085aa9a419de351408e553e5bdd0b0b408a44e5f1686fec407f9fd37a4ff6fb406af824c86e2ef1404f954e20de87e7402710ac0b5e5e313ff0000000000000402800000000000040528dd15385eaa740738ebf58b30cbc408f671abbc6a30340a459ef644f4f6240b60c18acab40aa40c4696afa0de9f540d0631b53d2062b40d7080a81e6ad8140dc7d000000000040df14000000000040ddde16c8b8b2f940d92afa4231544c40d26bc6d69d8b7e40c70a633832f21d40b7ec75fbda8a8040a37ff13b0e19624085aa9a419de351,
  0x407a4d51f42bb785407f8ffbf1ce0f6c4076c739ede334324065effa2a4c88db404c0ffb7051bb544025e8add236a58e3ff0000000000000402710ac0b5e5e3140514c810886c6a54071d4cc2768cf9e408c31941b488c3440a21b92e156b83840b38efdede66dad40c22959817a8a6a40cd6cceae2ceb5b40d4ff97a452086c40da8fa57009754340ddde16c8b8b2f940ddde16c8b8b2f940da7f000000000040d4bb6e7c2c362a40cc5354fef8e5e240c09b7862058a0140b03abfacb1e1fd4098fca774c3218b407a4d51f42bb785,
  0x406ccffb8eb6e94b406ccffb8eb6e94b4060a2868b85a403404807feab1c427440247e7054af09893ff00000000000004025e8add236a58e404f954e20de87e7406f954e20de87e740886a9b3b1a4897409ee2760e45cb2240b087ae3660bff340be9b8cbce5e84c40c8de62597accbd40d1e852103e254840d700aa97f6a5f640da737d800723f940db43e472601b5240d92afa4231544c40d4bb6e7c2c362a40ce48000000000040c364a5cc22a2c640b5671ed0652b3040a3c0ffc5aeb2c4408ccffb8eb6e94b406ccffb8eb6e94b,
  0x405c1e38d52b120f40567e93ddbc0e7240437b1311fb49224022c2fc595456a63ff000000000000040247e7054af0989404c0ffb7051bb54406af824c86e2ef140843a1b9652a335409904f72fd628c540aa5f6d3025e1b640b8328bc5e2111940c39a27e1a3cccf40cc50727ed027d640d25987dc7619c440d56d88b71ec76440d69642b5da3a2340d57dbd4fb7cd6840d26bc6d69d8b7e40cc5354fef8e5e240c364a5cc22a2c640b761000000000040a85e40c2060a8b40954e9cdbaad7fe407d86221306d2f6405c1e38d52b120f,
  0x4047faaa12d4c51c403cc665b032862140209cfdcd8ed0083ff00000000000004022c2fc595456a6404807feab1c42744065effa2a4c88db407f9fd37a4ff6fb4092f97ee2fcc76340a38efdede66dad40b1abdb54bb662440bc5fbfc08fcadb40c46e7f427d6de540ca8fa57009754340cf4c22a2c0bd9f40d0c03d3da6f8d240d04c7e4640061040ccccfc063faea540c70a633832f21d40c09b7862058a0140b5671ed0652b3040a85e40c2060a8b40981000000000004083fce15b4fd24a406a6087e183a59e4047faaa12d4c51c,
  0x4031520cd1372fea401bb67ae8584caa3ff000000000000040209cfdcd8ed00840437b1311fb49224060a2868b85a4034076c739ede33432408a44e5f1686fec409a44e5f1686fec40a735998b7b47f940b2593f3fb95a4840ba3023042f766e40c0f8c6f7334a6d40c40ebc98826f3c40c5aa2646f4108540c5681f1fad93fe40c35755499166a540bfe5f2a523635640b7ec75fbda8a8040b03abfacb1e1fd40a3c0ffc5aeb2c440954e9cdbaad7fe4083fce15b4fd24a406fa000000000004053eb2856ff771a4031520cd1372fea,
  0x40140000000000003ff0000000000000401bb67ae8584caa403cc665b032862140567e93ddbc0e72406ccffb8eb6e94b407f8ffbf1ce0f6c408e553e5bdd0b0b4099ffec4ebd772e40a419938bd759de40ac3fe28c66740440b224c320487bda40b560fffa03463440b729154ed8e16340b71783fa8acc2c40b52fe9e94cd70340b1ddd87c4da53740ab9feb13a94ea140a37ff13b0e19624098fca774c3218b408ccffb8eb6e94b407d86221306d2f6406a6087e183a59e4053eb2856ff771a40380000000000004014000000000000,
  0x3ff000000000000040140000000000004031520cd1372fea4047faaa12d4c51c405c1e38d52b120f406ccffb8eb6e94b407a4d51f42bb7854085aa9a419de35140903ff3b1366a7c4096554e9b610e85409c3fe28c66740440a07e82d787b66940a1d0d550580fd640a1d0d550580fd640a07e82d787b669409c3fe28c6674044096554e9b610e8540903ff3b1366a7c4085aa9a419de351407a4d51f42bb785406ccffb8eb6e94b405c1e38d52b120f4047faaa12d4c51c4031520cd1372fea40140000000000003ff0000000000000]

/-- The coefficients for `2 ell = 26`: one number for each of the 27 values of `mp`, consisting of the doubles for the 27 values of `m`. -/
def wigner26 : List Nat := [
  0x3ff0000000000000401465655f122ff64032071b0abcd83840497ebeb6d6bbf3405e914ad5ee000f4070079e2fbd258c407dfd2a8866f4c940895863bed6b464409387a3d630caa7409b9e8f056ee3ca40a20170b85beddb40a5b731b63000bc40a8475e388a735f40a931fe03f7fbde40a8475e388a735f40a5b731b63000bc40a20170b85beddb409b9e8f056ee3ca409387a3d630caa740895863bed6b464407dfd2a8866f4c94070079e2fbd258c405e914ad5ee000f40497ebeb6d6bbf34032071b0abcd838401465655f122ff63ff0000000000000,
  0x401465655f122ff64039000000000000405536948017480f406cc0000000000040807c54ecf247834090811ff62f36f3409d6814acfefd1040a79c451fa03b4a40b13c4b9a28bdd540b70543e5b7c18640bc3fe28c66740440bff0db8ad44edd40c0aa44d41e341840c00f145cdbfca240bc919a9033c70440b76c5cbb2439d540b1a7ed97c0088240a85fed89d19fbb409ea414a0486dec409165ac32402bb04081a4d93498fe3c406f6fdb5b04996e4057faaa12d4c51c403e000000000000401c48c6001f0abf3ff0000000000000401465655f122ff6,
  0x4032071b0abcd838405536948017480f407140000000000040865cbc8b4bbe1940987adf76a9cbcf40a7573a96f4cd2440b3c0ffc5aeb2c440be0d198a393b4d40c4b7f04ebefaf840ca0b77eea3f70940cdf69284c6769140cf9ead102d900e40cea3709b58179340cb40bbbbb663b440c638a61104d06540c090118261025040b678ede394d8ec40ab93ac29dac955409e553e5bdd0b0b408d86221306d2f64078f3c9d14876054061c88e29df1634404458d455549c1a4020f876ccdf6cd93ff0000000000000401c48c6001f0abf4032071b0abcd838,
  0x40497ebeb6d6bbf3406cc0000000000040865cbc8b4bbe19409bac000000000040acd9949ea7fd2540ba21c7f0756c5640c4f3c1ee75ade840ce1a71bb85e53240d38899f2faf94640d70543e5b7c18640d8b7e63ad9a58440d838c89e9cbbce40d5aa2646f4108540d1aa2fffbec91940ca3023042f766e40c191458c5b2b6040b52fe9e94cd70340a6bfeec4e5c848409572db3cff8025408165ac32402bb040678676f0cbfda640492649159d478b40232eee757704163ff00000000000004020f876ccdf6cd9403e00000000000040497ebeb6d6bbf3,
  0x405e914ad5ee000f40807c54ecf2478340987adf76a9cbcf40acd9949ea7fd2540bc93000000000040c8851ef6fdf1b040d29149c9e3c1a740d91b9e6c8a927b40de8c3b212af20540e0cce858fa7b3540e0c03d3da6f8d240de4db775dc435640d8d87c94d6732740d26ab4d55286f440c8929758200c9d40bd4df7bdee51ff40aeecbfd447f2c0409c763e547b2b1540865c9d0fe9e508406d053d51dd31a0404d6e9fc396fea84024f9e6bbc4ecb33ff000000000000040232eee75770416404458d455549c1a4057faaa12d4c51c405e914ad5ee000f,
  0x4070079e2fbd258c4090811ff62f36f340a7573a96f4cd2440ba21c7f0756c5640c8851ef6fdf1b040d3df400000000040dc5354fef8e5e240e1f45ede44d8b040e463688b0b4cbf40e4d2fb194e089b40e32a692a99b9d640dfc85ca296723a40d7b07c6ed9979540cf9b88779675c440c2be4652143fab40b38efdede66dad40a1b0fe9d7a3563408b23291b2f3f5840710e90598da2ed40509a19e69f4bee4026732f8d0e2f763ff00000000000004024f9e6bbc4ecb340492649159d478b4061c88e29df1634406f6fdb5b04996e4070079e2fbd258c,
  0x407dfd2a8866f4c9409d6814acfefd1040b3c0ffc5aeb2c440c4f3c1ee75ade840d29149c9e3c1a740dc5354fef8e5e240e2ed000000000040e664ae6a52127e40e79cc39c9a01fb40e6430ee9d5b88e40e2c813728b042740dc50727ed027d640d2fe67fee3466e40c686cef84a221840b7607ffea191c340a4e8b312d0da76408f857f8529c2f240735737d0f1472440523c0d99c174354027aa10d193c22c3ff00000000000004026732f8d0e2f76404d6e9fc396fea840678676f0cbfda64078f3c9d14876054081a4d93498fe3c407dfd2a8866f4c9,
  0x40895863bed6b46440a79c451fa03b4a40be0d198a393b4d40ce1a71bb85e53240d91b9e6c8a927b40e1f45ede44d8b040e664ae6a52127e40e89a800000000040e7f2827d66688a40e4b23dddd0900d40dfbf21b86cd8d440d589734f44647c40c9af2c5dc32d0540baa7613b13a9f440a7b56407c7dac94091abdb54bb662440754ff9fe7ec74540539d739af0d7b74028a85c24f706593ff00000000000004027aa10d193c22c40509a19e69f4bee406d053d51dd31a0408165ac32402bb0408d86221306d2f6409165ac32402bb040895863bed6b464,
  0x409387a3d630caa740b13c4b9a28bdd540c4b7f04ebefaf840d38899f2faf94640de8c3b212af20540e463688b0b4cbf40e79cc39c9a01fb40e7f2827d66688a40e55dc00000000040e0c97103b26c7140d72cc6e02ef69240cbf332b75e0f9940bd2a700d6c5b5a40a9f163e530a0a740933aed0ba9e7d64076eeee8953be074054be7525c2346d402974b2334f23463ff00000000000004028a85c24f7065940523c0d99c1743540710e90598da2ed40865c9d0fe9e508409572db3cff8025409e553e5bdd0b0b409ea414a0486dec409387a3d630caa7,
  0x409b9e8f056ee3ca40b70543e5b7c18640ca0b77eea3f70940d70543e5b7c18640e0cce858fa7b3540e4d2fb194e089b40e6430ee9d5b88e40e4b23dddd0900d40e0c97103b26c7140d7bd800000000040cd21f7b175604d40bebe50fe9b7c1740ab7f6ccb42ce9d409461f80d56a97940782c8166bc235a40559f2ae5b3ae7b402a13a9cb9966503ff0000000000000402974b2334f234640539d739af0d7b740735737d0f14724408b23291b2f3f58409c763e547b2b1540a6bfeec4e5c84840ab93ac29dac95540a85fed89d19fbb409b9e8f056ee3ca,
  0x40a20170b85beddb40bc3fe28c66740440cdf69284c6769140d8b7e63ad9a58440e0c03d3da6f8d240e32a692a99b9d640e2c813728b042740dfbf21b86cd8d440d72cc6e02ef69240cd21f7b175604d40bf48000000000040ac4b822fd14396409516fe14637c8f40790332fecc224640563fa3f3c02961402a887293fd6f343ff0000000000000402a13a9cb9966504054be7525c2346d40754ff9fe7ec745408f857f8529c2f240a1b0fe9d7a356340aeecbfd447f2c040b52fe9e94cd70340b678ede394d8ec40b1a7ed97c0088240a20170b85beddb,
  0x40a5b731b63000bc40bff0db8ad44edd40cf9ead102d900e40d838c89e9cbbce40de4db775dc435640dfc85ca296723a40dc50727ed027d640d589734f44647c40cbf332b75e0f9940bebe50fe9b7c1740ac4b822fd14396409554000000000040796f6e113c0fde40569fe95eb7dd64402ad5336963eefb3ff0000000000000402a887293fd6f3440559f2ae5b3ae7b4076eeee8953be074091abdb54bb662440a4e8b312d0da7640b38efdede66dad40bd4df7bdee51ff40c191458c5b2b6040c090118261025040b76c5cbb2439d540a5b731b63000bc,
  0x40a8475e388a735f40c0aa44d41e341840cea3709b58179340d5aa2646f4108540d8d87c94d6732740d7b07c6ed9979540d2fe67fee3466e40c9af2c5dc32d0540bd2a700d6c5b5a40ab7f6ccb42ce9d409516fe14637c8f40796f6e113c0fde4056c00000000000402afb41f432002d3ff0000000000000402ad5336963eefb40563fa3f3c0296140782c8166bc235a40933aed0ba9e7d640a7b56407c7dac940b7607ffea191c340c2be4652143fab40c8929758200c9d40ca3023042f766e40c638a61104d06540bc919a9033c70440a8475e388a735f,
  0x40a931fe03f7fbde40c00f145cdbfca240cb40bbbbb663b440d1aa2fffbec91940d26ab4d55286f440cf9b88779675c440c686cef84a221840baa7613b13a9f440a9f163e530a0a7409461f80d56a97940790332fecc224640569fe95eb7dd64402afb41f432002d3ff0000000000000402afb41f432002d40569fe95eb7dd6440790332fecc2246409461f80d56a97940a9f163e530a0a740baa7613b13a9f440c686cef84a221840cf9b88779675c440d26ab4d55286f440d1aa2fffbec91940cb40bbbbb663b440c00f145cdbfca240a931fe03f7fbde,
  0x40a8475e388a735f40bc919a9033c70440c638a61104d06540ca3023042f766e40c8929758200c9d40c2be4652143fab40b7607ffea191c340a7b56407c7dac940933aed0ba9e7d640782c8166bc235a40563fa3f3c02961402ad5336963eefb3ff0000000000000402afb41f432002d4056c0000000000040796f6e113c0fde409516fe14637c8f40ab7f6ccb42ce9d40bd2a700d6c5b5a40c9af2c5dc32d0540d2fe67fee3466e40d7b07c6ed9979540d8d87c94d6732740d5aa2646f4108540cea3709b58179340c0aa44d41e341840a8475e388a735f,
  0x40a5b731b63000bc40b76c5cbb2439d540c090118261025040c191458c5b2b6040bd4df7bdee51ff40b38efdede66dad40a4e8b312d0da764091abdb54bb66244076eeee8953be0740559f2ae5b3ae7b402a887293fd6f343ff0000000000000402ad5336963eefb40569fe95eb7dd6440796f6e113c0fde409554000000000040ac4b822fd1439640bebe50fe9b7c1740cbf332b75e0f9940d589734f44647c40dc50727ed027d640dfc85ca296723a40de4db775dc435640d838c89e9cbbce40cf9ead102d900e40bff0db8ad44edd40a5b731b63000bc,
  0x40a20170b85beddb40b1a7ed97c0088240b678ede394d8ec40b52fe9e94cd70340aeecbfd447f2c040a1b0fe9d7a3563408f857f8529c2f240754ff9fe7ec7454054be7525c2346d402a13a9cb9966503ff0000000000000402a887293fd6f3440563fa3f3c0296140790332fecc2246409516fe14637c8f40ac4b822fd1439640bf48000000000040cd21f7b175604d40d72cc6e02ef69240dfbf21b86cd8d440e2c813728b042740e32a692a99b9d640e0c03d3da6f8d240d8b7e63ad9a58440cdf69284c6769140bc3fe28c66740440a20170b85beddb,
  0x409b9e8f056ee3ca40a85fed89d19fbb40ab93ac29dac95540a6bfeec4e5c848409c763e547b2b15408b23291b2f3f5840735737d0f1472440539d739af0d7b7402974b2334f23463ff0000000000000402a13a9cb99665040559f2ae5b3ae7b40782c8166bc235a409461f80d56a97940ab7f6ccb42ce9d40bebe50fe9b7c1740cd21f7b175604d40d7bd800000000040e0c97103b26c7140e4b23dddd0900d40e6430ee9d5b88e40e4d2fb194e089b40e0cce858fa7b3540d70543e5b7c18640ca0b77eea3f70940b70543e5b7c186409b9e8f056ee3ca,
  0x409387a3d630caa7409ea414a0486dec409e553e5bdd0b0b409572db3cff802540865c9d0fe9e50840710e90598da2ed40523c0d99c174354028a85c24f706593ff0000000000000402974b2334f23464054be7525c2346d4076eeee8953be0740933aed0ba9e7d640a9f163e530a0a740bd2a700d6c5b5a40cbf332b75e0f9940d72cc6e02ef69240e0c97103b26c7140e55dc00000000040e7f2827d66688a40e79cc39c9a01fb40e463688b0b4cbf40de8c3b212af20540d38899f2faf94640c4b7f04ebefaf840b13c4b9a28bdd5409387a3d630caa7,
  0x40895863bed6b464409165ac32402bb0408d86221306d2f6408165ac32402bb0406d053d51dd31a040509a19e69f4bee4027aa10d193c22c3ff00000000000004028a85c24f7065940539d739af0d7b740754ff9fe7ec7454091abdb54bb662440a7b56407c7dac940baa7613b13a9f440c9af2c5dc32d0540d589734f44647c40dfbf21b86cd8d440e4b23dddd0900d40e7f2827d66688a40e89a800000000040e664ae6a52127e40e1f45ede44d8b040d91b9e6c8a927b40ce1a71bb85e53240be0d198a393b4d40a79c451fa03b4a40895863bed6b464,
  0x407dfd2a8866f4c94081a4d93498fe3c4078f3c9d148760540678676f0cbfda6404d6e9fc396fea84026732f8d0e2f763ff00000000000004027aa10d193c22c40523c0d99c1743540735737d0f14724408f857f8529c2f240a4e8b312d0da7640b7607ffea191c340c686cef84a221840d2fe67fee3466e40dc50727ed027d640e2c813728b042740e6430ee9d5b88e40e79cc39c9a01fb40e664ae6a52127e40e2ed000000000040dc5354fef8e5e240d29149c9e3c1a740c4f3c1ee75ade840b3c0ffc5aeb2c4409d6814acfefd10407dfd2a8866f4c9,
  0x4070079e2fbd258c406f6fdb5b04996e4061c88e29df163440492649159d478b4024f9e6bbc4ecb33ff00000000000004026732f8d0e2f7640509a19e69f4bee40710e90598da2ed408b23291b2f3f5840a1b0fe9d7a356340b38efdede66dad40c2be4652143fab40cf9b88779675c440d7b07c6ed9979540dfc85ca296723a40e32a692a99b9d640e4d2fb194e089b40e463688b0b4cbf40e1f45ede44d8b040dc5354fef8e5e240d3df400000000040c8851ef6fdf1b040ba21c7f0756c5640a7573a96f4cd244090811ff62f36f34070079e2fbd258c,
  0x405e914ad5ee000f4057faaa12d4c51c404458d455549c1a40232eee757704163ff00000000000004024f9e6bbc4ecb3404d6e9fc396fea8406d053d51dd31a040865c9d0fe9e508409c763e547b2b1540aeecbfd447f2c040bd4df7bdee51ff40c8929758200c9d40d26ab4d55286f440d8d87c94d6732740de4db775dc435640e0c03d3da6f8d240e0cce858fa7b3540de8c3b212af20540d91b9e6c8a927b40d29149c9e3c1a740c8851ef6fdf1b040bc93000000000040acd9949ea7fd2540987adf76a9cbcf40807c54ecf24783405e914ad5ee000f,
  0x40497ebeb6d6bbf3403e0000000000004020f876ccdf6cd93ff000000000000040232eee7577041640492649159d478b40678676f0cbfda6408165ac32402bb0409572db3cff802540a6bfeec4e5c84840b52fe9e94cd70340c191458c5b2b6040ca3023042f766e40d1aa2fffbec91940d5aa2646f4108540d838c89e9cbbce40d8b7e63ad9a58440d70543e5b7c18640d38899f2faf94640ce1a71bb85e53240c4f3c1ee75ade840ba21c7f0756c5640acd9949ea7fd25409bac000000000040865cbc8b4bbe19406cc0000000000040497ebeb6d6bbf3,
  0x4032071b0abcd838401c48c6001f0abf3ff00000000000004020f876ccdf6cd9404458d455549c1a4061c88e29df16344078f3c9d1487605408d86221306d2f6409e553e5bdd0b0b40ab93ac29dac95540b678ede394d8ec40c090118261025040c638a61104d06540cb40bbbbb663b440cea3709b58179340cf9ead102d900e40cdf69284c6769140ca0b77eea3f70940c4b7f04ebefaf840be0d198a393b4d40b3c0ffc5aeb2c440a7573a96f4cd2440987adf76a9cbcf40865cbc8b4bbe194071400000000000405536948017480f4032071b0abcd838,
  0x401465655f122ff63ff0000000000000401c48c6001f0abf403e0000000000004057faaa12d4c51c406f6fdb5b04996e4081a4d93498fe3c409165ac32402bb0409ea414a0486dec40a85fed89d19fbb40b1a7ed97c0088240b76c5cbb2439d540bc919a9033c70440c00f145cdbfca240c0aa44d41e341840bff0db8ad44edd40bc3fe28c66740440b70543e5b7c18640b13c4b9a28bdd540a79c451fa03b4a409d6814acfefd104090811ff62f36f340807c54ecf24783406cc00000000000405536948017480f4039000000000000401465655f122ff6,
  0x3ff0000000000000401465655f122ff64032071b0abcd83840497ebeb6d6bbf3405e914ad5ee000f4070079e2fbd258c407dfd2a8866f4c940895863bed6b464409387a3d630caa7409b9e8f056ee3ca40a20170b85beddb40a5b731b63000bc40a8475e388a735f40a931fe03f7fbde40a8475e388a735f40a5b731b63000bc40a20170b85beddb409b9e8f056ee3ca409387a3d630caa740895863bed6b464407dfd2a8866f4c94070079e2fbd258c405e914ad5ee000f40497ebeb6d6bbf34032071b0abcd838401465655f122ff63ff0000000000000]

end SF
