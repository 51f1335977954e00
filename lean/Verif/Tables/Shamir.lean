/-! Generated by tools/gen_tables.py from /repo/shamir/tables.go; do not edit. -/

namespace Verif.Tables.Shamir

/-- shamir/tables.go:8-40 `logTable` (256 entries). -/
def logTable : List Nat := [
  0, 0, 1, 25, 2, 50, 26, 198, 3, 223, 51, 238, 27, 104, 199, 75,
  4, 100, 224, 14, 52, 141, 239, 129, 28, 193, 105, 248, 200, 8, 76, 113,
  5, 138, 101, 47, 225, 36, 15, 33, 53, 147, 142, 218, 240, 18, 130, 69,
  29, 181, 194, 125, 106, 39, 249, 185, 201, 154, 9, 120, 77, 228, 114, 166,
  6, 191, 139, 98, 102, 221, 48, 253, 226, 152, 37, 179, 16, 145, 34, 136,
  54, 208, 148, 206, 143, 150, 219, 189, 241, 210, 19, 92, 131, 56, 70, 64,
  30, 66, 182, 163, 195, 72, 126, 110, 107, 58, 40, 84, 250, 133, 186, 61,
  202, 94, 155, 159, 10, 21, 121, 43, 78, 212, 229, 172, 115, 243, 167, 87,
  7, 112, 192, 247, 140, 128, 99, 13, 103, 74, 222, 237, 49, 197, 254, 24,
  227, 165, 153, 119, 38, 184, 180, 124, 17, 68, 146, 217, 35, 32, 137, 46,
  55, 63, 209, 91, 149, 188, 207, 205, 144, 135, 151, 178, 220, 252, 190, 97,
  242, 86, 211, 171, 20, 42, 93, 158, 132, 60, 57, 83, 71, 109, 65, 162,
  31, 45, 67, 216, 183, 123, 164, 118, 196, 23, 73, 236, 127, 12, 111, 246,
  108, 161, 59, 82, 41, 157, 85, 170, 251, 96, 134, 177, 187, 204, 62, 90,
  203, 89, 95, 176, 156, 169, 160, 81, 11, 245, 22, 235, 122, 117, 44, 215,
  79, 174, 213, 233, 230, 231, 173, 232, 116, 214, 244, 234, 168, 80, 88, 175]

/-- shamir/tables.go:44-44 `expTable` (510 entries). -/
def expTable : List Nat := [
  1, 2, 4, 8, 16, 32, 64, 128, 29, 58, 116, 232, 205, 135, 19, 38,
  76, 152, 45, 90, 180, 117, 234, 201, 143, 3, 6, 12, 24, 48, 96, 192,
  157, 39, 78, 156, 37, 74, 148, 53, 106, 212, 181, 119, 238, 193, 159, 35,
  70, 140, 5, 10, 20, 40, 80, 160, 93, 186, 105, 210, 185, 111, 222, 161,
  95, 190, 97, 194, 153, 47, 94, 188, 101, 202, 137, 15, 30, 60, 120, 240,
  253, 231, 211, 187, 107, 214, 177, 127, 254, 225, 223, 163, 91, 182, 113, 226,
  217, 175, 67, 134, 17, 34, 68, 136, 13, 26, 52, 104, 208, 189, 103, 206,
  129, 31, 62, 124, 248, 237, 199, 147, 59, 118, 236, 197, 151, 51, 102, 204,
  133, 23, 46, 92, 184, 109, 218, 169, 79, 158, 33, 66, 132, 21, 42, 84,
  168, 77, 154, 41, 82, 164, 85, 170, 73, 146, 57, 114, 228, 213, 183, 115,
  230, 209, 191, 99, 198, 145, 63, 126, 252, 229, 215, 179, 123, 246, 241, 255,
  227, 219, 171, 75, 150, 49, 98, 196, 149, 55, 110, 220, 165, 87, 174, 65,
  130, 25, 50, 100, 200, 141, 7, 14, 28, 56, 112, 224, 221, 167, 83, 166,
  81, 162, 89, 178, 121, 242, 249, 239, 195, 155, 43, 86, 172, 69, 138, 9,
  18, 36, 72, 144, 61, 122, 244, 245, 247, 243, 251, 235, 203, 139, 11, 22,
  44, 88, 176, 125, 250, 233, 207, 131, 27, 54, 108, 216, 173, 71, 142, 1,
  2, 4, 8, 16, 32, 64, 128, 29, 58, 116, 232, 205, 135, 19, 38, 76,
  152, 45, 90, 180, 117, 234, 201, 143, 3, 6, 12, 24, 48, 96, 192, 157,
  39, 78, 156, 37, 74, 148, 53, 106, 212, 181, 119, 238, 193, 159, 35, 70,
  140, 5, 10, 20, 40, 80, 160, 93, 186, 105, 210, 185, 111, 222, 161, 95,
  190, 97, 194, 153, 47, 94, 188, 101, 202, 137, 15, 30, 60, 120, 240, 253,
  231, 211, 187, 107, 214, 177, 127, 254, 225, 223, 163, 91, 182, 113, 226, 217,
  175, 67, 134, 17, 34, 68, 136, 13, 26, 52, 104, 208, 189, 103, 206, 129,
  31, 62, 124, 248, 237, 199, 147, 59, 118, 236, 197, 151, 51, 102, 204, 133,
  23, 46, 92, 184, 109, 218, 169, 79, 158, 33, 66, 132, 21, 42, 84, 168,
  77, 154, 41, 82, 164, 85, 170, 73, 146, 57, 114, 228, 213, 183, 115, 230,
  209, 191, 99, 198, 145, 63, 126, 252, 229, 215, 179, 123, 246, 241, 255, 227,
  219, 171, 75, 150, 49, 98, 196, 149, 55, 110, 220, 165, 87, 174, 65, 130,
  25, 50, 100, 200, 141, 7, 14, 28, 56, 112, 224, 221, 167, 83, 166, 81,
  162, 89, 178, 121, 242, 249, 239, 195, 155, 43, 86, 172, 69, 138, 9, 18,
  36, 72, 144, 61, 122, 244, 245, 247, 243, 251, 235, 203, 139, 11, 22, 44,
  88, 176, 125, 250, 233, 207, 131, 27, 54, 108, 216, 173, 71, 142]

/-- shamir/tables.go:80-335 `mulTable`: row i is the i-th literal, its bytes in source order,
first byte most significant (256 bytes per row). -/
def mulTableRows : List Nat := [
  0x00000000000000000000000000000000000000000000000000000000000000000000000000000000000000000000000000000000000000000000000000000000000000000000000000000000000000000000000000000000000000000000000000000000000000000000000000000000000000000000000000000000000000000000000000000000000000000000000000000000000000000000000000000000000000000000000000000000000000000000000000000000000000000000000000000000000000000000000000000000000000000000000000000000000000000000000000000000000000000000000000000000000000000000000000000000,
  0x000102030405060708090a0b0c0d0e0f101112131415161718191a1b1c1d1e1f202122232425262728292a2b2c2d2e2f303132333435363738393a3b3c3d3e3f404142434445464748494a4b4c4d4e4f505152535455565758595a5b5c5d5e5f606162636465666768696a6b6c6d6e6f707172737475767778797a7b7c7d7e7f808182838485868788898a8b8c8d8e8f909192939495969798999a9b9c9d9e9fa0a1a2a3a4a5a6a7a8a9aaabacadaeafb0b1b2b3b4b5b6b7b8b9babbbcbdbebfc0c1c2c3c4c5c6c7c8c9cacbcccdcecfd0d1d2d3d4d5d6d7d8d9dadbdcdddedfe0e1e2e3e4e5e6e7e8e9eaebecedeeeff0f1f2f3f4f5f6f7f8f9fafbfcfdfeff,
  0x00020406080a0c0e10121416181a1c1e20222426282a2c2e30323436383a3c3e40424446484a4c4e50525456585a5c5e60626466686a6c6e70727476787a7c7e80828486888a8c8e90929496989a9c9ea0a2a4a6a8aaacaeb0b2b4b6b8babcbec0c2c4c6c8caccced0d2d4d6d8dadcdee0e2e4e6e8eaeceef0f2f4f6f8fafcfe1d1f191b151711130d0f090b050701033d3f393b353731332d2f292b252721235d5f595b555751534d4f494b454741437d7f797b757771736d6f696b656761639d9f999b959791938d8f898b85878183bdbfb9bbb5b7b1b3adafa9aba5a7a1a3dddfd9dbd5d7d1d3cdcfc9cbc5c7c1c3fdfff9fbf5f7f1f3edefe9ebe5e7e1e3,
  0x000306050c0f0a09181b1e1d14171211303336353c3f3a39282b2e2d24272221606366656c6f6a69787b7e7d74777271505356555c5f5a59484b4e4d44474241c0c3c6c5cccfcac9d8dbdeddd4d7d2d1f0f3f6f5fcfffaf9e8ebeeede4e7e2e1a0a3a6a5acafaaa9b8bbbebdb4b7b2b1909396959c9f9a99888b8e8d848782819d9e9b989192979485868380898a8f8cadaeaba8a1a2a7a4b5b6b3b0b9babfbcfdfefbf8f1f2f7f4e5e6e3e0e9eaefeccdcecbc8c1c2c7c4d5d6d3d0d9dadfdc5d5e5b585152575445464340494a4f4c6d6e6b686162676475767370797a7f7c3d3e3b383132373425262320292a2f2c0d0e0b080102070415161310191a1f1c,
  0x0004080c1014181c2024282c3034383c4044484c5054585c6064686c7074787c8084888c9094989ca0a4a8acb0b4b8bcc0c4c8ccd0d4d8dce0e4e8ecf0f4f8fc1d1915110d0905013d3935312d2925215d5955514d4945417d7975716d6965619d9995918d898581bdb9b5b1ada9a5a1ddd9d5d1cdc9c5c1fdf9f5f1ede9e5e13a3e32362a2e22261a1e12160a0e02067a7e72766a6e62665a5e52564a4e4246babeb2b6aaaea2a69a9e92968a8e8286fafef2f6eaeee2e6daded2d6cacec2c627232f2b37333f3b07030f0b17131f1b67636f6b77737f7b47434f4b57535f5ba7a3afabb7b3bfbb87838f8b97939f9be7e3efebf7f3fffbc7c3cfcbd7d3dfdb,
  0x00050a0f14111e1b282d22273c39363350555a5f44414e4b787d72776c696663a0a5aaafb4b1bebb888d82879c999693f0f5faffe4e1eeebd8ddd2d7ccc9c6c35d585752494c434675707f7a61646b6e0d080702191c131625202f2a31343b3efdf8f7f2e9ece3e6d5d0dfdac1c4cbceada8a7a2b9bcb3b685808f8a91949b9ebabfb0b5aeaba4a19297989d86838c89eaefe0e5fefbf4f1c2c7c8cdd6d3dcd91a1f10150e0b04013237383d26232c294a4f40455e5b54516267686d76737c79e7e2ede8f3f6f9fccfcac5c0dbded1d4b7b2bdb8a3a6a9ac9f9a95908b8e818447424d485356595c6f6a65607b7e717417121d180306090c3f3a35302b2e2124,
  0x00060c0a181e141230363c3a282e242260666c6a787e747250565c5a484e4442c0c6cccad8ded4d2f0f6fcfae8eee4e2a0a6acaab8beb4b290969c9a888e84829d9b91978583898fadaba1a7b5b3b9bffdfbf1f7e5e3e9efcdcbc1c7d5d3d9df5d5b51574543494f6d6b61677573797f3d3b31372523292f0d0b01071513191f27212b2d3f39333517111b1d0f09030547414b4d5f59535577717b7d6f696365e7e1ebedfff9f3f5d7d1dbddcfc9c3c587818b8d9f999395b7b1bbbdafa9a3a5babcb6b0a2a4aea88a8c868092949e98dadcd6d0c2c4cec8eaece6e0f2f4fef87a7c767062646e684a4c464052545e581a1c161002040e082a2c262032343e38,
  0x00070e091c1b1215383f363124232a2d70777e796c6b6265484f464154535a5de0e7eee9fcfbf2f5d8dfd6d1c4c3cacd90979e998c8b8285a8afa6a1b4b3babddddad3d4c1c6cfc8e5e2ebecf9fef7f0adaaa3a4b1b6bfb895929b9c898e87803d3a333421262f2805020b0c191e17104d4a434451565f5875727b7c696e6760a7a0a9aebbbcb5b29f98919683848d8ad7d0d9decbccc5c2efe8e1e6f3f4fdfa4740494e5b5c55527f78717663646d6a3730393e2b2c25220f08010613141d1a7a7d74736661686f42454c4b5e5950570a0d04031611181f32353c3b2e2920279a9d94938681888fa2a5acabbeb9b0b7eaede4e3f6f1f8ffd2d5dcdbcec9c0c7,
  0x0008101820283038404850586068707880889098a0a8b0b8c0c8d0d8e0e8f0f81d150d053d352d255d554d457d756d659d958d85bdb5ada5ddd5cdc5fdf5ede53a322a221a120a027a726a625a524a42bab2aaa29a928a82faf2eae2dad2cac2272f373f070f171f676f777f474f575fa7afb7bf878f979fe7eff7ffc7cfd7df747c646c545c444c343c242c141c040cf4fce4ecd4dcc4ccb4bca4ac949c848c69617971494159512921393109011911e9e1f9f1c9c1d9d1a9a1b9b1898199914e465e566e667e760e061e162e263e36cec6ded6eee6fef68e869e96aea6beb6535b434b737b636b131b030b333b232bd3dbc3cbf3fbe3eb939b838bb3bba3ab,
  0x0009121b242d363f48415a536c657e779099828bb4bda6afd8d1cac3fcf5eee73d342f2619100b02757c676e5158434aada4bfb689809b92e5ecf7fec1c8d3da7a7368615e574c45323b2029161f040deae3f8f1cec7dcd5a2abb0b9868f949d474e555c636a71780f061d142b223930d7dec5ccf3fae1e89f968d84bbb2a9a0f4fde6efd0d9c2cbbcb5aea798918a83646d767f4049525b2c253e3708011a13c9c0dbd2ede4fff68188939aa5acb7be59504b427d746f661118030a353c272e8e879c95aaa3b8b1c6cfd4dde2ebf0f91e170c053a332821565f444d727b6069b3baa1a8979e858cfbf2e9e0dfd6cdc4232a3138070e151c6b6279704f465d54,
  0x000a141e28223c36505a444e78726c66a0aab4be88829c96f0fae4eed8d2ccc65d574943757f616b0d071913252f313bfdf7e9e3d5dfc1cbada7b9b3858f919bbab0aea49298868ceae0fef4c2c8d6dc1a100e043238262c4a405e546268767ce7edf3f9cfc5dbd1b7bda3a99f958b81474d53596f657b71171d03093f352b2169637d77414b555f39332d27111b050fc9c3ddd7e1ebf5ff99938d87b1bba5af343e202a1c160802646e707a4c465852949e808abcb6a8a2c4ced0daece6f8f2d3d9c7cdfbf1efe58389979daba1bfb57379676d5b514f452329373d0b011f158e849a90a6acb2b8ded4cac0f6fce2e82e243a30060c12187e746a60565c4248,
  0x000b161d2c273a3158534e45747f6269b0bba6ad9c978a81e8e3fef5c4cfd2d97d766b60515a474c252e333809021f14cdc6dbd0e1eaf7fc959e8388b9b2afa4faf1ece7d6ddc0cba2a9b4bf8e8598934a415c57666d707b1219040f3e352823878c919aaba0bdb6dfd4c9c2f3f8e5ee373c212a1b100d066f6479724348555ee9e2fff4c5ced3d8b1baa7ac9d968b8059524f44757e6368010a171c2d263b30949f8289b8b3aea5ccc7dad1e0ebf6fd242f323908031e157c776a61505b464d1318050e3f3429224b405d56676c717aa3a8b5be8f849992fbf0ede6d7dcc1ca6e6578734249545f363d202b1a110c07ded5c8c3f2f9e4ef868d909baaa1bcb7,
  0x000c1814303c2824606c7874505c4844c0ccd8d4f0fce8e4a0acb8b4909c88849d918589ada1b5b9fdf1e5e9cdc1d5d95d5145496d6175793d3125290d011519272b3f33171b0f03474b5f53777b6f63e7ebfff3d7dbcfc3878b9f93b7bbafa3bab6a2ae8a86929edad6c2ceeae6f2fe7a76626e4a46525e1a16020e2a26323e4e42565a7e72666a2e22363a1e12060a8e82969abeb2a6aaeee2f6faded2c6cad3dfcbc7e3effbf7b3bfaba7838f9b97131f0b07232f3b37737f6b67434f5b576965717d5955414d0905111d3935212da9a5b1bd9995818dc9c5d1ddf9f5e1edf4f8ece0c4c8dcd094988c80a4a8bcb034382c2004081c1054584c4064687c70,
  0x000d1a1734392e236865727f5c51464bd0ddcac7e4e9fef3b8b5a2af8c81969bbdb0a7aa8984939ed5d8cfc2e1ecfbf66d60777a5954434e05081f12313c2b26676a7d70535e49440f0215183b36212cb7baada0838e9994dfd2c5c8ebe6f1fcdad7c0cdeee3f4f9b2bfa8a5868b9c910a07101d3e332429626f7875565b4c41cec3d4d9faf7e0eda6abbcb1929f88851e1304092a27303d767b6c61424f5855737e6964474a5d501b16010c2f223538a3aeb9b4979a8d80cbc6d1dcfff2e5e8a9a4b3be9d90878ac1ccdbd6f5f8efe27974636e4d40575a111c0b0625283f3214190e03202d3a377c71666b4845525fc4c9ded3f0fdeae7aca1b6bb9895828f,
  0x000e1c123836242a707e6c624846545ae0eefcf2d8d6c4ca909e8c82a8a6b4baddd3c1cfe5ebf9f7ada3b1bf959b89873d33212f050b19174d43515f757b6967a7a9bbb59f91838dd7d9cbc5efe1f3fd47495b557f71636d37392b250f01131d7a746668424c5e500a041618323c2e209a948688a2acbeb0eae4f6f8d2dccec0535d4f416b657779232d3f311b150709b3bdafa18b859799c3cddfd1fbf5e7e98e80929cb6b8aaa4fef0e2ecc6c8dad46e60727c56584a441e10020c26283a34f4fae8e6ccc2d0de848a9896bcb2a0ae141a08062c22303e646a78765c52404e2927353b111f0d035957454b616f7d73c9c7d5dbf1ffede3b9b7a5ab818f9d93,
  0x000f1e113c33222d78776669444b5a55f0ffeee1ccc3d2dd88879699b4bbaaa5fdf2e3ecc1cedfd0858a9b94b9b6a7a80d02131c313e2f20757a6b6449465758e7e8f9f6dbd4c5ca9f90818ea3acbdb2171809062b24353a6f60717e535c4d421a15040b26293837626d7c735e51404feae5f4fbd6d9c8c7929d8c83aea1b0bfd3dccdc2efe0f1feaba4b5ba97988986232c3d321f10010e5b54454a676879762e21303f121d0c03565948476a65747bded1c0cfe2edfcf3a6a9b8b79a95848b343b2a25080716194c43525d707f6e61c4cbdad5f8f7e6e9bcb3a2ad808f9e91c9c6d7d8f5faebe4b1beafa08d82939c39362728050a1b14414e5f507d72636c,
  0x00102030405060708090a0b0c0d0e0f01d0d3d2d5d4d7d6d9d8dbdadddcdfded3a2a1a0a7a6a5a4abaaa9a8afaeadaca2737071767774757a7b78797e7f7c7d77464544434241404f4e4d4c4b4a494846979495929390919e9f9c9d9a9b989994e5e6e7e0e1e2e3ecedeeefe8e9eaebe5343736313033323d3c3f3e39383b3a3e8f8c8d8a8b888986878485828380818f5e5d5c5b5a595857565554535251505d2c2f2e29282b2a25242726212023222cfdfefff8f9fafbf4f5f6f7f0f1f2f3f9c8cbcacdcccfcec1c0c3c2c5c4c7c6c8191a1b1c1d1e1f10111213141516171a6b68696e6f6c6d62636061666764656bbab9b8bfbebdbcb3b2b1b0b7b6b5b4b,
  0x00112233445566778899aabbccddeeff0d1c2f3e49586b7a8594a7b6c1d0e3f21a0b38295e4f7c6d9283b0a1d6c7f4e517063524534271609f8ebdacdbcaf9e83425160770615243bcad9e8ff8e9dacb39281b0a7d6c5f4eb1a09382f5e4d7c62e3f0c1d6a7b4859a6b78495e2f3c0d12332011067764554abba8998effecddc68794a5b2c3d0e1fe0f1c2d3a4b586976574475621300312edfccfdea9b88b9a7263504136271405faebd8c9beaf9c8d7f6e5d4c3b2a1908f7e6d5c4b3a291805c4d7e6f18093a2bd4c5f6e79081b2a35140736215043726d9c8fbea9d8cbfae4657647502132031cedfecfd8a9ba8b94b5a69780f1e2d3cc3d2e1f08796a5b4,
  0x00122436485a6c7e9082b4a6d8cafcee3d2f190b75675143adbf899be5f7c1d37a685e4c32201604eaf8cedca2b08694475563710f1d2b39d7c5f3e19f8dbba9f4e6d0c2bcae988a647640522c3e081ac9dbedff8193a5b7594b7d6f110335278e9caab8c6d4e2f01e0c3a2856447260b3a19785fbe9dfcd233107156b794f5df5e7d1c3bdaf998b657741532d3f091bc8daecfe8092a4b6584a7c6e100234268f9dabb9c7d5e3f11f0d3b2957457361b2a09684fae8decc223006146a784e5c01132537495b6d7f9183b5a7d9cbfdef3c2e180a74665042acbe889ae4f6c0d27b695f4d33211705ebf9cfdda3b18795465462700e1c2a38d6c4f2e09e8cbaa8,
  0x001326354c5f6a79988bbeadd4c7f2e12d3e0b1861724754b5a69380f9eadfcc5a497c6f16053023c2d1e4f78e9da8bb776451423b281d0eeffcc9daa3b08596b4a79281f8ebdecd2c3f0a1960734655998abfacd5c6f3e0011227344d5e6b78eefdc8dba2b18497766550433a291c0fc3d0e5f68f9ca9ba5b487d6e1704312275665340392a1f0cedfecbd8a1b28794584b7e6d14073221c0d3e6f58c9faab92f3c091a63704556b7a49182fbe8ddce021124374e5d687b9a89bcafd6c5f0e3c1d2e7f48d9eabb8594a7f6c15063320ecffcad9a0b3869574675241382b1e0d9b88bdaed7c4f1e2031025364f5c697ab6a59083fae9dccf2e3d081b62714457,
  0x0014283c5044786ca0b4889cf0e4d8cc5d4975610d192531fde9d5c1adb98591baae9286eafec2d61a0e32264a5e6276e7f3cfdbb7a39f8b47536f7b17033f2b697d4155392d1105c9dde1f5998db1a534201c0864704c589480bca8c4d0ecf8d3c7fbef8397abbf73675b4f23370b1f8e9aa6b2decaf6e22e3a06127e6a5642d2c6faee8296aabe72665a4e22360a1e8f9ba7b3dfcbf7e32f3b07137f6b5743687c4054382c1004c8dce0f4988cb0a435211d0965714d599581bda9c5d1edf9bbaf9387ebffc3d71b0f33274b5f6377e6f2cedab6a29e8a46526e7a16023e2a0115293d5145796da1b5899df1e5d9cd5c4874600c182430fce8d4c0acb88490,
  0x00152a3f54417e6ba8bd8297fce9d6c34d586772190c3326e5f0cfdab1a49b8e9a8fb0a5cedbe4f13227180d66734c59d7c2fde88396a9bc7f6a55402b3e0114293c03167d6857428194abbed5c0ffea64714e5b30251a0fccd9e6f3988db2a7b3a6998ce7f2cdd81b0e31244f5a6570feebd4c1aabf809556437c690217283d5247786d06132c39faefd0c5aebb84911f0a35204b5e6174b7a29d88e3f6c9dcc8dde2f79c89b6a360754a5f34211e0b8590afbad1c4fbee2d380712796c53467b6e51442f3a0510d3c6f9ec8792adb836231c096277485d9e8bb4a1cadfe0f5e1f4cbdeb5a09f8a495c63761d083722acb98693f8edd2c704112e3b50457a6f,
  0x00162c3a584e7462b0a69c8ae8fec4d27d6b51472533091fcddbe1f79583b9affaecd6c0a2b48e984a5c667012043e288791abbddfc9f3e537211b0d6f794355e9ffc5d3b1a79d8b594f756301172d3b9482b8aeccdae0f62432081e7c6a504613053f294b5d6771a3b58f99fbedd7c16e78425436201a0cdec8f2e48690aabccfd9e3f59781bbad7f69534527310b1db2a49e88eafcc6d002142e385a4c76603523190f6d7b41578593a9bfddcbf1e7485e647210063c2af8eed4c2a0b68c9a26300a1c7e6852449680baacced8e2f45b4d776103152f39ebfdc7d1b3a59f89dccaf0e68492a8be6c7a40563422180ea1b78d9bf9efd5c311073d2b495f6573,
  0x00172e395c4b7265b8af9681e4f3cadd6d7a435431261f08d5c2fbec899ea7b0dacdf4e38691a8bf62754c5b3e291007b7a0998eebfcc5d20f18213653447d6aa9be8790f5e2dbcc11063f284d5a6374c4d3eafd988fb6a17c6b524520370e1973645d4a2f380116cbdce5f29780b9ae1e09302742556c7ba6b1889ffaedd4c34f58617613043d2af7e0d9ceabbc859222350c1b7e6950479a8db4a3c6d1e8ff9582bbacc9dee7f02d3a031471665f48f8efd6c1a4b38a9d40576e791c0b3225e6f1c8dfbaad94835e49706702152c3b8b9ca5b2d7c0f9ee33241d0a6f7841563c2b120560774e598493aabdd8cff6e151467f680d1a2334e9fec7d0b5a29b8c,
  0x0018302860785048c0d8f0e8a0b890889d85adb5fde5cdd55d456d753d250d15273f170f475f776fe7ffd7cf879fb7afbaa28a92dac2eaf27a624a521a022a324e567e662e361e068e96bea6eef6dec6d3cbe3fbb3ab839b130b233b736b435b6971594109113921a9b19981c9d1f9e1f4ecc4dc948ca4bc342c041c544c647c9c84acb4fce4ccd45c446c743c240c140119312961795149c1d9f1e9a1b99189bba38b93dbc3ebf37b634b531b032b33263e160e465e766ee6fed6ce869eb6aed2cae2fab2aa829a120a223a726a425a4f577f672f371f078f97bfa7eff7dfc7f5edc5dd958da5bd352d051d554d657d6870584008103820a8b09880c8d0f8e0,
  0x0019322b647d564fc8d1fae3acb59e878d94bfa6e9f0dbc2455c776e2138130a071e352c637a5148cfd6fde4abb299808a93b8a1eef7dcc5425b7069263f140d0e173c256a735841c6dff4eda2bb9089839ab1a8e7fed5cc4b5279602f361d0409103b226d745f46c1d8f3eaa5bc978e849db6afe0f9d2cb4c557e6728311a031c052e3778614a53d4cde6ffb0a9829b9188a3baf5ecc7de59406b723d240f161b0229307f664d54d3cae1f8b7ae859c968fa4bdf2ebc0d95e476c753a230811120b2039766f445ddac3e8f1bea78c959f86adb4fbe2c9d0574e657c332a0118150c273e7168435addc4eff6b9a08b929881aab3fce5ced75049627b342d061f,
  0x001a342e68725c46d0cae4feb8a28c96bda78993d5cfe1fb6d775943051f312b677d53490f153b21b7ad8399dfc5ebf1dac0eef4b2a8869c0a103e246278564cced4fae0a6bc92881e042a30766c42587369475d1b012f35a3b9978dcbd1ffe5a9b39d87c1dbf5ef79634d57110b253f140e203a7c664852c4def0eaacb69882819bb5afe9f3ddc7514b657f39230d173c260812544e607aecf6d8c2849eb0aae6fcd2c88e94baa0362c02185e446a705b416f753329071d8b91bfa5e3f9d7cd4f557b61273d13099f85abb1f7edc3d9f2e8c6dc9a80aeb42238160c4a507e6428321c06405a746ef8e2ccd6908aa4be958fa1bbfde7c9d3455f716b2d371903,
  0x001b362d6c775a41d8c3eef5b4af8299adb69b80c1daf7ec756e435819022f34475c716a2b301d069f84a9b2f3e8c5deeaf1dcc7869db0ab3229041f5e4568738e95b8a3e2f9d4cf564d607b3a210c172338150e4f547962fbe0cdd6978ca1bac9d2ffe4a5be9388110a273c7d664b50647f524908133e25bca78a91d0cbe6fd011a372c6d765b40d9c2eff4b5ae8398acb79a81c0dbf6ed746f425918032e35465d706b2a311c079e85a8b3f2e9c4dfebf0ddc6879cb1aa3328051e5f4469728f94b9a2e3f8d5ce574c617a3b200d162239140f4e557863fae1ccd7968da0bbc8d3fee5a4bf9289100b263d7c674a51657e534809123f24bda68b90d1cae7fc,
  0x001c3824706c4854e0fcd8c4908ca8b4ddc1e5f9adb195893d2105194d517569a7bb9f83d7cbeff3475b7f63372b0f137a66425e0a16322e9a86a2beeaf6d2ce534f6b77233f1b07b3af8b97c3dffbe78e92b6aafee2c6da6e72564a1e02263af4e8ccd08498bca014082c3064785c402935110d5945617dc9d5f1edb9a5819da6ba9e82d6caeef2465a7e62362a0e127b67435f0b17332f9b87a3bfebf7d3cf011d3925716d4955e1fdd9c5918da9b5dcc0e4f8acb094883c2004184c507468f5e9cdd18599bda115092d3165795d412834100c5844607cc8d4f0ecb8a4809c524e6a76223e1a06b2ae8a96c2defae68f93b7abffe3c7db6f73574b1f03273b,
  0x001d3a2774694e53e8f5d2cf9c81a6bbcdd0f7eab9a4839e25381f02514c6b76879abda0f3eec9d46f7255481b06213c4a57706d3e230419a2bf9885d6cbecf1130e2934677a5d40fbe6c1dc8f92b5a8dec3e4f9aab7908d362b0c11425f78659489aeb3e0fddac77c61465b0815322f5944637e2d30170ab1ac8b96c5d8ffe2263b1c01524f6875ced3f4e9baa7809debf6d1cc9f82a5b8031e3924776a4d50a1bc9b86d5c8eff24954736e3d20071a6c71564b1805223f8499bea3f0edcad735280f12415c7b66ddc0e7faa9b4938ef8e5c2df8c91b6ab100d2a3764795e43b2af8895c6dbfce15a47607d2e3314097f6245580b16312c978aadb0e3fed9c4,
  0x001e3c227866445af0eeccd28896b4aafde3c1df859bb9a70d13312f756b4957e7f9dbc59f81a3bd17092b356f71534d1a042638627c5e40eaf4d6c8928caeb0d3cdeff1abb59789233d1f015b4567792e30120c56486a74dec0e2fca6b89a84342a08164c52706ec4daf8e6bca2809ec9d7f5ebb1af8d933927051b415f7d63bba58799c3ddffe14b557769332d0f1146587a643e20021cb6a88a94ced0f2ec5c42607e243a1806acb2908ed4cae8f6a1bf9d83d9c7e5fb514f6d732937150b6876544a100e2c329886a4bae0fedcc2958ba9b7edf3d1cf657b59471d03213f8f91b3adf7e9cbd57f61435d07193b25726c4e500a143628829cbea0fae4c6d8,
  0x001f3e217c63425df8e7c6d9849bbaa5edf2d3cc918eafb0150a2b3469765748c7d8f9e6bba4859a3f20011e435c7d622a35140b56496877d2cdecf3aeb1908f938cadb2eff0d1ce6b74554a170829367e61405f021d3c238699b8a7fae5c4db544b6a7528371609acb3928dd0cfeef1b9a68798c5dafbe4415e7f603d22031c3b24051a47587966c3dcfde2bfa0819ed6c9e8f7aab5948b2e31100f524d6c73fce3c2dd809fbea1041b3a2578674659110e2f306d72534ce9f6d7c8958aabb4a8b79689d4cbeaf5504f6e712c33120d455a7b6439260718bda2839cc1deffe06f70514e130c2d329788a9b6ebf4d5ca829dbca3fee1c0df7a65445b06193827,
  0x0020406080a0c0e01d3d5d7d9dbdddfd3a1a7a5aba9afada27076747a787e7c774543414f4d4b49469492909e9c9a9894e6e0e2eceee8eae53731333d3f393b3e8c8a88868482808f5d5b59575553515d2f292b252721232cfef8faf4f6f0f2f9cbcdcfc1c3c5c7c81a1c1e101214161a686e6c626066646bb9bfbdb3b1b7b5bcded8dad4d6d0d2dd0f090b050701030f7d7b79777573717eacaaa8a6a4a2a0ab999f9d939197959a484e4c42404644483a3c3e3032343639ebedefe1e3e5e7e25056545a585e5c538187858b898f8d81f3f5f7f9fbfdfff0222426282a2c2e251711131d1f191b14c6c0c2cccec8cac6b4b2b0bebcbab8b76563616f6d6b696,
  0x0021426384a5c6e71534577691b0d3f22a0b6849ae8feccd3f1e7d5cbb9af9d854751637d0f192b341600322c5e487a67e5f3c1dfadbb8996b4a2908efcead8ca889eacb2c0d6e4fbd9cffde39187b5a82a3c0e10627446597b6d5f413325170fcddbe9f78593a1be9c8ab8a6d4c2f0ed6f794b552731031c3e281a0476605244d6c0f2ec9e88baa58791a3bdcfd9ebf67462504e3c2a18072533011f6d7b49519385b7a9dbcdffe0c2d4e6f88a9caeb33127150b796f5d426076445a283e0c1e5c4a78661402302f0d1b29374553617cfee8dac4b6a0928dafb98b95e7f1c3db190f3d235147756a485e6c7200162439bbad9f81f3e5d7c8eafcced0a2b4869,
  0x0022446688aaccee0d2f496b85a7c1e31a385e7c92b0d6f4173553719fbddbf934167052bc9ef8da391b7d5fb193f5d72e0c6a48a684e2c023016745ab89efcd684a2c0ee0c2a48665472103edcfa98b72503614fad8be9c7f5d3b19f7d5b3915c7e183ad4f690b251731537d9fb9dbf46640220ceec8aa84b690f2dc3e187a5d0f294b6587a1c3eddff99bb55771133cae88eac42600624c7e583a14f6d0b29e4c6a0826c4e280ae9cbad8f61432507fedcba9876543210f3d1b7957b593f1db89afcde30127456b597f1d33d1f795ba280e6c42a086e4caf8debc9270563418caec8ea0426406281a3c5e7092b4d6f96b4d2f01e3c5a789bb9dffd13315775,
  0x002346658cafcae90526436089aacfec0a294c6f86a5c0e30f2c496a83a0c5e61437527198bbdefd113257749dbedbf81e3d587b92b1d4f71b385d7e97b4d1f2280b6e4da487e2c12d0e6b48a182e7c422016447ae8de8cb27046142ab88edce3c1f7a59b093f6d5391a7f5cb596f3d036157053ba99fcdf33107556bf9cf9da50731635dcff9ab955761330d9fa9fbc5a791c3fd6f590b35f7c193ad3f095b644670221c8eb8ead41620724cdee8ba84e6d082bc2e184a74b680d2ec7e481a2785b3e1df4d7b2917d5e3b18f1d2b79472513417feddb89b77543112fbd8bd9e6c4f2a09e0c3a685694a2f0ce5c6a38066452003eac9ac8f63402506efcca98a,
  0x0024486c90b4d8fc3d197551ad89e5c17a5e3216eacea28647630f2bd7f39fbbf4d0bc9864402c08c9ed81a5597d11358eaac6e21e3a5672b397fbdf23076b4ff5d1bd9965412d09c8ec80a4587c10348fabc7e31f3b5773b296fade22066a4e0125496d91b5d9fd3c187450ac88e4c07b5f3317ebcfa38746620e2ad6f29ebaf7d3bf9b67432f0bcaee82a65a7e12368da9c5e11d395571b094f8dc2004684c03274b6f93b7dbff3e1a7652ae8ae6c2795d3115e9cda18544600c28d4f09cb802264a6e92b6dafe3f1b7753af8be7c3785c3014e8cca08445610d29d5f19db9f6d2be9a66422e0acbef83a75b7f13378ca8c4e01c385470b195f9dd2105694d,
  0x00254a6f94b1defb35107f5aa184ebce6a4f2005fedbb4915f7a1530cbee81a4d4f19ebb40650a2fe1c4ab8e75503f1abe9bf4d12a0f60458baec1e41f3a5570b590ffda21046b4e80a5caef14315e7bdffa95b04b6e0124eacfa0857e5b341161442b0ef5d0bf9a54711e3bc0e58aaf0b2e41649fbad5f03e1b7451aa8fe0c577523d18e3c6a98c4267082dd6f39cb91d38577289acc3e6280d6247bc99f6d3a386e9cc37127d5896b3dcf90227486dc9ec83a65d781732fcd9b693684d2207c2e788ad56731c39f7d2bd986346290ca88de2c73c1976539db8d7f2092c436616335c7982a7c8ed2306694cb792fdd87c593613e8cda287496c0326ddf897b2,
  0x00264c6a98bed4f22d0b6147b593f9df5a7c1630c2e48ea877513b1defc9a385b492f8de2c0a604699bfd5f301274d6beec8a28476503a1cc3e58fa95b7d17317553391fedcba187587e1432c0e68caa2f096345b791fbdd02244e689abcd6f0c1e78dab597f1533eccaa0867452381e9bbdd7f103254f69b690fadc2e086244eacca68072543e18c7e18bad5f791335b096fcda280e64429dbbd1f70523496f5e781234c6e08aac73553f19ebcda7810422486e9cbad0f6290f6543b197fddb9fb9d3f507214b6db294fed82a0c6640c5e389af5d7b1137e8cea48270563c1a2b0d6741b395ffd906204a6c9eb8d2f471573d1be9cfa5835c7a1036c4e288ae,
  0x00274e699cbbd2f525026b4cb99ef7d04a6d0423d6f198bf6f482106f3d4bd9a94b3dafd082f4661b196ffd82d0a6344def990b742650c2bfbdcb5926740290e35127b5ca98ee7c010375e798cabc2e57f583116e3c4ad8a5a7d1433c6e188afa186efc83d1a735484a3caed183f5671ebcca5827750391ecee980a752751c3b6a4d2403f6d1b89f4f680126d3f49dba20076e49bc9bf2d505224b6c99bed7f0fed9b09762452c0bdbfc95b24760092eb493fadd280f664191b6dff80d2a43645f781136c3e48daa7a5d3413e6c1a88f15325b7c89aec7e030177e59ac8be2c5cbec85a25770193eeec9a08772553c1b81a6cfe81d3a5374a483eacd381f7651,
  0x00285078a088f0d85d750d25fdd5ad85ba92eac21a324a62e7cfb79f476f173f69413911c9e199b1341c644c94bcc4ecd3fb83ab735b230b8ea6def62e067e56d2fa82aa725a220a8fa7dff72f077f5768403810c8e098b0351d654d95bdc5edbb93ebc31b334b63e6ceb69e466e163e01295179a189f1d95c740c24fcd4ac84b991e9c119314961e4ccb49c446c143c032b537ba38bf3db5e760e26fed6ae86d0f880a8705820088da5ddf52d057d556a423a12cae29ab2371f674f97bfc7ef6b433b13cbe39bb3361e664e96bec6eed1f981a9715921098ca4dcf42c047c54022a527aa28af2da5f770f27ffd7af87b890e8c018304860e5cdb59d456d153d,
  0x0029527ba48df6df557c072ef1d8a38aaa83f8d10e275c75ffd6ad845b72092049601b32edc4bf961c354e67b891eac3e3cab198476e153cb69fe4cd123b406992bbc0e9361f644dc7ee95bc634a311838116a439cb5cee76d443f16c9e09bb2dbf289a07f562d048ea7dcf52a0378517158230ad5fc87ae240d765f80a9d2fb39106b429db4cfe66c453e17c8e19ab393bac1e8371e654cc6ef94bd624b30197059220bd4fd86af250c775e81a8d3fadaf388a17e572c058fa6ddf42b027950ab82f9d00f265d74fed7ac855a7308210128537aa58cf7de547d062ff0d9a28be2cbb099466f143db79ee5cc133a416848611a33ecc5be971d344f66b990ebc2,
  0x002a547ea882fcd64d671933e5cfb19b9ab0cee43218664cd7fd83a97f552b0129037d5781abd5ff644e301acce698b2b399e7cd1b314f65fed4aa80567c02285278062cfad0ae841f354b61b79de3c9c8e29cb6604a341e85afd1fb2d0779537b512f05d3f987ad361c62489eb4cae0e1cbb59f49631d37ac86f8d2042e507aa48ef0da0c265872e9c3bd97416b153f3e146a4096bcc2e87359270ddbf18fa58da7d9f3250f715bc0ea94be68423c16173d4369bf95ebc15a700e24f2d8a68cf6dca2885e740a20bb91efc51339476d6c463812c4ee90ba210b755f89a3ddf7dff58ba1775d230992b8c6ec3a106e44456f113bedc7b99308225c76a08af4de,
  0x002b567dac87fad1456e1338e9c2bf948aa1dcf7260d705bcfe499b26348351e09225f74a58ef3d84c671a31e0cbb69d83a8d5fe2f047952c6ed90bb6a413c171239446fbe95e8c3577c012afbd0ad8698b3cee5341f6249ddf68ba0715a270c1b304d66b79ce1ca5e750823f2d9a48f91bac7ec3d166b40d4ff82a978532e05240f725988a3def5614a371ccde69bb0ae85f8d30229547febc0bd96476c113a2d067b5081aad7fc68433e15c4ef92b9a78cf1da0b205d76e2c9b49f4e651833361d604b9ab1cce77358250edff489a2bc97eac1103b466df9d2af84557e03283f14694293b8c5ee7a512c07d6fd80abb59ee3c819324f64f0dba68d5c770a21,
  0x002c5874b09ce8c47d512509cde195b9fad6a28e4a66123e87abdff3371b6f43e9c5b19d5975012d94b8cce024087c50133f4b67a38ffbd76e42361adef286aacfe397bb7f53270bb29eeac6022e5a7635196d4185a9ddf14864103cf8d4a08c260a7e5296bacee25b77032febc7b39fdcf084a86c403418a18df9d5113d496583afdbf7331f6b47fed2a68a4e62163a7955210dc9e591bd04285c70b498ecc06a46321edaf682ae173b4f63a78bffd390bcc8e4200c7854edc1b5995d7105294c601438fcd0a488311d694581add9f5b69aeec2062a5e72cbe793bf7b57230fa589fdd115394d61d8f480ac6844301c5f73072befc3b79b220e7a5692becae6,
  0x002d5a77b499eec375582f02c1ec9bb6eac7b09d5e7304299fb2c5e82b06715cc9e493be7d50270abc91e6cb0825527f230e795497bacde0567b0c21e2cfb8958fa2d5f83b16614cfad7a08d4e63143965483f12d1fc8ba6103d4a67a489fed3466b1c31f2dfa885331e694487aaddf0ac81f6db1835426fd9f483ae6d40371a032e5974b79aedc0765b2c01c2ef98b5e9c4b39e5d70072a9cb1c6eb2805725fcae790bd7e532409bf92e5c80b26517c200d7a5794b9cee355780f22e1ccbb968ca1d6fb3815624ff9d4a38e4d60173a664b3c11d2ff88a5133e4964a78afdd045681f32f1dcab86301d6a4784a9def3af82f5d81b36416cdaf780ad6e433419,
  0x002e5c72b896e4ca6d43311fd5fb89a7daf486a8624c3e10b799ebc50f21537da987f5db113f4d63c4ea98b67c52200e735d2f01cbe597b91e30426ca688fad44f61133df7d9ab85220c7e509ab4c6e895bbc9e72d03715ff8d6a48a406e1c32e6c8ba945e70022c8ba5d7f9331d6f413c12604e84aad8f6517f0d23e9c7b59b9eb0c2ec26087a54f3ddaf814b651739446a1836fcd2a08e2907755b91bfcde337196b458fa1d3fd5a740628e2ccbe90edc3b19f557b092780aedcf23816644ad1ff8da36947351bbc92e0ce042a58760b255779b39defc166483a14def082ac7856240ac0ee9cb2153b4967ad83f1dfa28cfed01a344668cfe193bd77592b05,
  0x002f5e71bc93e2cd654a3b14d9f687a8cae594bb76592807af80f1de133c4d6289a6d7f8351a6b44ecc3b29d507f0e21436c1d32ffd0a18e260978579ab5c4eb0f20517eb39cedc26a45341bd6f988a7c5ea9bb479562708a08ffed11c33426d86a9d8f73a15644be3ccbd925f70012e4c63123df0dfae812906775895bacbe41e31406fa28dfcd37b54250ac7e899b6d4fb8aa568473619b19eefc00d22537c97b8c9e62b04755af2ddac834e61103f5d72032ce1cebf903817664984abdaf5113e4f60ad82f3dc745b2a05c8e796b9dbf485aa67483916be91e0cf022d5c7398b7c6e9240b7a55fdd2a38c416e1f30527d0c23eec1b09f371869468ba4d5fa,
  0x00306050c0f0a0909dadfdcd5d6d3d0d27174777e7d787b7ba8adaea7a4a1a2a4e7e2e1e8ebeeeded3e3b3831323734369590939a999c9f9f4c494a4340454649cacfccc5c6c3c0c01316151c1f1a191bb8bdbeb7b4b1b2b26164676e6d686b6d2e2b282122272424f7f2f1f8fbfefdff5c595a53505556568580838a898c8f825154575e5d585b5b888d8e87848182802326252c2f2a2929fafffcf5f6f3f0f6b5b0b3bab9bcbfbf6c696a6360656664c7c2c1c8cbcecdcd1e1b18111217141b989d9e97949192924144474e4d484b49eaefece5e6e3e0e03336353c3f3a393f7c797a7370757676a5a0a3aaa9acafad0e0b080102070404d7d2d1d8dbdeddd,
  0x00316253c4f5a69795a4f7c65160330237065564f3c291a0a293c0f1665704356e5f0c3daa9bc8f9fbca99a83f0e5d6c59683b0a9dacffceccfdae9f08396a5bdcedbe8f18297a4b49782b1a8dbcefdeebda89b82f1e4d7c7e4f1c2dba8bd8e9b283d0e17647142527164574e3d281b085b4e7d64170231210217243d4e5b687a594c7f66150033230015263f4c596a792a3f0c15667340507366554c3f2a190cbfaa9980f3e6d5c5e6f3c0d9aabf8c9fccd9eaf38095a6b69580b3aad9ccffe79481b2abd8cdfeeecdd8ebf28194a7b4e7f2c1d8abbe8d9dbeab9881f2e7d4c17267544d3e2b18082b3e0d14677241520114273e4d586b7b584d7e671401322,
  0x00326456c8faac9e8dbfe9db4577211307356351cffdab998ab8eedc427026140e3c6a58c6f4a29083b1e7d54b792f1d093b6d5fc1f3a59784b6e0d24c7e281a1c2e784ad4e6b08291a3f5c7596b3d0f1b297f4dd3e1b78596a4f2c05e6c3a0812207644dae8be8c9fadfbc95765330115277143ddefb98b98aafcce50623406380a5c6ef0c294a6b587d1e37d4f192b3f0d5b69f7c593a1b280d6e47a481e2c36045260fecc9aa8bb89dfed7341172531035567f9cb9dafbc8ed8ea7446102224164072ecde88baa99bcdff6153053723114775ebd98fbdae9ccaf8665402302a184e7ce2d086b4a795c3f16f5d0b392d1f497be5d781b3a092c4f6685a0c3e,
  0x00336655ccffaa9985b6e3d0497a2f1c17247142dbe8bd8e92a1f4c75e6d380b2e1d487be2d184b7ab98cdfe67540132390a5f6cf5c693a0bc8fdae9704316255c6f3a0990a3f6c5d9eabf8c152673404b782d1e87b4e1d2cefda89b0231645772411427be8dd8ebf7c491a23b085d6e65560330a99acffce0d386b52c1f4a79b88bdeed744712213d0e5b68f1c297a4af9cc9fa635005362a194c7fe6d580b396a5f0c35a693c0f13207546dfecb98a81b2e7d44d7e2b1804376251c8fbae9de4d782b1281b4e7d61520734ad9ecbf8f3c095a63f0c596a76451023ba89dcefcaf9ac9f063560534f7c291a83b0e5d6ddeebb8811227744586b3e0d94a7f2c1,
  0x0034685cd0e4b88cbd89d5e16d59053167530f3bb783dfebdaeeb2860a3e6256cefaa6921e2a764273471b2fa397cbffa99dc1f5794d112514207c48c4f0ac9881b5e9dd5165390d3c085460ecd884b0e6d28eba36025e6a5b6f33078bbfe3d74f7b27139fabf7c3f2c69aae22164a7e281c4074f8cc90a495a1fdc945712d191f2b7743cffba793a296cafe72461a2e784c1024a89cc0f4c5f1ad9915217d49d1e5b98d0135695d6c580430bc88d4e0b682deea66520e3a0b3f6357dbefb3879eaaf6c24e7a261223174b7ff3c79baff9cd91a5291d417544702c1894a0fcc85064380c80b4e8dcedd985b13d09556137035f6be7d38fbb8abee2d65a6e3206,
  0x00356a5fd4e1be8bb580dfea61540b3e77421d28a396c9fcc2f7a89d16237c49eedb84b13a0f50655b6e31048fbae5d099acf3c64d7827122c194673f8cd92a7c1f4ab9e15207f4a74411e2ba095caffb683dce96257083d0336695cd7e2bd882f1a4570fbce91a49aaff0c54e7b2411586d32078cb9e6d3edd887b2390c53669faaf5c04b7e21142a1f4075fecb94a1e8dd82b73c0956635d68370289bce3d671441b2ea590cffac4f1ae9b10257a4f06336c59d2e7b88db386d9ec67520d385e6b34018abfe0d5ebde81b43f0a5560291c4376fdc897a29ca9f6c3487d2217b085daef64510e3b05306f5ad1e4bb8ec7f2ad981326794c7247182da693ccf9,
  0x00366c5ad8eeb482ad9bc1f77543192f47712b1d9fa9f3c5eadc86b032045e688eb8e2d456603a0c23154f79fbcd97a1c9ffa59311277d4b6452083ebc8ad0e601376d5bd9efb583ac9ac0f67442182e46702a1c9ea8f2c4ebdd87b133055f698fb9e3d557613b0d22144e78facc96a0c8fea49210267c4a6553093fbd8bd1e702346e58daecb680af99c3f577411b2d4573291f9dabf1c7e8de84b230065c6a8cbae0d65462380e21174d7bf9cf95a3cbfda79113257f4966500a3cbe88d2e403356f59dbedb781ae98c2f476401a2c4472281e9caaf0c6e9df85b331075d6b8dbbe1d75563390f20164c7af8ce94a2cafca69012247e4867510b3dbf89d3e5,
  0x00376e59dcebb285a592cbfc794e17205760390e8bbce5d2f2c59cab2e194077ae99c0f772451c2b0b3c6552d7e0b98ef9ce97a025124b7c5c6b320580b7eed941762f189daaf3c4e4d38abd380f56611621784fcafda493b384ddea6f580136efd881b633045d6a4a7d241396a1f8cfb88fd6e164530a3d1d2a7344c1f6af9882b5ecdb5e6930072710497efbcc95a2d5e2bb8c093e675070471e29ac9bc2f52c1b4275f0c79ea989bee7d055623b0c7b4c1522a790c9fedee9b08702356c5bc3f4ad9a1f2871466651083fba8dd4e394a3facd487f261131065f68edda83b46d5a0334b186dfe8c8ffa69114237a4d3a0d5463e6d188bf9fa8f1c643742d1a,
  0x00387048e0d890a8dde5ad953d054d75a79fd7ef477f370f7a420a329aa2ead2536b231bb38bc3fb8eb6fec66e561e26f4cc84bc142c645c29115961c9f1b981a69ed6ee467e360e7b430b339ba3ebd301397149e1d991a9dce4ac943c044c74f5cd85bd152d655d28105860c8f0b880526a221ab28ac2fa8fb7ffc76f571f2751692119b189c1f98cb4fcc46c541c24f6ce86be162e665e2b135b63cbf3bb83023a724ae2da92aadfe7af973f074f77a59dd5ed457d350d7840083098a0e8d0f7cf87bf172f675f2a125a62caf2ba8250682018b088c0f88db5fdc56d551d25a49cd4ec447c340c7941093199a1e9d1033b734be3db93abdee6ae963e064e76,
  0x0039724be4dd96afd5eca79e3108437ab78ec5fc536a2118625b102986bff4cd734a013897aee5dca69fd4ed427b3009c4fdb68f2019526b1128635af5cc87bee6df94ad023b7049330a4178d7eea59c5168231ab58cc7fe84bdf6cf6059122b95ace7de7148033a4079320ba49dd6ef221b5069c6ffb48df7ce85bc132a6158d1e8a39a350c477e043d764fe0d992ab665f142d82bbf0c9b38ac1f8576e251ca29bd0e9467f340d774e053c93aae1d8152c675ef1c883bac0f9b28b241d566f370e457cd3eaa198e2db90a9063f744d80b9f2cb645d162f556c271eb188c3fa447d360fa099d2eb91a8e3da754c073ef3ca81b8172e655c261f546dc2fbb089,
  0x003a744ee8d29ca6cdf7b983251f516b87bdf3c96f551b214a703e04a298d6ec1329675dfbc18fb5dee4aa90360c427894aee0da7c46083259632d17b18bc5ff261c5268cef4ba80ebd19fa50339774da19bd5ef49733d076c56182284bef0ca350f417bdde7a993f8c28cb6102a645eb288c6fc5a602e147f450b3197ade3d94c763802a49ed0ea81bbf5cf69531d27cbf1bf852319576d063c7248eed49aa05f652b11b78dc3f992a8e6dc7a400e34d8e2ac96300a447e152f615bfdc789b36a501e2482b8f6cca79dd3e94f753b01edd799a3053f714b201a546ec8f2bc8679430d3791abe5dfb48ec0fa5c662812fec48ab0162c62583309477ddbe1af95,
  0x003b764decd79aa1c5feb38829125f6497ace1da7b400d365269241fbe85c8f33308457edfe4a992f6cd80bb1a216c57a49fd2e948733e05615a172c8db6fbc0665d102b8ab1fcc7a398d5ee4f743902f1ca87bc1d266b50340f4279d8e3ae95556e2318b982cff490abe6dd7c470a31c2f9b48f2e155863073c714aebd09da6ccf7ba81201b566d09327f44e5de93a85b602d16b78cc1fa9ea5e8d37249043fffc489b21328655e3a014c77d6eda09b68531e2584bff2c9ad96dbe0417a370caa91dce7467d300b6f54192283b8f5ce3d064b70d1eaa79cf8c38eb5142f625999a2efd4754e03385c672a11b08bc6fd0e357843e2d994afcbf0bd86271c516a,
  0x003c7844f0cc88b4fdc185b90d317549e7db9fa3172b6f531a26625eead692aed3efab97231f5b672e12566adee2a69a34084c70c4f8bc80c9f5b18d3905417dbb87c3ff4b77330f467a3e02b68acef25c602418ac90d4e8a19dd9e5516d29156854102c98a4e0dc95a9edd165591d218fb3f7cb7f43073b724e0a3682befac66b57132f9ba7e3df96aaeed2665a1e228cb0f4c87c400438714d093581bdf9c5b884c0fc4874300c45793d01b589cdf15f63271baf93d7eba29edae6526e2a16d0eca894201c58642d115569dde1a599370b4f73c7fbbf83caf6b28e3a06427e033f7b47f3cf8bb7fec286ba0e32764ae4d89ca014286c501925615de9d591ad,
  0x003d7a47f4c98eb3f5c88fb2013c7b46f7ca8db0033e7944023f7845f6cb8cb1f3ce89b4073a7d40063b7c41f2cf88b504397e43f0cd8ab7f1cc8bb605387f42fbc681bc0f3275480e337449fac780bd0c31764bf8c582bff9c483be0d30774a0835724ffcc186bbfdc087ba0934734effc285b80b36714c0a37704dfec384b9ebd691ac1f2265581e236459ead790ad1c21665be8d592afe9d493ae1d20675a1825625fecd196abedd097aa1924635eefd295a81b26615c1a27605deed394a9102d6a57e4d99ea3e5d89fa2112c6b56e7da9da0132e6954122f6855e6db9ca1e3de99a4172a6d50162b6c51e2df98a514296e53e0dd9aa7e1dc9ba615286f52,
  0x003e7c42f8c684baedd391af152b6957c7f9bb853f01437d2a145668d2ecae9093adefd16b5517297e40023c86b8fac4546a2816ac92d0eeb987c5fb417f3d033b054779c3fdbf81d6e8aa942e10526cfcc280be043a7846112f6d53e9d795aba896d4ea506e2c12457b3907bd83c1ff6f51132d97a9ebd582bcfec07a44063876480a348eb0f2cc9ba5e7d9635d1f21b18fcdf34977350b5c62201ea49ad8e6e5db99a71d23615f0836744af0ce8cb2221c5e60dae4a698cff1b38d37094b754d73310fb58bc9f7a09edce25866241a8ab4f6c8724c0e3067591b259fa1e3dddee0a29c26185a64330d4f71cbf5b7891927655be1df9da3f4ca88b60c32704e,
  0x003f7e41fcc382bde5da9ba419266758d7e8a9962b14556a320d4c73cef1b08fb38ccdf24f70310e56692817aa95d4eb645b1a2598a7e6d981beffc07d42033c7b44053a87b8f9c69ea1e0df625d1c23ac93d2ed506f2e1149763708b58acbf4c8f7b689340b4a752d12536cd1eeaf901f20615ee3dc9da2fac584bb06397847f6c988b70a35744b132c6d52efd091ae211e5f60dde2a39cc4fbba8538074679457a3b04b986c7f8a09fdee15c63221d92adecd36e51102f774809368bb4f5ca8db2f3cc714e0f306857162994abead55a65241ba699d8e7bf80c1fe437c3d023e01407fc2fdbc83dbe4a59a27185966e9d697a8152a6b540c33724df0cf8eb1,
  0x004080c01d5d9ddd3a7abafa2767a7e77434f4b46929e9a94e0ece8e5313d393e8a86828f5b57535d2925212cf8f4f0f9cdc1c5c81c10141a6e62666bbfb3b7bcd8d4d0dd0905010f7b77737eaaa6a2ab9f93979a4e4246483c303439ede1e5e2565a5e53878b8f81f5f9fdf024282c25111d1914c0ccc8c6b2bebab7636f6b687c707479ada1a5abdfd3d7da0e02060f3b37333eeae6e2ec9894909d49454146f2fefaf7232f2b25515d5954808c8881b5b9bdb064686c62161a1e13c7cbcfc4a0aca8a5717d7977030f0b06d2dedad3e7ebefe2363a3e3044484c4195999d9a2e22262bfff3f7f98d8185885c50545d6965616cb8b4b0becac6c2cf1b17131,
  0x004182c319589bda3273b0f12b6aa9e86425e6a77d3cffbe5617d4954f0ecd8cc8894a0bd1905312fabb7839e3a26120aced2e6fb5f437769edf1c5d87c605448dcc0f4e94d51657bffe3d7ca6e72465e9a86b2af0b17233db9a5918c28340014504c7865c1dde9f7736f5b46e2fecad2160a3e23879bafb135291d00a4b88c9074685c41e5f9cdd3574b7f62c6daeef6322e1a07a3bf8b95110d3924809ca8bcf8e4d0cd6975415fdbc7f3ee4a56627abea2968b2f3307199d81b5a80c102438acb084993d21150b8f93a7ba1e02362eeaf6c2df7b67534dc9d5e1fc58447064203c0815b1ad9987031f2b36928ebaa2667a4e53f7ebdfc145596d70d4c8fce,
  0x004284c6155791d32a68aeec3f7dbbf95416d0924103c5877e3cfab86b29efada8ea2c6ebdff397b82c0064497d51351fcbe783ae9ab6d2fd6945210c38147054d0fc98b581adc9e6725e3a17230f6b4195b9ddf0c4e88ca3371b7f52664a2e0e5a76123f0b27436cf8d4b09da985e1cb1f33577a4e620629bd91f5d8ecc0a489ad81e5c8fcd0b49b0f23476a5e72163ce8c4a08db995f1de4a66022f1b375373270b6f42765a3e1185a9cde0d4f89cb6624e2a07331f7b54c0ec88a591bdd9fd7955311c2804604fdbf793be8aa6c2e83c1074596d41250a9eb2d6fbcfe387a7f3dfbb96a28eeac5517d1934002c4862b69afed3e7cbaf8014385c7145690d2,
  0x004386c5115297d42261a4e73370b5f64407c2815516d3906625e0a37734f1b288cb0e4d99da1f5caae92c6fbbf83d7ecc8f4a09dd9e5b18eead682bffbc793a0d4e8bc81c5f9ad92f6ca9ea3e7db8fb490acf8c581bde9d6b28edae7a39fcbf85c6034094d71251a7e42162b6f53073c1824704d0935615e3a06526f2b174371a599cdf0b488dce387bbefd296aafec5e1dd89b4f0cc98a7c3ffab96d2eeba892d1145783c00546b0f33675a1e22764d6955013c7844102f4b77231e5a66320175491d2064580c33576b3f02467a2e15310d5964201c4877132f7b46023e6a59fdc195a8ecd084bbdfe3b78acef2a69db985d1eca894c0ff9ba7f3ce8ab6e2d,
  0x004488cc0d4985c11a5e92d617539fdb3470bcf8397db1f52e6aa6e22367abef682ce0a46521eda97236fabe7f3bf7b35c18d4905115d99d4602ce8a4b0fc387d094581cdd995511ca8e4206c7834f0be4a06c28e9ad6125feba7632f3b77b3fb8fc3074b5f13d79a2e62a6eafeb27638cc8044081c5094d96d21e5a9bdf1357bdf93571b0f4387ca7e32f6baaee226689cd014584c00c4893d71b5f9eda1652d5915d19d89c5014cf8b4703c2864a0ee1a5692deca86420fbbf7337f6b27e3a6d29e5a16024e8ac7733ffbb7a3ef2b6591dd1955410dc984307cb8f4e0ac68205418dc9084c80c41f5b97d312569ade3175b9fd3c78b4f02b6fa3e72662aeea,
  0x00458acf094c83c6125798dd1b5e91d42461aeeb2d68a7e23673bcf93f7ab5f0480dc2874104cb8e5a1fd0955316d99c6c29e6a36520efaa7e3bf4b17732fdb890d51a5f99dc135682c7084d8bce0144b4f13e7bbdf83772a6e32c69afea2560d89d5217d1945b1eca8f4005c386490cfcb97633f5b07f3aeeab6421e7a26d283d78b7f23471befb2f6aa5e02663ace9195c93d610559adf0b4e81c4024788cd7530ffba7c39f6b36722eda86e2be4a15114db9e581dd2974306c98c4a0fc085ade82762a4e12e6bbffa3570b6f33c7989cc034680c50a4f9bde115492d7185de5a06f2aeca96623f7b27d38febb7431c1844b0ec88d4207d396591cda9f5015,
  0x00468cca054389cf0a4c86c00f4983c5145298de11579ddb1e5892d41b5d97d1286ea4e22d6ba1e72264aee82761abed3c7ab0f6397fb5f33670bafc3375bff95016dc9a5513d99f5a1cd6905f19d3954402c88e4107cd8b4e08c2844b0dc781783ef4b27d3bf1b77234feb87731fbbd6c2ae0a6692fe5a36620eaac6325efa9a0e62c6aa5e3296faaec2660afe92365b4f2387eb1f73d7bbef83274bbfd377188ce04428dcb014782c40e4887c10b4d9cda105699df155396d01a5c93d51f59f0b67c3af5b3793ffabc7630ffb97335e4a2682ee1a76d2beea86224ebad6721d89e5412dd9b5117d2945e18d7915b1dcc8a4006c98f4503c6804a0cc3854f09,
  0x00478ec901468fc802458ccb03448dca04438acd05428bcc064188cf074089ce084f86c1094e87c00a4d84c30b4c85c20c4b82c50d4a83c40e4980c70f4881c610579ed911569fd812559cdb13549dda14539add15529bdc165198df175099de185f96d1195e97d01a5d94d31b5c95d21c5b92d51d5a93d41e5990d71f5891d62067aee92166afe82265aceb2364adea2463aaed2562abec2661a8ef2760a9ee286fa6e1296ea7e02a6da4e32b6ca5e22c6ba2e52d6aa3e42e69a0e72f68a1e63077bef93176bff83275bcfb3374bdfa3473bafd3572bbfc3671b8ff3770b9fe387fb6f1397eb7f03a7db4f33b7cb5f23c7bb2f53d7ab3f43e79b0f73f78b1f6,
  0x004890d83d75ade57a32eaa2470fd79ff4bc642cc98159118ec61e56b3fb236bf5bd652dc88058108fc71f57b2fa226a014991d93c74ace47b33eba3460ed69ef7bf672fca825a128dc51d55b0f82068034b93db3e76aee67931e9a1440cd49c024a92da3f77afe77830e8a0450dd59df6be662ecb835b138cc41c54b1f92169f3bb632bce865e1689c11951b4fc246c074f97df3a72aae27d35eda54008d098064e96de3b73abe37c34eca44109d199f2ba622acf875f1788c01850b5fd256d044c94dc3971a9e17e36eea6430bd39bf0b86028cd855d158ac21a52b7ff276ff1b96129cc845c148bc31b53b6fe266e054d95dd3870a8e07f37efa7420ad29a,
  0x004992db3970abe2723be0a94b02d990e4ad763fdd944f0696df044dafe63d74d59c470eeca57e37a7ee357c9ed70c453178a3ea08419ad3430ad1987a33e8a1b7fe256c8ec71c55c58c571efcb56e27531ac1886a23f8b12168b3fa18518ac3622bf0b95b12c980105982cb2960bbf286cf145dbff62d64f4bd662fcd845f16733ae1a84a03d891014893da3871aae397de054caee73c75e5ac773edc954e07a6ef347d9fd60d44d49d460feda47f36420bd0997b32e9a03079a2eb09409bd2c48d561ffdb46f26b6ff246d8fc61d542069b2fb19508bc2521bc0896b22f9b0115883ca2861baf3632af1b85a13c881f5bc672ecc855e1787ce155cbef72c65,
  0x004a94de357fa1eb6a20feb45f15cb81d49e400ae1ab753fbef42a608bc11f55b5ff216b80ca145edf954b01eaa07e34612bf5bf541ec08a0b419fd53e74aae0773de3a94208d69c1d5789c32862bcf6a3e9377d96dc0248c9835d17fcb66822c288561cf7bd6329a8e23c769dd70943165c82c82369b7fd7c36e8a24903dd97eea47a30db914f0584ce105ab1fb256f3a70aee40f459bd1501ac48e652ff1bb5b11cf856e24fab0317ba5ef044e90da8fc51b51baf02e64e5af713bd09a440e99d30d47ace63872f3b9672dc68c52184d07d9937832eca6276db3f9125886cc2c66b8f219538dc7460cd2987339e7adf8b26c26cd87591392d8064ca7ed3379,
  0x004b96dd317aa7ec6229f4bf5318c58ec48f5219f5be6328a6ed307b97dc014a95de0348a4ef3279f7bc612ac68d501b511ac78c602bf6bd3378a5ee024994df377ca1ea064d90db551ec388642ff2b9f3b8652ec289541f91da074ca0eb367da2e9347f93d8054ec08b561df1ba672c662df0bb571cc18a044f92d9357ea3e86e25f8b35f14c9820c479ad13d76abe0aae13c779bd00d46c8835e15f9b26f24fbb06d26ca815c1799d20f44a8e33e753f74a9e20e4598d35d16cb806c27fab15912cf846823feb53b70ade60a419cd79dd60b40ace73a71ffb46922ce855813cc875a11fdb66b20aee538739fd4094208439ed53972afe46a21fcb75b10cd86,
  0x004c98d42d61b5f95a16c28e773befa3b4f82c6099d5014deea2763ac38f5b177539eda15814c08c2f63b7fb024e9ad6c18d5915eca074389bd7034fb6fa2e62eaa6723ec78b5f13b0fc28649dd105495e12c68a733feba704489cd02965b1fd9fd3074bb2fe2a66c5895d11e8a4703c2b67b3ff064a9ed2713de9a55c10c488c985511de4a87c3093df0b47bef2266a7d31e5a9501cc884276bbff30a4692debcf0246891dd0945e6aa7e32cb87531f084490dc2569bdf1521eca867f33e7ab236fbbf70e4296da7935e1ad5418cc8097db0f43baf6226ecd815519e0ac7834561ace827b37e3af0c4094d8216db9f5e2ae7a36cf83571bb8f4206c95d90d41,
  0x004d9ad72964b3fe521fc8857b36e1aca4e93e738dc0175af6bb6c21df9245085518cf827c31e6ab074a9dd02e63b4f9f1bc6b26d895420fa3ee39748ac7105daae7307d83ce1954f8b5622fd19c4b060e4394d9276abdf05c11c68b7538efa2ffb26528d69b4c01ade0377a84c91e535b16c18c723fe8a5094493de206dbaf74904d39e602dfab71b5681cc327fa8e5eda0773ac4895e13bff2256896db0c411c5186cb3578afe24e03d499672afdb0b8f5226f91dc0b46eaa7703dc38e5914e3ae7934ca87501db1fc2b6698d5024f470add906e23f4b915588fc23c71a6ebb6fb2c619fd20548e4a97e33cd80571a125f88c53b76a1ec400dda976924f3be,
  0x004e9cd2256bb9f74a04d6986f21f3bd94da0846b1ff2d63de90420cfbb56729357ba9e7105e8cc27f31e3ad5a14c688a1ef3d7384ca1856eba57739ce80521c6a24f6b84f01d39d206ebcf2054b99d7feb0622cdb954709b4fa286691df0d435f11c38d7a34e6a8155b89c7307eace2cb855719eea0723c81cf1d53a4ea3876d49a4806f1bf6d239ed0024cbbf52769400edc92652bf9b70a4496d82f61b3fde1af7d33c48a5816abe537798ec0125c753be9a7501ecc823f71a3ed1a5486c8bef0226c9bd50749f4ba6826d19f4d032a64b6f80f4193dd602efcb2450bd9978bc51759aee0327cc18f5d13e4aa78361f5183cd3a74a6e8551bc987703eeca2,
  0x004f9ed1216ebff0420ddc93632cfdb284cb1a55a5ea3b74c6895817e7a87936155a8bc4347baae55718c9867639e8a791de0f40b0ff2e61d39c4d02f2bd6c232a65b4fb0b4495da6827f6b94906d798aee1307f8fc0115eeca3723dcd82531c3f70a1ee1e5180cf7d32e3ac5c13c28dbbf4256a9ad5044bf9b66728d8974609541bca85753aeba4165988c73778a9e6d09f4e01f1be6f2092dd0c43b3fc2d62410edf90602ffeb1034c9dd2226dbcf3c58a5b14e4ab7a3587c81956a6e938777e31e0af5f10c18e3c73a2ed1d5283ccfab5642bdb94450ab8f7266999d607486b24f5ba4a05d49b2966b7f8084796d9efa0713ece81501fade2337c8cc3125d,
  0x0050a0f05d0dfdadbaea1a4ae7b747176939c999346494c4d38373238ede2e7ed28272228fdf2f7f6838c898356595c5bbeb1b4be6b646160151a1f15c0cfcacb9e91949e4b444140353a3f35e0efeaed08070208ddd2d7d6a3aca9a376797c76b3bcb9b366696c6d18171218cdc2c7c0252a2f25f0fffafb8e81848e5b545156f3fcf9f326292c2d585752588d828780656a6f65b0bfbabbcec1c4ce1b14111bded1d4de0b040100757a7f75a0afaaad484742489d929796e3ece9e336393c3d68676268bdb2b7b6c3ccc9c316191c1bfef1f4fe2b242120555a5f55808f8a80454a4f45909f9a9beee1e4ee3b343136d3dcd9d306090c0d78777278ada2a7a,
  0x0051a2f35908fbaab2e31041ebba49187928db8a207182d3cb9a693892c33061f2a35001abfa09584011e2b31948bbea8bda2978d283702139689bca6031c293f9a85b0aa0f102534b1ae9b81243b0e180d12273d9887b2a326390c16b3ac9980b5aa9f85203f0a1b9e81b4ae0b142137223d0812b7a89d8c091623399c83b6aefbe4d1cb6e714455d0cffae0455a6f796c73465cf9e6d3c247586d77d2cdf8e1d4cbfee4415e6b7affe0d5cf6a754056435c6973d6c9fced68774258fde2d7c1647b4e54f1eedbca4f50657fdac5f0e6f3ecd9c366794c5dd8c7f2e84d52677e4b54617bdec1f4e5607f4a50f5eadfc9dcc3f6ec49566372f7e8ddc7627d485,
  0x0052a4f65507f1a3aaf80e5cffad5b09491bedbf1c4eb8eae3b14715b6e4124092c03664c7956331386a9cce6d3fc99bdb897f2d8edc2a787123d587247680d2396b9dcf6c3ec89a93c13765c69462307022d486257781d3da887e2c8fdd2b79abf90f5dfeac5a080153a5f75406f0a2e2b04614b7e51341481aecbe1d4fb9eb7220d684277583d1d88a7c2e8ddf297b3b699fcd6e3cca9891c33567c4966032e0b24416b5e711434a18eebc1f4dbbe9a9fb0d5ffcae580a0351a7f55604f2a04b19efbd1e4cbae8e1b34517b4e610420250a6f45705f3a1a8fa0c5efdaf590bd98b7d2f8cde287a7321d785267482d090c23466c59761333a689ecc6f3dcb99,
  0x0053a6f55102f7a4a2f10457f3a05506590affac085baefdfba85d0eaaf90c5fb2e11447e3b045161043b6e54112e7b4ebb84d1ebae91c4f491aefbc184bbeed792adf8c287b8edddb887d2e8ad92c7f207386d57122d78482d12477d3807526cb986d3e9ac93c6f693acf9c386b9ecd92c13467c3906536306396c56132c794f2a15407a3f005565003f6a50152a7f4abf80d5efaa95c0f095aaffc580bfead4013e6b51142b7e4e2b14417b3e01546194abfec481beebdbbe81d4eeab94c1f8bd82d7eda897c2f297a8fdc782bde8dd281742783d025767023d685217287d4396a9fcc683bce9d9bc83d6eca996c3f6033c695316297c4c291643793c03566,
  0x0054a8fc4d19e5b19ace3266d7837f2b297d81d56430cc98b3e71b4ffeaa56025206faae1f4bb7e3c89c603485d12d797b2fd38736629ecae1b5491dacf80450a4f00c58e9bd41153e6a96c27327db8f8dd92571c094683c1743bfeb5a0ef2a6f6a25e0abbef13476c38c490217589dddf8b772392c63a6e4511edb9085ca0f45501fda9184cb0e4cf9b673382d62a7e7c28d480316599cde6b24e1aabff03570753affb4a1ee2b69dc93561d084782c2e7a86d26337cb9fb4e01c48f9ad5105f1a5590dbce814406b3fc39726728edad88c702495c13d694216eabe0f5ba7f3a3f70b5feeba4612396d91c57420dc888ade2276c7936f3b1044b8ec5d09f5a1,
  0x0055aaff491ce3b692c7386ddb8e7124396c93c67025da8fabfe0154e2b7481d7227d88d3b6e91c4e0b54a1fa9fc03564b1ee1b40257a8fdd98c732690c53a6fe4b14e1badf807527623dc893f6a95c0dd88772294c13e6b4f1ae5b00653acf996c33c69df8a75200451aefb4d18e7b2affa0550e6b34c193d6897c27421de8bd5807f2a9cc936634712edb80e5ba4f1ecb94613a5f00f5a7e2bd48137629dc8a7f20d58eebb441135609fca7c29d6839ecb3461d7827d280c59a6f34510efba31649bce782dd287a3f6095ceabf4015085da2f74114ebbe9acf3065d386792c4316e9bc0a5fa0f5d1847b2e98cd32677a2fd085336699cce8bd4217a1f40b5e,
  0x0056acfa4513e9bf8adc2670cf996335095fa5f34c1ae0b683d52f79c6906a3c1244bee85701fbad98ce3462dd8b71271b4db7e15e08f2a491c73d6bd482782e247288de6137cd9baef80254ebbd47112d7b81d7683ec492a7f10b5de2b44e1836609acc7325df89bcea1046f9af55033f6993c57a2cd680b5e3194ff0a65c0a481ee4b20d5ba1f7c2946e3887d12b7d4117edbb0452a8fecb9d67318ed822745a0cf6a01f49b3e5d0867c2a95c3396f5305ffa91640baecd98f75239cca30666c3ac096297f85d3e6b04a1ca3f50f596533c99f20768cdaefb94315aafc06507e28d2843b6d97c1f4a2580eb1e71d4b7721db8d32649ec8fdab5107b8ee1442,
  0x0057aef94116efb882d52c7bc3946d3a194eb7e0580ff6a19bcc3562da8d742332659ccb7324dd8ab0e71e49f1a65f082b7c85d26a3dc493a9fe0750e8bf46116433ca9d25728bdce6b1481fa7f0095e7d2ad3843c6b92c5ffa85106bee910475601f8af1740b9eed4837a2d95c23b6c4f18e1b60e59a0f7cd9a63348cdb2275c89f663189de27704a1de4b30b5ca5f2d1867f2890c73e695304fdaa1245bcebfaad5403bbec1542782fd681396e97c0e3b44d1aa2f50c5b6136cf9820778ed9acfb0255edba43142e7980d76f38c196b5e21b4cf4a35a0d376099ce7621d88f9ec93067df8871261c4bb2e55d0af3a487d0297ec691683f0552abfc4413eabd,
  0x0058b0e87d25cd95faa24a1287df376fe9b1590194cc247c134ba3fb6e36de86cf977f27b2ea025a356d85dd4810f8a0267e96ce5b03ebb3dc846c34a1f9114983db336bfea64e167921c991045cb4ec6a32da82174fa7ff90c82078edb55d054c14fca4316981d9b6ee065ecb937b23a5fd154dd88068305f07efb7227a92ca1b43abf3663ed68ee1b951099cc42c74f2aa421a8fd73f670850b8e0752dc59dd48c643ca9f119412e769ec6530be3bb3d658dd54018f0a8c79f772fbae20a5298c02870e5bd550d623ad28a1f47aff77129c1990c54bce48bd33b63f6ae461e570fe7bf2a729ac2adf51d45d0886038bee60e56c39b732b441cf4ac396189d1,
  0x0059b2eb7920cb92f2ab40198bd23960f9a04b1280d9326b0b52b9e0722bc099efb65d0496cf247d1d44aff6643dd68f164fa4fd6f36dd84e4bd560f9dc42f76c39a7128bae30851316883da4811faa33a6388d1431af1a8c8917a23b1e8035a2c759ec7550ce7bede876c35a7fe154cd58c673eacf51e47277e95cc5e07ecb59bc22970e2bb50096930db821049a2fb623bd0891b42a9f090c9227be9b05b02742dc69f0d54bfe686df346dffa64d148dd43f66f4ad461f7f26cd94065fb4ed5801eab3217893caaaf31841d38a6138a1f8134ad8816a33530ae1b82a7398c1b7ee055cce977c25451cf7ae3c658ed74e17fca5376e85dcbce50e57c59c772e,
  0x005ab4ee752fc19beab05e049fc52b71c9937d27bce60852237997cd560ce2b88fd53b61faa04e14653fd18b104aa4fe461cf2a8336987ddacf61842d9836d370359b7ed762cc298e9b35d079cc62872ca907e24bfe50b51207a94ce550fe1bb8cd63862f9a34d17663cd2881349a7fd451ff1ab306a84deaff51b41da806e34065cb2e87329c79decb6580299c32d77cf957b21bae00e54257f91cb500ae4be89d33d67fca648126339d78d164ca2f8401af4ae356f81dbaaf01e44df856b31055fb1eb702ac49eefb55b019ac02e74cc967822b9e30d57267c92c85309e7bd8ad03e64ffa54b11603ad48e154fa1fb4319f7ad366c82d8a9f31d47dc866832,
  0x005bb6ed712ac79ce2b9540f93c8257ed9826f34a8f31e453b608dd64a11fca7aff41942de8568334d16fba03c678ad1762dc09b075cb1ea94cf2279e5be53084318f5ae326984dfa1fa174cd08b663d9ac12c77ebb05d067823ce950952bfe4ecb75a019dc62b700e55b8e37f24c992356e83d8441ff2a9d78c613aa6fd104b86dd306bf7ac411a643fd289154ea3f85f04e9b22e7598c3bde60b50cc977a2129729fc45803eeb5cb907d26bae10c57f0ab461d81da376c1249a4ff6338d58ec59e7328b4ef0259277c91ca560de0bb1c47aaf16d36db80fea548138fd439626a31dc871b40adf688d33e65f9a24f14b3e8055ec299742f510ae7bc207b96cd,
  0x005cb8e46d31d589da86623eb7eb0f53a9f5114dc4987c20732fcb971e42a6fa4f13f7ab227e9ac695c92d71f8a4401ce6ba5e028bd7336f3c6084d8510de9b59ec2267af3af4b174418fca0297591cd376b8fd35a06e2beedb1550980dc3864d18d6935bce004580b57b3ef663ade827824c09c1549adf1a2fe1a46cf93772b217d99c54c10f4a8fba7431f96ca2e7288d4306ce5b95d01520eeab63f6387db6e32d68a035fbbe7b4e80c50d985613dc79b7f23aaf6124e1d41a5f9702cc894bfe3075bd28e6a366539dd810854b0ec164aaef27b27c39fcc907428a1fd1945f0ac48149dc125792a7692ce471bffa35905e1bd34688cd083df3b67eeb2560a,
  0x005dbae76934d38ed28f6835bbe6015cb9e4035ed08d6a376b36d18c025fb8e56f32d588065bbce1bde0075ad4896e33d68b6c31bfe205580459bee36d30d78ade836439b7ea0d500c51b6eb6538df82673add800e53b4e9b5e80f52dc81663bb1ec0b56d885623f633ed9840a57b0ed0855b2ef613cdb86da87603db3ee0954a1fc1b46c895722f732ec9941a47a0fd1845a2ff712ccb96ca97702da3fe1944ce937429a7fa1d401c41a6fb7528cf92772acd901e43a4f9a5f81f42cc91762b7f22c598164bacf1adf0174ac4997e23c69b7c21aff215481449aef37d20c79a104daaf77924c39ec29f7825abf6114ca9f4134ec09d7a277b26c19c124fa8f5,
  0x005ebce2653bd987ca947628aff1134d89d7356becb2500e431dffa126789ac40f51b3ed6a34d688c59b7927a0fe1c4286d83a64e3bd5f014c12f0ae297795cb1e40a2fc7b25c799d48a6836b1ef0d5397c92b75f2ac4e105d03e1bf386684da114fadf3742ac896db856739bee0025c98c6247afda3411f520ceeb037698bd53c6280de5907e5bbf6a84a1493cd2f71b5eb0957d08e6c327f21c39d1a44a6f8336d8fd15608eab4f9a7451b9cc2207ebae40658df81633d702ecc92154ba9f7227c9ec04719fba5e8b6540a8dd3316fabf51749ce90722c613fdd83045ab8e62d7391cf4816f4aae7b95b0582dc3e60a4fa1846c19f7d236e30d28c0b55b7e9,
  0x005fbee1613edf80c29d7c23a3fc1d4299c62778f8a746195b04e5ba3a6584db2f7091ce4e11f0afedb2530c8cd3326db6e90857d7886936742bca95154aabf45e01e0bf3f6081de9cc3227dfda2431cc7987926a6f91847055abbe4643bda85712ecf90104faef1b3ec0d52d28d6c33e8b7560989d637682a7594cb4b14f5aabce3025ddd82633c7e21c09f1f40a1fe257a9bc4441bfaa5e7b8590686d9386793cc2d72f2ad4c13510eefb0306f8ed10a55b4eb6b34d58ac8977629a9f61748e2bd5c0383dc3d62207f9ec1411effa07b24c59a1a45a4fbb9e60758d8876639cd92732cacf3124d0f50b1ee6e31d08f540beab5356a8bd496c92877f7a84916,
  0x0060c0a09dfd5d3d2747e787bada7a1a4e2e8eeed3b313736909a9c9f49434549cfc5c3c0161c1a1bbdb7b1b2646e686d2b212724f2f8feff59535556808a8c82545e585b8d878180262c2a29fff5f3f6b0babcbf69636564c2c8cecd1b11171b9d979192444e4849efe5e3e0363c3a3f79737576a0aaacad0b010704d2d8ded4a2a8aead7b717776d0dadcdf09030500464c4a499f959392343e383bede7e1ed6b616764b2b8bebf19131516c0caccc98f858380565c5a5bfdf7f1f2242e2826f0fafcff2923252482888e8d5b515752141e181bcdc7c1c0666c6a69bfb5b3bf39333536e0eaeced4b41474492989e9bddd7d1d2040e0809afa5a3a0767c7a7,
  0x0061c2a399f85b3a2f4eed8cb6d774155e3f9cfdc7a605647110b3d2e8892a4bbcdd7e1f2544e78693f251300a6bc8a9e28320417b1ab9d8cdac0f6e543596f76504a7c6fc9d3e5f4a2b88e9d3b211703b5af998a2c360011475d6b78dec4f2ed9b81b7a402182e3f69734556f0eadcc87e645241e7fdcbda8c96a0b3150f392caab0869533291f0e58427467c1dbedf94f556370d6ccfaebbda79182243e0817617b4d5ef8e2d4c59389bfac0a102632849ea8bb1d073120766c5a49eff5c3dafce6d0c3657f49580e142231978dbbaf19033526809aacbdebf1c7d472685e41372d1b08aeb48293c5dfe9fa5c467064d2c8feed4b516776203a0c1fb9a3958,
  0x0062c4a695f751333755f391a2c066046e0caac8fb993f5d593b9dffccae086adcbe187a492b8defeb892f4d7e1cbad8b2d076142745e38185e741231072d4b6a5c761033052f49692f056340765c3a1cba90f6d5e3c9af8fc9e385a690badcf791bbddfec8e284a4e2c8ae8dbb91f7d1775d3b182e046242042e486b5d77113573593f1c2a006646002a4c6f5973153395bfd9facce680a0e6ccaa89bf95f3d8be94f2d1e7cdab8bcde781a294bed8fe58721437012b4d6d2b01674472583e1f29036546705a3c1c5a70163503294f69cfe583a096bcdafabc96f0d3e5cfa982e4cea88bbd97f1d197bddbf8cee482a402284e6d5b711737715b3d1e2802644,
  0x0063c6a591f257343f5cf99aaecd680b7e1db8dbef8c294a412287e4d0b31675fc9f3a596d0eabc8c3a00566523194f782e144271370d5b6bdde7b182c4fea89e58623407417b2d1dab91c7f4b288dee9bf85d3e0a69ccafa4c762013556f390197adfbc88eb4e2d2645e083b7d471126704a1c2f6953053583b9efdc9aa0f6cd7b41172462580e3e88b2e4d791abfdca9ca6f0c385bfe9d96f550330764c1a22b48ed8ebad97c1f1477d2b185e64320553693f0c4a702616a09accffb983d5e3251f497a3c065060d6ecba89cff5a394c2f8ae9ddbe1b787310b5d6e2812447cead086b5f3c99faf19237546003a6c5b0d376152142e7848fec492a1e7dd8bb,
  0x0064c8ac8de945210763cfab8aee42260e6ac6a283e74b2f096dc1a584e04c281c78d4b091f5593d1b7fd3b796f25e3a1276dabe9ffb57331571ddb998fc5034385cf094b5d17d193f5bf793b2d67a1e3652fe9abbdf73173155f99dbcd874102440ec88a9cd61052347eb8faeca66022a4ee286a7c36f0b2d49e581a0c4680c7014b8dcfd9935517713bfdbfa9e32567e1ab6d2f3973b5f791db1d5f4903c586c08a4c0e185294d6b0fa3c7e6822e4a6206aaceef8b27436501adc9e88c2044482c80e4c5a10d694f2b87e3c2a60a6e46228eeacbaf0367412589edcca8046054309cf8d9bd117553379bffdeba16725a3e92f6d7b31f7b5d3995f1d0b4187c,
  0x0065caaf89ec43260f6ac5a086e34c291e7bd4b197f25d381174dbbe98fd52373c59f693b5d07f1a3356f99cbadf70152247e88dabce61042d48e782a4c16e0b781db2d7f1943b5e7712bdd8fe9b34516603acc9ef8a2540690ca3c6e0852a4f44218eebcda807624b2e81e4c2a7086d5a3f90f5d3b6197c55309ffadcb91673f0953a5f791cb3d6ff9a35507613bcd9ee8b24416702adc8e1842b4e680da2c7cca9066345208feac3a6096c4a2f80e5d2b7187d5b3e91f4ddb8177254319efb88ed42270164cbae87e24d280e6bc4a196f35c391f7ad5b099fc53361075dabfb4d17e1b3d58f792bbde71143257f89daacf60052346e98ca5c06f0a2c49e683,
  0x0066ccaa85e3492f1771dbbd92f45e382e48e284abcd6701395ff593bcda70165c3a90f6d9bf15734b2d87e1cea802647214bed8f7913b5d6503a9cfe0862c4ab8de74123d5bf197afc963052a4ce68096f05a3c1375dfb981e74d2b0462c8aee482284e6107adcbf3953f597610badccaac06604f2983e5ddbb1177583e94f26d0ba1c7e88e24427a1cb6d0ff99335543258fe9c6a00a6c543298fed1b71d7b3157fd9bb4d2781e2640ea8ca3c56f091f79d3b59afc5630086ec4a28deb4127d5b3197f50369cfac2a40e6847218bedfb9d37517e18b2d4ec8a2046690fa5c389ef45230c6ac0a69ef852341b7dd7b1a7c16b0d2244ee88b0d67c1a3553f99f,
  0x0067cea981e64f281f78d1b69ef950373e59f097bfd871162146ef88a0c76e097c1bb2d5fd9a33546304adcae2852c4b42258cebc3a40d6a5d3a93f4dcbb1275f89f3651791eb7d0e780294e6601a8cfc6a1086f472089eed9be1770583f96f184e34a2d0562cbac9bfc55321a7dd4b3badd74133b5cf592a5c26b0c2443ea8ded8a23446c0ba2c5f2953c5b7314bddad3b41d7a52359cfbccab02654d2a83e491f65f381077deb98ee940270f68c1a6afc861062e49e087b0d77e193156ff981572dbbc94f35a3d0a6dc4a38bec45222b4ce582aacd64033453fa9db5d27b1c690ea7c0e88f26417611b8dff790395e573099fed6b1187f482f86e1c9ae0760,
  0x0068d0b8bdd56d05670fb7dfdab20a62cea61e76731ba3cba9c17911147cc4ac81e951393c54ec84e68e365e5b338be34f279ff7f29a224a2840f89095fd452d1f77cfa7a2ca721a7810a8c0c5ad157dd1b901696c04bcd4b6de660e0b63dbb39ef64e26234bf39bf9912941442c94fc503880e8ed853d55375fe78f8ae25a323e56ee8683eb533b593189e1e48c345cf09820484d259df597ff472f2a42fa92bfd76f07026ad2bad8b00860650db5dd7119a1c9cca41c74167ec6aeabc37b132149f1999cf44c24462e96fefb932b43ef873f57523a82ea88e05830355de58da0c870181d75cda5c7af177f7a12aac26e06bed6d3bb036b0961d9b1b4dc640c,
  0x0069d2bbb9d06b026f06bdd4d6bf046ddeb70c65670eb5dcb1d8630a0861dab3a1c8731a1871caa3cea71c75771ea5cc7f16adc4c6af147d1079c2aba9c07b125f368de4e68f345d3059e28b89e05b3281e8533a3851ea83ee873c55573e85ecfe972c45472e95fc91f8432a2841fa932049f29b99f04b224f269df4f69f244dbed76c05076ed5bcd1b8036a6801bad36009b2dbd9b00b620f66ddb4b6df640d1f76cda4a6cf741d7019a2cbc9a01b72c1a8137a7811aac3aec77c15177ec5ace188335a58318ae38ee75c35375ee58c3f56ed8486ef543d503982ebe9803b52402992fbf9902b422f46fd9496ff442d9ef74c25274ef59cf198234a48219af3,
  0x006ad4beb5df610b771da3c9c2a8167cee843a505b318fe599f34d272c46f892c1ab157f741ea0cab6dc62080369d7bd2f45fb919af04e2458328ce6ed8739539ff54b212a40fe94e8823c565d3789e3711ba5cfc4ae107a066cd2b8b3d9670d5e348ae0eb813f552943fd979cf64822b0da640e056fd1bbc7ad13797218a6cc2349f79d96fc4228543e80eae18b355fcda719737812acc6bad06e040f65dbb1e288365c573d83e995ff412b204af49e0c66d8b2b9d36d077b11afc5cea41a70bcd668020963ddb7cba11f757e14aac0523886ece78d3359254ff19b90fa442e7d17a9c3c8a21c760a60deb4bfd56b0193f9472d264cf298e48e305a513b85ef,
  0x006bd6bdb1da670c7f14a9c2cea51873fe9528434f2499f281ea573c305be68de18a375c503b86ed9ef548232f44f9921f74c9a2aec57813600bb6ddd1ba076cdfb409626e05b8d3a0cb761d117ac7ac214af79c90fb462d5e3588e3ef8439523e55e8838fe45932412a97fcf09b264dc0ab167d711aa7ccbfd469020e65d8b3a3c8751e1279c4afdcb70a616d06bbd05d368be0ec873a512249f49f93f8452e422994fff398254e3d56eb808ce75a31bcd76a010d66dbb0c3a8157e7219a4cf7c17aac1cda61b700368d5beb2d9640f82e9543f3358e58efd962b404c279af19df64b202c47fa91e289345f533885ee6308b5ded2b9046f1c77caa1adc67b10,
  0x006cd8b4adc17519472b9ff3ea86325e8ee2563a234ffb97c9a5117d6408bcd0016dd9b5acc07418462a9ef2eb87335f8fe3573b224efa96c8a4107c6509bdd1026edab6afc3771b45299df1e884305c8ce05438214df995cba7137f660abed2036fdbb7aec2761a44289cf0e985315d8de15539204cf894caa6127e670bbfd30468dcb0a9c5711d432f9bf7ee82365a8ae6523e274bff93cda11579600cb8d40569ddb1a8c4701c422e9af6ef83375b8be7533f264afe92cca01478610db9d5066adeb2abc7731f412d99f5ec80345888e4503c2549fd91cfa3177b620ebad6076bdfb3aac6721e402c98f4ed81355989e5513d2448fc90cea2167a630fbbd7,
  0x006ddab7a9c4731e4f2295f8e68b3c519ef34429375aed80d1bc0b667815a2cf214cfb9688e5523f6e03b4d9c7aa1d70bfd26508167bcca1f09d2a47593483ee422f98f5eb86315c0d60d7baa4c97e13dcb1066b7518afc293fe49243a57e08d630eb9d4caa7107d2c41f69b85e85f32fd90274a54398ee3b2df68051b76c1ac84e95e332d40f79acba6117c620fb8d51a77c0adb3de690455388fe2fc91264ba5c87f120c61d6bbea87305d432e99f43b56e18c92ff48257419aec3ddb0076ac6ab1c716f02b5d889e4533e204dfa97583582eff19c2b46177acda0bed36409e78a3d504e2394f9a8c5721f016cdbb67914a3ced0bd0a67365bec819ff24528,
  0x006edcb2a5cb791757398be5f29c2e40aec0721c0b65d7b9f997254b5c3280ee412f9df3e48a38561678caa4b3dd6f01ef81335d4a2496f8b8d6640a1d73c1af82ec5e302749fb95d5bb0967701eacc22c42f09e89e7553b7b15a7c9deb0026cc3ad1f716608bad494fa4826315fed836d03b1dfc8a6147a3a54e6889ff1432d1977c5abbcd2600e4e2092fceb853759b7d96b05127ccea0e08e3c52452b99f7583684eafd93214f0f61d3bdaac47618f6982a44533d8fe1a1cf7d13046ad8b69bf547293e50e28ccca2107e6907b5db355be98790fe4c22620cbed0c7a91b75dab406687f11a3cd8de3513f2846f49a741aa8c6d1bf0d63234dff9186e85a34,
  0x006fdeb1a1ce7f105f3081eefe91204fbed1600f1f70c1aee18e3f50402f9ef1610ebfd0c0af1e713e51e08f9ff0412edfb0016e7e11a0cf80ef5e31214eff90c2ad1c73630cbdd29df2432c3c53e28d7c13a2cdddb2036c234cfd9282ed5c33a3cc7d12026ddcb3fc93224d5d3283ec1d72c3acbcd3620d422d9cf3e38c3d5299f647283857e689c6a918776708b9d62748f99686e958377817a6c9d9b60768f8972649593687e8a7c879160669d8b7462998f7e78839561976c7a8b8d766095b3485eafa95244b046bdab5a5ca7b14e58a3b54442b9af5bad5640b1b74c5aa3a55e48b9bf4452a650abbd4c4ab1a7584eb5a35254afb94dbb4056a7a15a4cb,
  0x0070e090ddad3d4da7d747377a0a9aea5323b3c38efe6e1ef48414642959c9b9a6d646367b0b9beb0171e191dcac3c4cf58515652858c8b85222b2c28fff6f1f5121b1c18cfc6c1cf68616662b5bcbbb0272e292dfaf3f4fa5d54535780898e8f78717672a5acaba5020b0c08dfd6d1da4d44434790999e90373e393deae3e4ea2d242327f0f9fef0575e595d8a83848f18111612c5cccbc5626b6c68bfb6b1b0474e494d9a93949a3d343337e0e9eee5727b7c78afa6a1af08010602d5dcdbdf38313632e5ecebe5424b4c489f96919a0d040307d0d9ded0777e797daaa3a4a5525b5c588f86818f28212622f5fcfbf0676e696dbab3b4ba1d141317c0c9cec,
  0x0071e293d9a83b4aafde4d3c760794e54332a1d09aeb7809ec9d0e7f3544d7a686f764155f2ebdcc2958cbbaf0811263c5b427561c6dfe8f6a1b88f9b3c251201160f382c8b92a5bbecf5c2d671685f45223b0c18bfa6918fd8c1f6e2455c6b797e675044e3facdd3849daabe1900372d4a536470d7cef9e7b0a99e8a2d340312253c0b1fb8a19688dfc6f1e5425b6c7611083f2b8c95a2bcebf2c5d1766f584a4d546377d0c9fee0b7ae998d2a33041e79605743e4fdcad4839aadb91e073023342d1a0ea9b08799ced7e0f4534a7d6700192e3a9d84b3adfae3d4c0677e495b5c457266c1d8eff1a6bf889c3b22150f68714652f5ecdbc5928bbca80f16213,
  0x0072e496d5a73143b7c55321621086f4730197e5a6d44230c4b620521163f587e69402703341d7a55123b5c784f6601295e771034032a4d62250c6b4f7851361d1a335470476e092661482f0b3c15725a2d04634770593e11567f183c0b224563745d3a1e290067480f264165527b1c34436a0d291e37507f38117652654c2b0bfcd5b296a188efc087aec9eddaf394bccbe285a196bfd8f7b099fedaedc4a38592bbdcf8cfe681aee9c0a783b49dfad2a58cebcff8d1b699def790b483aacde6e1c8af8bbc95f2dd9ab3d4f0c7ee89a1d6ff98bc8ba2c5eaad84e3c7f0d9be988fa6c1e5d2fb9cb3f4ddba9ea980e7cfb891f6d2e5ccab84c3ea8da99eb7d0f,
  0x0073e695d1a23744bfcc592a6e1d88fb631085f6b2c15427dcaf3a490d7eeb98c6b520531764f182790a9feca8db4e3da5d64330740792e11a69fc8fcbb82d5e91e277044033a6d52e5dc8bbff8c196af28114672350c5b64d3eabd89cef7a095724b1c286f56013e89b0e7d394adfac3447d2a1e59603708bf86d1e5a29bccf3f4cd9aaee9d087b80f366155122b7c45c2fbac98dfe6b18e39005763241d4a7f98a1f6c285bcebd4635a0d397e471029ae97c0f4b38adde2556c3b0f4871261aedd483b7f0c99ea1162f784c0b32655cdbe2b581c6ffa89720194e7a3d04536681b8efdb9ca5f2cd7a431420675e0930b78ed9edaa93c4fb4c75221651683f0,
  0x0074e89ccdb9255187f36f1b4a3ea2d61367fb8fdeaa364294e07c08592db1c52652cebaeb9f0377a1d5493d6c1884f03541dda9f88c1064b2c65a2e7f0b97e34c38a4d081f5691dcbbf23570672ee9a5f2bb7c392e67a0ed8ac30441561fd896a1e82f6a7d34f3bed9905712054c8bc790d91e5b4c05c28fe8a16623347dbaf98ec70045521bdc91f6bf783d2a63a4e8bff63174632aeda0c78e490c1b5295dbeca562273079bef394dd1a5f4801c68add94531601488fc2a5ec2b6e7930f7bd4a03c48196df1855327bbcf9eea7602c7b32f5b0a7ee2964034a8dc8df96511f2861a6e3f4bd7a375019de9b8cc5024e195097d2c58c4b066128efaabdf4337,
  0x0075ea9fc9bc23568ffa65104633acd90376e99ccabf20558cf966134530afda0673ec99cfba255089fc63164035aadf0570ef9accb926538aff60154336a9dc0c79e693c5b02f5a83f6691c4a3fa0d50f7ae590c6b32c5980f56a1f493ca3d60a7fe095c3b6295c85f06f1a4c39a6d3097ce396c0b52a5f86f36c194f3aa5d0186df287d1a43b4e97e27d085e2bb4c11b6ef184d2a7384d94e17e0b5d28b7c21e6bf481d7a23d4891e47b0e582db2c71d68f782d4a13e4b92e7780d5b2eb1c41461fe8bdda837429bee71045227b8cd1762fd88deab344198ed72075124bbce1267f88ddbae31449de877025421becb1164fb8ed8ad32479eeb74015722bdc8,
  0x0076ec9ac5b3295f97e17b0d5224bec83345dfa9f6801a6ca4d2483e61178dfb66108afca3d54f39f1871d6b3442d8ae5523b9cf90e67c0ac2b42e580771eb9dccba2056097fe5935b2db7c19ee87204ff8913653a4cd6a0681e84f2addb4137aadc46306f1983f53d4bd1a7f88e146299ef75035c2ab0c60e78e294cbbd275185f3691f4036acda1264fe88d7a13b4db6c05a2c73059fe92157cdbbe492087ee3950f792650cabc740298eeb1c75d2bd0a63c4a1563f98f4731abdd82f46e18493fa5d38cfa6016dea832441b6df7817a0c96e0bfc95325ed9b0177285ec4b22f59c3b5ea9c0670b8ce54227d0b91e71c6af086d9af35438bfd67114e38a2d4,
  0x0077ee99c1b62f589fe871065e29b0c72354cdbae2950c7bbccb52257d0a93e44631a8df87f0691ed9ae3740186ff68165128bfca4d34a3dfa8d14633b4cd5a28cfb62154d3aa3d41364fd8ad2a53c4bafd841366e1980f73047dea9f1861f68cabd24530b7ce5925522bbcc94e37a0de99e0770285fc6b1760198efb7c0592e0572eb9cc4b32a5d9aed74035b2cb5c22651c8bfe790097eb9ce5720780f96e14334adda82f56c1bdcab32451d6af38460178ef9a1d64f38ff8811663e49d0a789fe6710483fa6d11661f88fd7a0394eaadd44336b1c85f23542dbacf4831a6dcfb821560e79e0975027bec991e67f08ec9b02752d5ac3b473049deab2c55c2b,
  0x0078f088fd850d75e79f176f1a62ea92d3ab235b2e56dea6344cc4bcc9b13941bbc34b33463eb6ce5c24acd4a1d95129681098e095ed651d8ff77f07720a82fa6b139be396ee661e8cf47c04710981f9b8c04830453db5cd5f27afd7a2da522ad0a820582d55dda5374fc7bfcab23a42037bf38bfe860e76e49c146c1961e991d6ae265e2b53dba33149c1b9ccb43c44057df58df8800870e29a126a1f67ef976d159de590e860188af27a02770f87ffbec64e36433bb3cb5921a9d1a4dc542cbdc54d354038b0c85a22aad2a7df572f6e169ee693eb631b89f17901740c84fc067ef68efb830b73e19911691c64ec94d5ad255d2850d8a0324ac2bacfb73f47,
  0x0079f28bf9800b72ef961d64166fe49dc3ba31483a43c8b12c55dea7d5ac275e9be26910621b90e9740d86ff8df47f065821aad3a1d8532ab7ce453c4e37bcc52b52d9a0d2ab2059c4bd364f3d44cfb6e8911a631168e39a077ef58cfe870c75b0c9423b4930bbc25f26add4a6df542d730a81f88af378019ce56e17651c97ee562fa4ddafd65d24b9c04b324039b2cb95ec671e6c159ee77a0388f183fa7108cdb43f46344dc6bf225bd0a9dba229500e77fc85f78e057ce198136a1861ea937d048ff684fd760f92eb60196b1299e0bec74c35473eb5cc5128a3daa8d15a23e69f146d1f66ed940970fb82f089027b255cd7aedca52e57cab33841334ac1b8,
  0x007af48ef58f017bf78d03790278f68cf389077d067cf288047ef08af18b057ffb810f750e74fa800c76f882f9830d770872fc86fd870973ff850b710a70fe84eb911f651e64ea901c66e892e9931d671862ec96ed971963ef951b611a60ee94106ae49ee59f116be79d13691268e69ce399176d166ce298146ee09ae19b156fcbb13f453e44cab03c46c8b2c9b33d473842ccb6cdb73943cfb53b413a40ceb4304ac4bec5bf314bc7bd33493248c6bcc3b9374d364cc2b8344ec0bac1bb354f205ad4aed5af215bd7ad23592258d6acd3a9275d265cd2a8245ed0aad1ab255fdba12f552e54daa02c56d8a2d9a32d572852dca6dda72953dfa52b512a50dea4,
  0x007bf68df18a077cff8409720e75f883e398156e1269e49f1c67ea91ed961b60dba02d562a51dca7245fd2a9d5ae23583843ceb5c9b23f44c7bc314a364dc0bbabd05d265a21acd7542fa2d9a5de53284833bec5b9c24f34b7cc413a463db0cb700b86fd81fa770c8ff479027e0588f393e8651e621994ef6c179ae19de66b104b30bdc6bac14c37b4cf4239453eb3c8a8d35e255922afd4572ca1daa6dd502b90eb661d611a97ec6f1499e29ee56813730885fe82f9740f8cf77a017d068bf0e09b166d116ae79c1f64e992ee9518630378f58ef289047ffc870a710d76fb803b40cdb6cab13c47c4bf3249354ec3b8d8a32e552952dfa4275cd1aad6ad205b,
  0x007cf884ed911569c7bb3f432a56d2ae93ef6b177e0286fa5428acd0b9c5413d3b47c3bfd6aa2e52fc800478116de995a8d4502c4539bdc16f1397eb82fe7a06760a8ef29be7631fb1cd49355c20a4d8e5991d610874f08c225edaa6cfb3374b4d31b5c9a0dc58248af6720e671b9fe3dea2265a334fcbb71965e19df4880c70ec901468017df9852b57d3afc6ba3e427f0387fb92ee6a16b8c4403c5529add1d7ab2f533a46c2be106ce894fd8105794438bcc0a9d5512d83ff7b076e1296ea9ae6621e770b8ff35d21a5d9b0cc48340975f18de4981c60ceb2364a235fdba7a1dd59254c30b4c8661a9ee28bf7730f324ecab6dfa3275bf5890d711864e09c,
  0x007dfa87e994136ecfb23548265bdca183fe79046a1790ed4c31b6cba5d85f221b66e19cf28f0875d4a92e533d40c7ba98e5621f710c8bf6572aadd0bec34439364bccb1dfa22558f984037e106dea97b5c84f325c21a6db7a0780fd93ee69142d50d7aac4b93e43e29f18650b76f18caed35429473abdc0611c9be688f5720f6c1196eb85f87f02a3de59244a37b0cdef921568067bfc81205ddaa7c9b4334e770a8df09ee36419b8c5423f512cabd6f4890e731d60e79a3b46c1bcd2af28555a27a0ddb3ce493495e86f127c0186fbd9a4235e304dcab7166bec91ff820578413cbbc6a8d5522f8ef37409671a9de0c2bf38452b56d1ac0d70f78ae4991e63,
  0x007efc82e59b1967d7a92b55324cceb0b3cd4f315628aad4641a98e681ff7d037b0587f99ee0621cacd2502e4937b5cbc8b6344a2d53d1af1f61e39dfa840678f6880a74136def91215fdda3c4ba3846453bb9c7a0de5c2292ec6e1077098bf58df3710f681694ea5a24a6d8bfc1433d3e40c2bcdba52759e997156b0c72f08ef18f0d73146ae8962658daa4c3bd3f41423cbec0a7d95b2595eb6917700e8cf28af476086f1193ed5d23a1dfb8c6443a3947c5bbdca2205eee90126c0b75f7890779fb85e29c1e60d0ae2c52354bc9b7b4ca4836512fadd3631d9fe186f87a047c0280fe99e7651babd557294e30b2cccfb1334d2a54d6a81866e49afd83017f,
  0x007ffe81e19e1f60dfa0215e3e41c0bfa3dc5d22423dbcc37c0382fd9de2631c5b24a5dabac5443b84fb7a05651a9be4f88706791966e7982758d9a6c6b93847b6c948375728a9d6691697e888f77609156aeb94f48b0a75cab5344b2b54d5aaed92136c0c73f28d324dccb3d3ac2d524e31b0cfafd0512e91ee6f10700f8ef1710e8ff090ef6e11aed1502f4f30b1ced2ad2c53334ccdb20d72f38cec93126d2a55d4abcbb4354af58a0b74146bea9589f67708681796e95629a8d7b7c84936c7b839462659d8a71867e699f9860778641b9ae585fa7b04bbc4453a5a25a4db9ce3621d7d0283fc433cbdc2a2dd5c233f40c1bedea1205fe09f1e61017eff80,
  0x00801d9d3aba27a774f469e94ece53d3e868f575d252cf4f9c1c8101a626bb3bcd4dd050f777ea6ab939a42483039e1e25a538b81f9f028251d14ccc6beb76f687079a1abd3da020f373ee6ec949d4546fef72f255d548c81b9b068621a13cbc4aca57d770f06ded3ebe23a304841999a222bf3f98188505d656cb4bec6cf17113930e8e29a934b467e77afa5ddd40c0fb7be666c141dc5c8f0f9212b535a828de5ec343e464f979aa2ab73790108d0d36b62bab0c8c119142c25fdf78f865e594148909ae2eb333e060fd7dda5ac7477cfc61e146c65bdb0888159532b22faf59d944c463e37efe2dad30b017970a8ab131ac2c8b0b9616c545d858ff7fe262,
  0x00811f9e3ebf21a07cfd63e242c35ddcf879e766c647d95884059b1aba3ba524ed6cf273d352cc4d91108e0faf2eb03115940a8b2baa34b569e876f757d648c9c746d859f978e667bb3aa42585049a1b3fbe20a101801e9f43c25cdd7dfc62e32aab35b414950b8a56d749c868e977f6d253cd4cec6df372ae2fb13090118f0e93128c0dad2cb233ef6ef071d150ce4f6bea74f555d44acb1796088929a836b77eff61e040c15fde02831d9c3cbd23a286079918b839a726fa7be564c445db5a54d54bca6aeb75f428a937b616970988ac2db33292138d0cd051cf4eee6ff170b938a62787069819c544da5bfb7ae46541c05edf7ffe60e13dbc22a303821c9d,
  0x0082199b32b02ba964e67dff56d44fcdc84ad153fa78e361ac2eb5379e1c87058d0f9416bf3da624e96bf072db59c24045c75cde77f56eec21a338ba13910a8807851e9c35b72cae63e17af851d348cacf4dd654fd7fe466ab29b230991b80028a089311b83aa123ee6cf775dc5ec54742c05bd970f269eb26a43fbd14960d8f0e8c17953cbe25a76ae873f158da41c3c644df5df476ed6fa220bb399012890b83019a18b133a82ae765fe7cd557cc4e4bc952d079fb60e22fad36b41d9f0486098b10923bb922a06def74f65fdd46c4c143d85af371ea68a527bc3e97158e0c84069d1fb634af2de062f97bd250cb494cce55d77efc67e528aa31b31a980381,
  0x00831b9836b52dae6cef77f45ad941c2d85bc340ee6df576b437af2c8201991aad2eb6359b188003c142da59f774ec6f75f66eed43c058db199a02812fac34b747c45cdf71f26ae92ba830b31d9e06859f1c8407a92ab231f370e86bc546de5dea69f172dc5fc74486059d1eb033ab2832b129aa04871f9c5edd45c668eb73f08e0d9516b83ba320e261f97ad457cf4c56d54dce60e37bf83ab921a20c8f179423a038bb15960e8d4fcc54d779fa62e1fb78e063cd4ed65597148c0fa122ba39c94ad251ff7ce467a526be3d9310880b11920a8927a43cbf7dfe66e54bc850d364e77ffc52d149ca088b13903ebd25a6bc3fa7248a099112d053cb48e665fd7e,
  0x008415912aae3fbb54d041c57efa6befa82cbd3982069713fc78e96dd652c3474dc958dc67e372f6199d0c8833b726a2e561f074cf4bda5eb135a4209b1f8e0a9a1e8f0bb034a521ce4adb5fe460f17532b627a3189c0d8966e273f74cc859ddd753c246fd79e86c83079612a92dbc387ffb6aee55d140c42baf3eba0185149029ad3cb8038716927df968ec57d342c681059410ab2fbe3ad551c044ff7bea6e64e071f54eca5bdf30b425a11a9e0f8bcc48d95de662f377981c8d09b236a723b337a622991d8c08e763f276cd49d85c1b9f0e8a31b524a04fcb5ade65e170f4fe7aeb6fd450c145aa2ebf3b8004951156d243c77cf869ed0286179328ac3db9,
  0x008517922eab39bc5cd94bce72f765e0b83daf2a96138104e461f376ca4fdd586de87aff43c654d131b426a31f9a088dd550c247fb7eec69890c9e1ba722b035da5fcd48f471e36686039114a82dbf3a62e775f04cc95bde3ebb29ac10950782b732a025991c8e0beb6efc79c540d2570f8a189d21a436b353d644c17df86aefa92cbe3b87029015f570e267db5ecc49119406833fba28ad4dc85adf63e674f1c441d356ea6ffd78981d8f0ab633a1247cf96bee52d745c020a537b20e8b199c73f664e15dd84acf2faa38bd01841693cb4edc59e560f27797128005b93cae2b1e9b098c30b527a242c755d06ce97bfea623b134880d9f1afa7fed68d451c346,
  0x0086119722a433b544c255d366e077f1880e991faa2cbb3dcc4add5bee68ff790d8b1c9a2fa93eb849cf58de6bed7afc85039412a721b630c147d056e365f2741a9c0b8d38be29af5ed84fc97cfa6deb92148305b036a127d650c741f472e5631791068035b324a253d542c471f760e69f198e08bd3bac2adb5dca4cf97fe86e34b225a31690078170f661e752d443c5bc3aad2b9e188f09f87ee96fda5ccb4d39bf28ae1b9d0a8c7dfb6cea5fd94ec8b137a02693158204f573e462d751c6402ea83fb90c8a1d9b6aec7bfd48ce59dfa620b73184029513e264f375c046d15723a532b40187109667e176f045c354d2ab2dba3c890f981eef69fe78cd4bdc5a,
  0x0087139426a135b24ccb5fd86aed79fe981f8b0cbe39ad2ad453c740f275e1662daa3eb90b8c189f61e672f547c054d3b532a62193148007f97eea6ddf58cc4b5add49ce7cfb6fe81691058230b723a4c245d156e463f7708e099d1aa82fbb3c77f064e351d642c53bbc28af1d9a0e89ef68fc7bc94eda5da324b03785029611b433a72092158106f87feb6cde59cd4a2cab3fb80a8d199e60e773f446c155d2991e8a0dbf38ac2bd552c641f374e0670186129527a034b34dca5ed96bec78ffee69fd7ac84fdb5ca225b1368403971076f165e250d743c43abd29ae1c9b0f88c344d057e562f6718f089c1ba92eba3d5bdc48cf7dfa6ee91790048331b622a5,
  0x00880d851a92179f34bc39b12ea623ab68e065ed72fa7ff75cd451d946ce4bc3d058dd55ca42c74fe46ce961fe76f37bb830b53da22aaf278c048109961e9b13bd35b038a72faa228901840c931b9e16d55dd850cf47c24ae169ec64fb73f67e6de560e877ff7af259d154dc43cb4ec6058d08801f97129a31b93cb42ba326ae67ef6ae27df570f853db5ed649c144cc0f87028a159d18903bb336be21a92ca4b73fba32ad25a028830b8e069911941cdf57d25ac54dc840eb63e66ef179fc74da52d75fc048cd45ee66e36bf47cf971b23abf37a820a52d860e8b039c1491190a82078f10981d953eb633bb24ac29a162ea6fe778f075fd56de5bd34cc441c9,
  0x00890f861e9711983cb533ba22ab2da478f177fe66ef69e044cd4bc25ad355dcf079ff76ee67e168cc45c34ad25bdd548801870e961f9910b43dbb32aa23a52cfd74f27be36aec65c148ce47df56d059850c8a039b12941db930b63fa72ea8210d84028b139a1c9531b83eb72fa620a975fc7af36be264ed49c046cf57de58d1e76ee861f970f67fdb52d45dc54cca439f16901981088e07a32aac25bd34b23b179e18910980068f2ba224ad35bc3ab36fe660e971f87ef753da5cd54dc442cb1a93159c048d0b8226af29a038b137be62eb6de47cf573fa5ed751d840c94fc6ea63e56cf47dfb72d65fd950c841c74e921b9d148c05830aae27a128b039bf36,
  0x008a098312981b9124ae2da736bc3fb548c241cb5ad053d96ce665ef7ef477fd901a991382088b01b43ebd37a62caf25d852d15bca40c349fc76f57fee64e76d3db734be2fa526ac1993109a0b81028875ff7cf667ed6ee451db58d243c94ac0ad27a42ebf35b63c8903800a9b119218e56fec66f77dfe74c14bc842d359da507af073f968e261eb5ed457dd4cc645cf32b83bb120aa29a3169c1f95048e0d87ea60e369f872f17bce44c74ddc56d55fa228ab21b03ab933860c8f05941e9d1747cd4ec455df5cd663e96ae071fb78f20f85068c1d97149e2ba122a839b330bad75dde54c54fcc46f379fa70e16be8629f15961c8d07840ebb31b238a923a02a,
  0x008b0b80169d1d962ca727ac3ab131ba58d353d84ec545ce74ff7ff462e969e2b03bbb30a62dad269c17971c8a01810ae863e368fe75f57ec44fcf44d259d9527df676fd6be060eb51da5ad147cc4cc725ae2ea533b838b3098202891f94149fcd46c64ddb50d05be16aea61f77cfc77951e9e1583088803b932b239af24a42ffa71f17aec67e76cd65ddd56c04bcb40a229a922b43fbf348e05850e981393184ac141ca5cd757dc66ed6de670fb7bf012991992048f0f843eb535be28a323a8870c8c07911a9a11ab20a02bbd36b63ddf54d45fc942c249f378f873e56eee6537bc3cb721aa2aa11b90109b0d86068d6fe464ef79f272f943c848c355de5ed5,
  0x008c05890a860f831498119d1e921b9728a42da122ae27ab3cb039b536ba33bf50dc55d95ad65fd344c841cd4ec24bc778f47df172fe77fb6ce069e566ea63efa02ca529aa26af23b438b13dbe32bb3788048d01820e870b9c109915961a931ff07cf579fa76ff73e468e16dee62eb67d854dd51d25ed75bcc40c945c64ac34f5dd158d457db52de49c54cc043cf46ca75f970fc7ff37af661ed64e86be76ee20d810884078b028e19951c90139f169a25a920ac2fa32aa631bd34b83bb73eb2fd71f874f77bf27ee965ec60e36fe66ad559d05cdf53da56c14dc448cb47ce42ad21a824a72ba22eb935bc30b33fb63a8509800c8f038a06911d94189b179e12,
  0x008d078a0e8309841c911b96129f159838b53fb236bb31bc24a923ae2aa72da070fd77fa7ef379f46ce16be662ef65e848c54fc246cb41cc54d953de5ad75dd0e06de76aee63e964fc71fb76f27ff578d855df52d65bd15cc449c34eca47cd40901d971a9e1399148c018b06820f8508a825af22a62ba12cb439b33eba37bd30dd50da57d35ed459c14cc64bcf42c845e568e26feb66ec61f974fe73f77af07dad20aa27a32ea429b13cb63bbf32b8359518921f9b169c1189048e03870a800d3db03ab733be34b921ac26ab2fa228a50588028f0b860c8119941e93179a109d4dc04ac743ce44c951dc56db5fd258d575f872ff7bf67cf169e46ee367ea60ed,
  0x008e018f028c038d048a058b06880789088609870a840b850c820d830e800f81109e119f129c139d149a159b16981799189619971a941b951c921d931e901f9120ae21af22ac23ad24aa25ab26a827a928a629a72aa42ba52ca22da32ea02fa130be31bf32bc33bd34ba35bb36b837b938b639b73ab43bb53cb23db33eb03fb140ce41cf42cc43cd44ca45cb46c847c948c649c74ac44bc54cc24dc34ec04fc150de51df52dc53dd54da55db56d857d958d659d75ad45bd55cd25dd35ed05fd160ee61ef62ec63ed64ea65eb66e867e968e669e76ae46be56ce26de36ee06fe170fe71ff72fc73fd74fa75fb76f877f978f679f77af47bf57cf27df37ef07ff1,
  0x008f038c0689058a0c830f800a85098618971b941e911d92149b1798129d119e30bf33bc36b935ba3cb33fb03ab539b628a72ba42ea12da224ab27a822ad21ae60ef63ec66e965ea6ce36fe06ae569e678f77bf47ef17df274fb77f872fd71fe50df53dc56d955da5cd35fd05ad559d648c74bc44ec14dc244cb47c842cd41cec04fc34cc649c54acc43cf40ca45c946d857db54de51dd52d45bd758d25dd15ef07ff37cf679f57afc73ff70fa75f976e867eb64ee61ed62e46be768e26de16ea02fa32ca629a52aac23af20aa25a926b837bb34be31bd32b43bb738b23db13e901f931c9619951a9c139f109a15991688078b048e018d02840b8708820d810e,
  0x00903dad7aea47d7f464c9598e1eb323f565c8588f1fb22201913cac7beb46d6f767ca5a8d1db02003933eae79e944d402923faf78e845d5f666cb5b8c1cb121f363ce5e8919b42407973aaa7ded40d006963bab7cec41d1f262cf5f8818b525049439a97eee43d3f060cd5d8a1ab727f161cc5c8b1bb626059538a87fef42d2fb6bc6568111bc2c0f9f32a275e548d80e9e33a374e449d9fa6ac7578010bd2d0c9c31a176e64bdbf868c5558212bf2ff969c4548313be2e0d9d30a077e74ada089835a572e24fdffc6cc1518616bb2bfd6dc0508717ba2a099934a473e34edeff6fc2528515b8280b9b36a671e14cdc0a9a37a770e04dddfe6ec3538414b929,
  0x00913fae7eef41d0fc6dc3528213bd2ce574da4b9b0aa435198826b767f658c9d746e879a93896072bba148555c46afb32a30d9c4cdd73e2ce5ff160b0218f1eb3228c1dcd5cf2634fde70e131a00e9f56c769f828b91786aa3b9504d445eb7a64f55bca1a8b25b49809a736e677d9488110be2fff6ec0517dec42d303923cad7bea44d505943aab8716b829f968c6579e0fa130e071df4e62f35dcc1c8d23b2ac3d9302d243ed7c50c16ffe2ebf118049d876e737a60899b5248a1bcb5af465c859f766b627891834a50b9a4adb75e42dbc128353c26cfdd140ee7faf3e90011f8e20b161f05ecfe372dc4d9d0ca233fa6bc5548415bb2a069739a878e947d6,
  0x009239ab72e04bd9e476dd4f9604af3dd547ec7ea7359e0c31a3089a43d17ae8b7258e1cc557fc6e53c16af821b3188a62f05bc9108229bb8614bf2df466cd5f73e14ad8019338aa9705ae3ce577dc4ea6349f0dd446ed7f42d07be930a2099bc456fd6fb6248f1d20b2198b52c06bf9118328ba63f15ac8f567cc5e8715be2ce674df4d9406ad3f02903ba970e249db33a10a9841d378ead745ee7ca5379c0e51c368fa23b11a88b5278c1ec755fe6c8416bd2ff664cf5d60f259cb12802bb99507ac3ee775de4c71e348da03913aa840d279eb32a00b99a4369d0fd644ef7d22b01b8950c269fbc654ff6db4268d1ff765ce5c8517bc2e13812ab861f358ca,
  0x00933ba876e54ddeec7fd7449a09a132c556fe6db320881b29ba12815fcc64f79704ac3fe172da497be840d30d9e36a552c169fa24b71f8cbe2d8516c85bf36033a0089b45d67eeddf4ce477a93a9201f665cd5e8013bb281a8921b26cff57c4a4379f0cd241e97a48db73e03ead059661f25ac917842cbf8d1eb625fb68c05366f55dce10832bb88a19b122fc6fc754a330980bd546ee7d4fdc74e739aa0291f162ca598714bc2f1d8e26b56bf850c334a70f9c42d179ead84be370ae3d950655c66efd23b0188bb92a8211cf5cf4679003ab38e675dd4e7cef47d40a9931a2c251f96ab4278f1c2ebd158658cb63f007943caf71e24ad9eb78d0439d0ea635,
  0x009435a16afe5fcbd440e175be2a8b1fb5218014df4bea7e61f554c00b9f3eaa77e342d61d8928bca3379602c95dfc68c256f763a83c9d09168223b77ce849ddee7adb4f8410b1253aae0f9b50c465f15bcf6efa31a504908f1bba2ee571d044990dac38f367c6524dd978ec27b312862cb8198d46d273e7f86ccd599206a733c155f460ab3f9e0a158120b47feb4ade74e041d51e8a2bbfa0349501ca5eff6bb6228317dc48e97d62f657c3089c3da9039736a269fd5cc8d743e276bd29881c2fbb1a8e45d170e4fb6fce5a9105a4309a0eaf3bf064c5514eda7bef24b0118558cc6df932a607938c18b92de672d347ed79d84c8713b22639ad0c9853c766f2,
  0x009537a26efb59ccdc49eb7eb2278510a5309207cb5efc6979ec4edb178220b557c260f539ac0e9b8b1ebc29e570d247f267c5509c09ab3e2ebb198c40d577e2ae3b990cc055f76272e745d01c892bbe0b9e3ca965f052c7d742e075b92c8e1bf96cce5b9702a03525b012874bde7ce95cc96bfe32a705908015b722ee7bd94c41d476e32fba188d9d08aa3ff366c451e471d3468a1fbd2838ad0f9a56c361f4168321b478ed4fdaca5ffd68a4319306b3268411dd48ea7f6ffa58cd019436a3ef7ad84d8114b62333a604915dc86aff4adf7de824b113869603a134f86dcf5ab82d8f1ad643e17464f153c60a9f3da81d882abf73e644d1c154f663af3a980d,
  0x009631a762f453c5c452f563a63097019503a432f761c65051c760f633a5029437a1069055c364f2f365c2549107a036a2349305c056f16766f057c1049235a36ef85fc90c9a3dabaa3c9b0dc85ef96ffb6dca5c990fa83e3fa90e985dcb6cfa59cf68fe3bad0a9c9d0bac3aff69ce58cc5afd6bae389f09089e39af6afc5bcddc4aed7bbe288f19188e29bf7aec4bdd49df78ee2bbd1a8c8d1bbc2aef79de48eb7dda4c891fb82e2fb91e884ddb7cea7ee84fd91c8a2dbbba2c8b1dd84ee97fb2248315d046e17776e047d1148225b327b1168045d374e2e375d2448117b0268513b422e771d64041d770e623b51284108621b772e443d5d442e573b6208711,
  0x009733a466f155c2cc5bff68aa3d990e8512b621e374d04749de7aed2fb81c8b178024b371e642d5db4ce87fbd2a8e199205a136f463c7505ec96dfa38af0b9c2eb91d8a48df7bece275d1468413b720ab3c980fcd5afe6967f054c3019632a539ae0a9d5fc86cfbf562c6519304a037bc2b8f18da4de97e70e743d4168125b25ccb6ff83aad099e9007a334f661c552d94eea7dbf288c1b158226b173e440d74bdc78ef2dba1e898710b423e176d245ce59fd6aa83f9b0c029531a664f357c072e541d6148327b0be298d1ad84feb7cf760c4539106a2353bac089f5dca6ef965f256c1039430a7a93e9a0dcf58fc6be077d3448611b5222cbb1f884add79ee,
  0x00982db55ac277efb42c9901ee76c35b75ed58c02fb7029ac159ec749b03b62eea72c75fb0289d055ec673eb049c29b19f07b22ac55de8702bb3069e71e95cc4c951e47c930bbe267de550c827bf0a92bc249109e67ecb53089025bd52ca7fe723bb0e9679e154cc970fba22cd55e07856ce7be30c9421b9e27acf57b820950d8f17a23ad54df8603ba3168e61f94cd4fa62d74fa0388d154ed663fb148c39a165fd48d03fa7128ad149fc648b13a63e10883da54ad267ffa43c8911fe66d34b46de6bf31c8431a9f26adf47a830851d33ab1e8669f144dc871faa32dd45f068ac348119f66edb43188035ad42da6ff7d941f46c831bae366df540d837af1a82,
  0x00992fb65ec771e8bc25930ae27bcd5465fc4ad33ba2148dd940f66f871ea831ca53e57c940dbb2276ef59c028b1079eaf368019f168de47138a3ca54dd462fb8910a63fd74ef86135ac1a836bf244ddec75c35ab22b9d0450c97fe60e9721b843da6cf51d8432abff66d049a1388e1726bf099078e157ce9a03b52cc45deb720f9620b951c87ee7b32a9c05ed74c25b6af345dc34ad1b82d64ff9608811a73ec55cea739b02b42d79e056cf27be0891a0398f16fe67d1481c8533aa42db6df4861fa930d841f76e3aa3158c64fd4bd2e37acc55bd24920b5fc670e901982eb74cd563fa128b3da4f069df46ae37811829b0069f77ee58c1950cba23cb52e47d,
  0x009a29b352c87be1a43e8d17f66cdf4555cf7ce6079d2eb4f16bd842a3398a10aa308319f862d14b0e9427bd5cc675efff65d64cad37841e5bc172e8099320ba49d360fa1b8132a8ed77c45ebf25960c1c8635af4ed467fdb822910bea70c359e379ca50b12b980247dd6ef4158f3ca6b62c9f05e47ecd5712883ba140da69f39208bb21c05ae97336ac1f8564fe4dd7c75dee74950fbc2663f94ad031ab188238a2118b6af043d99c06b52fce54e77d6df744de3fa5168cc953e07a9b01b228db41f2688913a03a7fe556cc2db7049e8e14a73ddc46f56f2ab0039978e251cb71eb58c223b90a90d54ffc66871dae3424be0d9776ec5fc5801aa933d248fb61,
  0x009b2bb056cd7de6ac37871cfa61d14a45de6ef5138838a3e972c259bf24940f8a11a13adc47f76c26bd0d9670eb5bc0cf54e47f9902b22963f848d335ae1e85099222b95fc474efa53e8e15f368d8434cd767fc1a8131aae07bcb50b62d9d068318a833d54efe652fb4049f79e252c9c65ded76900bbb206af141da3ca7178c128939a244df6ff4be25950ee873c35857cc7ce7019a2ab1fb60d04bad36861d9803b328ce55e57e34af1f8462f949d2dd46f66d8b10a03b71ea5ac127bc0c971b8030ab4dd666fdb72c9c07e17aca515ec575ee089323b8f269d942a43f8f14910aba21c75cec773da6168d6bf040dbd44fff648219a93278e353c82eb5059e,
  0x009c25b94ad66ff39408b12dde42fb6735a9108c7fe35ac6a13d8418eb77ce526af64fd320bc0599fe62db47b428910d5fc37ae6158930accb57ee72811da438d448f16d9e02bb2740dc65f90a962fb3e17dc458ab378e1275e950cc3fa31a86be229b07f468d14d2ab60f9360fc45d98b17ae32c15de4781f833aa655c970ecb529900cff63da4621bd04986bf74ed2801ca539ca56ef73148831ad5ec27be7df43fa669509b02c4bd76ef2019d24b8ea76cf53a03c85197ee25bc734a8118d61fd44d82bb70e92f569d04cbf239a0654c871ed1e823ba7c05ce5798a16af330b972eb241dd64f89f03ba26d549f06c3ea21b8774e851cdaa368f13e07cc559,
  0x009d27ba4ed369f49c01bb26d24ff56825b8029f6bf64cd1b9249e03f76ad04d4ad76df0049923bed64bf16c9805bf226ff248d521bc069bf36ed449bd209a079409b32eda47fd6008952fb246db61fcb12c960bff62d8452db00a9763fe44d9de43f964900db72a42df65f80c912bb6fb66dc41b528920f67fa40dd29b40e9335a8128f7be65cc1a9348e13e77ac05d108d37aa5ec379e48c11ab36c25fe5787fe258c531ac168be37ec459ad308a175ac77de0148933aec65be17c8815af32a13c861bef72c8553da01a8773ee54c98419a33eca57ed7018853fa256cb71eceb76cc51a538821f77ea50cd39a41e83ce53e974801da73a52cf75e81c813ba6,
  0x009e21bf42dc63fd841aa53bc658e779158b34aa57c976e8910fb02ed34df26c2ab40b9568f649d7ae308f11ec72cd533fa11e807de35cc2bb259a04f967d84654ca75eb168837a9d04ef16f920cb32d41df60fe039d22bcc55be47a8719a6387ee05fc13ca21d83fa64db45b82699076bf54ad429b70896ef71ce50ad338c12a8368917ea74cb552cb20d936ef04fd1bd239c02ff61de4039a718867be55ac4821ca33dc05ee17f069827b944da65fb9709b628d54bf46a138d32ac51cf70eefc62dd43be209f0178e659c73aa41b85e977c856ab358a146df34cd22fb10e90d648f769940ab52b52cc73ed108e31afc35de27c811fa03e47d966f8059b24ba,
  0x009f23bc46d965fa8c13af30ca55e976059a26b943dc60ff8916aa35cf50ec730a9529b64cd36ff08619a53ac05fe37c0f902cb349d66af5831ca03fc55ae679148b37a852cd71ee9807bb24de41fd62118e32ad57c874eb9d02be21db44f8671e813da258c77be4920db12ed44bf7681b8438a75dc27ee19708b42bd14ef26d28b70b946ef14dd2a43b8718e27dc15e2db20e916bf448d7a13e821de778c45b22bd019e64fb47d8ae318d12e877cb5427b8049b61fe42ddab348817ed72ce513ca31f807ae559c6b02f930cf669d54a39a61a857fe05cc3b52a9609f36cd04f36a9158a70ef53ccba259906fc63df4033ac108f75ea56c9bf209c03f966da45,
  0x00a05dfdba1ae74769c93494d3738e2ed2728f2f68c83595bb1be64601a15cfcb919e44403a35efed0708d2d6aca37976bcb3696d1718c2c02a25fffb818e5456fcf3292d575882806a65bfbbc1ce141bd1de04007a75afad47489296ece3393d6768b2b6ccc3191bf1fe24205a558f804a459f9be1ee3436dcd3090d7778a2ade7e832364c43999b717ea4a0dad50f00cac51f1b616eb4b65c53898df7f822267c73a9add7d80200eae53f3b414e949b515e8480faf52f2dc7c812166c63b9bb111ec4c0bab56f6d878852562c23f9f63c33e9ed97984240aaa57f7b010ed4d08a855f5b212ef4f61c13c9cdb7b8626da7a872760c03d9db313ee4e09a954f4,
  0x00a15ffebe1fe14061c03e9fdf7e8021c2639d3c7cdd2382a302fc5d1dbc42e39938c667278678d9f859a70646e719b85bfa04a5e544ba1b3a9b65c48425db7a2f8e70d19130ce6f4eef11b0f051af0eed4cb21353f20cad8c2dd37232936dccb617e94808a957f6d776882969c8369774d52b8aca6b953415b44aebab0af4555eff01a0e041bf1e3f9e60c18120de7f9c3dc36222837ddcfd5ca20343e21cbdc766983979d82687a607f95818b947e605a45afbbb1ae44564c53b9ada7b852471d02e8fcf6e903110b14feeae0ff150b312ec4d0dac52f3d2738d2c6ccd3392e849b71656f709a88928d677379668c92a8b75d49435cb6a4bea14b5f554aa0b,
  0x00a259fbb210eb4979db2082cb699230f250ab0940e219bb8b29d270399b60c2f95ba0024be912b08022d97b32906bc90ba952f0b91be04272d02b89c062993bef4db6145dff04a69634cf6d24867ddf1dbf44e6af0df65464c63d9fd6748f2d16b44feda406fd5f6fcd3694dd7f8426e446bd1f56f40fad9d3fc4662f8d76d4c3619a3871d3288aba18e34108aa51f3319368ca8321da7848ea11b3fa58a3013a9863c1882ad17343e11ab8f153a80ac86a91337ad82381b113e84a03a15af82c8e75d79e3cc76555f70caee745be1cde7c87256cce3597a705fe5c15b74ceed5778c2e67c53e9cac0ef5571ebc47e527857edc9537cc6e5efc07a5ec4eb517,
  0x00a35bf8b615ed4e71d22a89c7649c3fe241b91a54f70fac9330c86b25867eddd97a82216fcc3497a80bf3501ebd45e63b9860c38d2ed6754ae911b2fc5fa704af0cf45719ba42e1de7d852668cb33904dee16b5fb58a0033c9f67c48a29d17276d52d8ec0639b3807a45cffb112ea499437cf6c228179dae546be1d53f008ab43e018bbf556ae0d329169ca8427df7ca102fa5917b44cefd0738b2866c53d9e9a39c1622c8f77d4eb48b0135dfe06a578db2380ce6d953609aa52f1bf1ce447ec4fb7145af901a29d3ec6652b8870d30ead55f6b81be3407fdc2487c96a923135966ecd8320d87b44e71fbcf251a90ad7748c2f61c23a99a605fd5e10b34be8,
  0x00a455f1aa0eff5b49ed1cb8e347b6129236c763389c6dc9db7f8e2a71d52480399d6cc89337c66270d42581da7e8f2bab0ffe5a01a554f0e246b71348ec1db972d62783d87c8d293b9f6eca9135c460e044b5114aee1fbba90dfc5803a756f24bef1ebae145b41002a657f3a80cfd59d97d8c2873d726829034c5613a9e6fcbe440b1154eea1bbfad09f85c07a352f676d22387dc78892d3f9b6ace9531c064dd79882c77d322869430c1653e9a6bcf4feb1abee541b01406a253f7ac08f95d9632c3673c9869cddf7b8a2e75d1208404a051f5ae0afb5f4de918bce743b216af0bfa5e05a150f4e642b3174ce819bd3d9968cc9733c26674d02185de7a8b2f,
  0x00a557f2ae0bf95c41e416b3ef4ab81d8227d5702c897bdec36694316dc83a9f19bc4eebb712e04558fd0faaf653a1049b3ecc69359062c7da7f8d2874d12386329765c09c39cb6e73d62481dd788a2fb015e7421ebb49ecf154a6035ffa08ad2b8e7cd98520d2776acf3d98c4619336a90cfe5b07a250f5e84dbf1a46e311b464c13396ca6f9d38258072d78b2edc79e643b11448ed1fbaa702f05509ac5efb7dd82a8fd37684213c996bce9237c560ff5aa80d51f406a3be1be94c10b547e256f301a4f85daf0a17b240e5b91cee4bd47183267adf2d889530c2673b9e6cc94fea18bde144b6130eab59fca005f752cd689a3f63c634918c29db7e228775d0,
  0x00a651f7a204f35559ff08aefb5daa0cb214e34510b641e7eb4dba1c49ef18be79df288edb7d8a2c208671d78224d375cb6d9a3c69cf389e9234c365309661c7f254a30550f601a7ab0dfa5c09af58fe40e611b7e244b31519bf48eebb1dea4c8b2dda7c298f78ded274832570d62187399f68ce9b3dca6c60c63197c2649335f95fa80e5bfd0aaca006f15702a453f54bed1abce94fb81e12b443e5b016e1478026d177228473d5d97f882e7bdd2a8c329463c59036c1676bcd3a9cc96f983e0bad5afca90ff85e52f403a5f056a107b91fe84e1bbd4aece046b11742e413b572d42385d07681272b8d7adc892fd87ec066913762c43395993fc86e3b9d6acc,
  0x00a753f4a601f55251f602a5f750a403a205f15604a357f0f354a00755f206a159fe0aadff58ac0b08af5bfcae09fd5afb5ca80f5dfa0ea9aa0df95e0cab5ff8b215e14614b347e0e344b01745e216b110b743e4b611e54241e612b5e740b413eb4cb81f4dea1eb9ba1de94e1cbb4fe849ee1abdef48bc1b18bf4becbe19ed4a79de2a8ddf788c2b288f7bdc8e29dd7adb7c882f7dda2e898a2dd97e2c8b7fd8208773d48621d57271d62285d77084238225d176248377d0d374802775d22681cb6c983f6dca3e999a3dc96e3c9b6fc869ce3a9dcf689c3b389f6bcc9e39cd6a9235c166349367c0c364903765c23691309763c49631c56261c63295c7609433,
  0x00a84de59a32d77f298164ccb31bfe5652fa1fb7c860852d7bd3369ee149ac04a40ce9413e9673db8d25c06817bf5af2f65ebb136cc42189df77923a45ed08a055fd18b0cf67822a7cd43199e64eab0307af4ae29d35d0782e8663cbb41cf951f159bc146bc3268ed870953d42ea0fa7a30bee46399174dc8a22c76f10b85df5aa02e74f30987dd5832bce6619b154fcf850b51d62ca2f87d1799c344be306ae0ea643eb943cd971278f6ac2bd15f0585cf411b9c66e8b2375dd3890ef47a20aff57b21a65cd2880d67e9b334ce401a9ad05e048379f7ad2842cc9611eb653fb5bf316bec1698c2472da3f97e840a50d09a144ec933bde7620886dc5ba12f75f,
  0x00a94fe69e37d17821886ec7bf16f05942eb0da4dc75933a63ca2c85fd54b21b842dcb621ab355fca50cea433b9274ddc66f892058f117bee74ea80179d0369f15bc5af38b22c46d349d7bd2aa03e54c57fe18b1c960862f76df3990e841a70e9138de770fa640e9b019ff562e8761c8d37a9c354de402abf25bbd146cc5238a2a8365ccb41dfb520ba244ed953cda7368c1278ef65fb91049e006afd77e9831ae07e14830997fd68f26c06911b85ef7ec45a30a72db3d94cd64822b53fa1cb53f9670d9a108ee471eb751f88029cf667dd4329be34aac055cf513bac26b8d24bb12f45d258c6ac39a33d57c04ad4be2f950b61f67ce2881d871973e46ef09a0,
  0x00aa49e39238db71399370daab01e24872d83b91e04aa9034be102a8d973903ae44ead0776dc3f95dd77943e4fe506ac963cdf7504ae4de7af05e64c3d9774ded57f9c3647ed0ea4ec46a50f7ed4379da70dee44359f7cd69e34d77d0ca645ef319b78d2a309ea4008a241eb9a30d37943e90aa0d17b98327ad03399e842a10bb71dfe54258f6cc68e24c76d1cb655ffc56f8c2657fd1eb4fc56b51f6ec4278d53f91ab0c16b88226ac02389f852b11b218b68c2b319fa5018b251fb8a20c36962c82b81f05ab9135bf112b8c963802a10ba59f38228cb61298360cabb11f258862ccf6514be5df7bf15f65c2d8764cef45ebd1766cc2f85cd67842e5ff516bc,
  0x00ab4be0963ddd76319a7ad1a70cec4762c92982f45fbf1453f818b3c56e8e25c46f8f2452f919b2f55ebe1563c82883a60ded46309b7bd0973cdc7701aa4ae1953ede7503a848e3a40fef44329979d2f75cbc1761ca2a81c66d8d2650fb1bb051fa1ab1c76c8c2760cb2b80f65dbd16339878d3a50eee4502a949e2943fdf74379c7cd7a10aea4106ad4de6903bdb7055fe1eb5c368882364cf2f84f259b912f358b81365ce2e85c269892254ff1fb4913ada7107ac4ce7a00beb40369d7dd6a209e942349f7fd49338d87305ae4ee5c06b8b2056fd1db6f15aba1167cc2c8766cd2d86f05bbb1057fc1cb7c16a8a2104af4fe49239d972359e7ed5a308e843,
  0x00ac45e98a26cf6309a54ce0832fc66a12be57fb9834dd711bb75ef2913dd478248861cdae02eb472d8168c4a70be24e369a73dfbc10f9553f937ad6b519f05c48e40da1c26e872b41ed04a8cb678e225af61fb3d07c953953ff16bad9759c306cc02985e64aa30f65c9208cef43aa067ed23b97f458b11d77db329efd51b814903cd5791ab65ff39935dc7013bf56fa822ec76b08a44de18b27ce6201ad44e8b418f15d3e927bd7bd11f854379b72dea60ae34f2c8069c5af03ea46258960ccd8749d3152fe17bbd17d94385bf71eb2ca668f2340ec05a9c36f862a49e50ca0fc50b91576da339ff559b01c7fd33a96ee42ab0764c8218de74ba20e6dc12884,
  0x00ad47ea8e23c96401ac46eb8f22c86502af45e88c21cb6603ae44e98d20ca6704a943ee8a27cd6005a842ef8b26cc6106ab41ec8825cf6207aa40ed8924ce6308a54fe2862bc16c09a44ee3872ac06d0aa74de08429c36e0ba64ce18528c26f0ca14be6822fc5680da04ae7832ec4690ea349e4802dc76a0fa248e5812cc66b10bd57fa9e33d97411bc56fb9f32d87512bf55f89c31db7613be54f99d30da7714b953fe9a37dd7015b852ff9b36dc7116bb51fc9835df7217ba50fd9934de7318b55ff2963bd17c19b45ef3973ad07d1ab75df09439d37e1bb65cf19538d27f1cb15bf6923fd5781db05af7933ed4791eb359f4903dd77a1fb258f5913cd67b,
  0x00ae41ef822cc36d19b758f69b35da74329c73ddb01ef15f2b856ac4a907e84664ca258be648a7097dd33c92ff51be1056f817b9d47a953b4fe10ea0cd638c22c86689274ae40ba5d17f903e53fd12bcfa54bb1578d63997e34da20c61cf208eac02ed432e806fc1b51bf45a379976d89e30df711cb25df38729c66805ab44ea8d23cc620fa14ee0943ad57b16b857f9bf11fe503d937cd2a608e749248a65cbe947a8066bc52a84f05eb11f72dc339ddb759a3459f718b6c26c832d40ee01af45eb04aac76986285cf21db3de709f3177d93698f55bb41a6ec02f81ec42ad03218f60cea30de24c389679d7ba14fb5513bd52fc913fd07e0aa44be58826c967,
  0x00af43ec8629c56a11be52fd9738d47b228d61cea40be748339c70dfb51af65944eb07a8c26d812e55fa16b9d37c903f66c9258ae04fa30c77d8349bf15eb21d8827cb640ea14de29936da751fb05cf3aa05e9462c836fc0bb14f8573d927ed1cc638f204ae509a6dd729e315bf418b7ee41ad0268c72b84ff50bc1379d63a950da24ee18b24c8671cb35ff09a35d9762f806cc3a906ea453e917dd2b817fb5449e60aa5cf608c2358f71bb4de719d326bc42887ed42ae017ad53996fc53bf10852ac66903ac40ef943bd77812bd51fea708e44b218e62cdb619f55a309f73dcc16e822d47e804abd07f933c56f915bae34ca00f65ca2689f25db11e74db3798,
  0x00b07dcdfa4a8737e959942413a36edecf7fb202358548f826965bebdc6ca1118333fe4e79c904b46ada17a79020ed5d4cfc3181b606cb7ba515d8685fef22921bab66d6e1519c2cf2428f3f08b875c5d464a9192e9e53e33d8d40f0c777ba0a9828e55562d21faf71c10cbc8b3bf64657e72a9aad1dd060be0ec37344f4398936864bfbcc7cb101df6fa212259558e8f949843403b37ece10a06dddea5a9727b505c8784fff32825cec2191a616db6b7aca07b78030fd4d9323ee5e69d914a42d9d50e0d767aa1ac474b9093e8e43f3e2529f2f18a865d50bbb76c6f1418c3cae1ed36354e4299947f73a8abd0dc07061d11cac9b2be6568838f54572c20fbf,
  0x00b17fcefe4f8130e1509e2f1fae60d1df6ea01121905eef3e8f41f0c071bf0ea312dc6d5dec229342f33d8cbc0dc3727ccd03b28233fd4c9d2ce25363d21cad5bea2495a514da6bba0bc57444f53b8a8435fb4a7acb05b465d41aab9b2ae455f849873606b779c819a866d7e7569829279658e9d968a617c677b908388947f6b607c97848f9378657e62899a918d66769d816a79726e8598839f74676c709b815a46adbeb5a9425f4458b3a0abb75c4ca7bb50434854bfa2b9a54e5d564aa1bed5c922313a26cdd0cbd73c2f2438d3c32834dfccc7db302d362ac1d2d9c52e34eff3180b001cf7eaf1ed06151e02e9f9120ee5f6fde10a170c10fbe8e3ff140,
  0x00b279cbf2408b39f94b80320bb972c0ef5d96241daf64d616a46fdde4569d2fc371ba08318348fa3a8843f1c87ab1032c9e55e7de6ca715d567ac1e27955eec9b29e25069db10a262d01ba99022e95b74c60dbf8634ff4d8d3ff4467fcd06b458ea2193aa18d361a113d86a53e12a98b705ce7c45f73c8e4efc3785bc0ec5772b9952e0d96ba012d260ab19209259ebc476bd0f36844ffd3d8f44f6cf7db604e85a91231aa863d111a368dae3519a2807b57eccf5478c3efe4c87350cbe75c7b002c97b42f03b8949fb3082bb09c2705fed2694ad1fd466a614df6d54e62d9f73c10ab88133f84a8a38f34178ca01b39c2ee5576edc17a565d71cae9725ee5c,
  0x00b37bc8f6458d3ef1428a3907b47ccfff4c843709ba72c10ebd75c6f84b8330e350982b15a66edd12a169dae4579f2c1caf67d4ea599122ed5e96251ba860d3db68a0132d9e56e52a9951e2dc6fa71424975fecd261a91ad566ae1d239058eb388b43f0ce7db506c97ab2013f8c44f7c774bc0f31824af936854dfec073bb08ab18d0635dee26955ae92192ac1fd76454e72f9ca211d96aa516de6d53e0289b48fb3380be0dc576b90ac2714ffc3487b704cc7f41f23a8946f53d8eb003cb7870c30bb88635fd4e8132fa4977c40cbf8f3cf44779ca02b17ecd05b6883bf3409320e85b65d61ead62d119aa9427ef5c6cdf17a49a29e1529d2ee6556bd810a3,
  0x00b475c1ea5e9f2bc97dbc08239756e28f3bfa4e65d110a446f23387ac18d96d03b776c2e95d9c28ca7ebf0b209455e18c38f94d66d213a745f13084af1bda6e06b273c7ec58992dcf7bba0e259150e4893dfc4863d716a240f43581aa1edf6b05b170c4ef5b9a2ecc78b90d269253e78a3eff4b60d415a143f73682a91ddc680cb879cde6529327c571b0042f9b5aee8337f64269dd1ca84afe3f8ba014d5610fbb7acee5519024c672b3072c9859ed8034f5416ade1fab49fd3c88a317d6620abe7fcbe0549521c377b602299d5ce88531f0446fdb1aae4cf8398da612d36709bd7cc8e3579622c074b5012a9e5feb8632f3476cd819ad4ffb3a8ea511d064,
  0x00b577c2ee5b992cc174b6032f9a58ed9f2ae85d71c406b35eeb299cb005c772239654e1cd78ba0fe25795200cb97bcebc09cb7e52e725907dc80abf9326e45146f33184a81ddf6a8732f04569dc1eabd96cae1b378240f518ad6fdaf643813465d012a78b3efc49a411d3664aff3d88fa4f8d3814a163d63b8e4cf9d560a2178c39fb4e62d715a04df83a8fa316d46113a664d1fd488a3fd267a5103c894bfeaf1ad86d41f436836edb19ac8035f742308547f2de6ba91cf14486331faa68ddca7fbd08249153e60bbe7cc9e550922755e02297bb0ecc799421e3567acf0db8e95c9e2b07b270c5289d5feac673b10476c301b4982def5ab702c07559ec2e9b,
  0x00b671c7e2549325d96fa81e3b8d4afcaf19de684dfb3c8a76c007b19422e55343f53284a117d0669a2ceb5d78ce09bfec5a9d2b0eb87fc9358344f2d761a6108630f74164d215a35fe92e98bd0bcc7a299f58eecb7dba0cf046813712a463d5c573b402279156e01caa6ddbfe488f396adc1bad883ef94fb305c27451e7209611a760d6f3458234c87eb90f2a9c5bedbe08cf795cea2d9b67d116a08533f44252e42395b006c1778b3dfa4c69df18aefd4b8c3a1fa96ed8249255e3c670b7019721e65075c304b24ef83f89ac1add6b388e49ffda6cab1de157902603b572c4d462a513368047f10dbb7ccaef599e287bcd0abc992fe85ea214d36540f63187,
  0x00b773c4e6519522d166a215378044f3bf08cc7b59ee2a9d6ed91daa883ffb4c63d410a78532f641b205c17654e32790dc6baf183a8d49fe0dba7ec9eb5c982fc671b502209753e417a064d3f146823579ce0abd9f28ec5ba81fdb6c4ef93d8aa512d66143f4308774c307b09225e1561aad69defc4b8f38cb7cb80f2d9a5ee99126e25577c004b340f73384a611d5622e995deac87fbb0cff488c3b19ae6addf245813614a367d0239450e7c572b6014dfa3e89ab1cd86f9c2bef587acd09be57e02493b106c2758631f54260d713a4e85f9b2c0eb97dca398e4afddf68ac1b348347f0d265a116e552962103b470c78b3cf84f6dda1ea95aed299ebc0bcf78,
  0x00b86dd5da62b70fa911c47c73cb1ea64ff7229a952df840e65e8b333c8451e99e26f34b44fc2991378f5ae2ed558038d169bc040bb366de78c015ada21acf7721994cf4fb43962e8830e55d52ea3f876ed603bbb40cd961c77faa121da570c8bf07d26a65dd08b016ae7bc3cc74a119f0489d252a9247ff59e1348c833bee5642fa2f979820f54deb53863e31895ce40db560d8d76fba02a41cc9717ec613abdc64b10906be6bd375cd18a0af17c27a932bfe4649f1249c3a8257efe0588d3563db0eb6b901d46cca72a71f10a87dc52c9441f9f64e9b23853de8505fe7328afd459028279f4af254ec39818e36e35bb20adf6768d005bd1ba376cec179ac14,
  0x00b96fd6de67b108a118ce777fc610a95fe630898138ee57fe47912820994ff6be07d16860d90fb61fa670c9c178ae17e1588e373f8650e940f92f969e27f14861d80eb7bf06d069c079af161ea771c83e8751e8e0598f369f26f04941f82e97df66b00901b86ed77ec711a8a019cf768039ef565ee7318821984ef7ff469029c27bad141ca573ca63da0cb5bd04d26b9d24f24b43fa2c953c8553eae25b8d347cc513aaa21bcd74dd64b20b03ba6cd5239a4cf5fd44922b823bed545ce5338aa31acc757dc412ab02bb6dd4dc65b30afc45932a229b4df45de4328b833aec551da472cbc37aac15bc05d36a62db0db442fb2d949c25f34ae35a8c353d8452eb,
  0x00ba69d3d268bb01b903d06a6bd102b86fd506bcbd07d46ed66cbf0504be6dd7de64b70d0cb665df67dd0eb4b50fdc66b10bd86263d90ab008b261dbda60b309a11bc87273c91aa018a271cbca70a319ce74a71d1ca675cf77cd1ea4a51fcc767fc516acad17c47ec67caf1514ae7dc710aa79c3c278ab11a913c07a7bc112a85fe5368c8d37e45ee65c8f35348e5de7308a59e3e2588b318933e05a5be13288813be85253e93a80388251ebea508339ee54873d3c8655ef57ed3e84853fec56fe44972d2c9645ff47fd2e94952ffc46912bf84243f92a90289241fbfa409329209a49f3f2489b219923f04a4bf122984ff5269c9d27f44ef64c9f25249e4df7,
  0x00bb6bd0d66dbd06b10ada6167dc0cb77fc414afa912c279ce75a51e18a373c8fe45952e289343f84ff4249f9922f249813aea5157ec3c87308b5be0e65d8d36e15a8a31378c5ce750eb3b80863ded569e25f54e48f323982f9444fff94292291fa474cfc972a219ae15c57e78c313a860db0bb0b60ddd66d16aba0107bc6cd7df64b40f09b262d96ed505beb803d368a01bcb7076cd1da611aa7ac1c77cac17219a4af1f74c9c27902bfb4046fd2d965ee5358e8833e358ef54843f398252e93e8555eee85383388f34e45f59e2328941fa2a91972cfc47f04b9b20269d4df6c07bab1016ad7dc671ca1aa1a71ccc77bf04d46f69d202b90eb565ded863b308,
  0x00bc65d9ca76af138935ec5043ff269a0fb36ad6c579a01c863ae35f4cf029951ea27bc7d468b10d972bf24e5de1388411ad74c8db67be029824fd4152ee378b3c8059e5f64a932fb509d06c7fc31aa6338f56eaf9459c20ba06df6370cc15a9229e47fbe8548d31ab17ce7261dd04b82d9148f4e75b823ea418c17d6ed20bb778c41da1b20ed76bf14d94283b875ee277cb12aebd01d864fe429b27348851ed66da03bfac10c975ef538a36259940fc69d50cb0a31fc67ae05c85392a964ff344f8219d8e32eb57cd71a81407bb62de4bf72e92813de458c27ea71b08b46dd15ae63f83902cf549d36fb60a19a57cc055e9308c9f23fa46dc60b90516aa73cf,
  0x00bd67dace73a914813ce65b4ff228951fa278c5d16cb60b9e23f94450ed378a3e8359e4f04d972abf02d86571cc16ab219c46fbef528835a01dc77a6ed309b47cc11ba6b20fd568fd409a27338e54e963de04b9ad10ca77e25f85382c914bf642ff25988c31eb56c37ea4190db06ad75de03a87932ef449dc61bb0612af75c8f8459f22368b51ec79c41ea3b70ad06de75a803d29944ef366db01bca815cf72c67ba11c08b56fd247fa209d8934ee53d964be0317aa70cd58e53f82962bf14c8439e35e4af72d9005b862dfcb76ac119b26fc4155e8328f1aa77dc0d469b30eba07dd6074c913ae3b865ce1f548922fa518c27f6bd60cb1249943feea578d30,
  0x00be61dfc27ca31d9927f8465be53a842f914ef0ed538c32b608d76974ca15ab5ee03f819c22fd43c779a61805bb64da71cf10aeb30dd26ce85689372a944bf5bc02dd637ec01fa1259b44fae7598638932df24c51ef308e0ab46bd5c876a917e25c833d209e41ff7bc51aa4b907d866cd73ac120fb16ed054ea358b9628f74965db04baa719c678fc429d233e805fe14af42b958836e957d36db20c11af70ce3b855ae4f9479826a21cc37d60de01bf14aa75cbd668b7098d33ec524ff12e90d967b8061ba57ac440fe219f823ce35df6489729348a55eb6fd10eb0ad13cc728739e65845fb249a1ea07fc1dc62bd03a816c9776ad40bb5318f50eef34d922c,
  0x00bf63dcc679a51a912ef24d57e8348b3f805ce3f9469a25ae11cd7268d70bb47ec11da2b807db64ef508c3329964af541fe229d8738e45bd06fb30c16a975cafc439f203a8559e66dd20eb1ab14c877c37ca01f05ba66d952ed318e942bf748823de15e44fb279813ac70cfd56ab609bd02de617bc418a72c934ff0ea558936e55a8639239c40ff74cb17a8b20dd16eda65b9061ca37fc04bf428978d32ee519b24f8475de23e810ab569d6cc73af10a41bc77862dd01be358a56e9f34c902f19a67ac5df60bc038837eb544ef12d92269945fae05f833cb708d46b71ce12ad67d804bba11ec27df649952a308f53ec58e73b849e21fd42c976aa150fb06cd3,
  0x00c09d5d27e7ba7a4e8ed31369a9f4349c5c01c1bb7b26e6d2124f8ff53568a825e5b87802c29f5f6babf6364c8cd111b97924e49e5e03c3f7376aaad0104d8d4a8ad7176dadf03004c4995923e3be7ed6164b8bf1316cac985805c5bf7f22e26faff2324888d51521e1bc7c06c69b5bf3336eaed4144989bd7d20e09a5a07c7945409c9b3732eeeda1a4787fd3d60a008c895552fefb2724686db1b61a1fc3cb1712cec96560bcbff3f62a2d81845852dedb0700aca975763a3fe3e4484d919de1e4383f93964a490500dcdb7772aea4282df1f65a5f8380ccc91512bebb676fb3b66a6dc1c4181b57528e892520fcf67a7fa3a4080dd1d29e9b4740ece9353,
  0x00c19f5e23e2bc7d4687d91865a4fa3b8c4d13d2af6e30f1ca0b5594e92876b705c49a5b26e7b9784382dc1d60a1ff3e894816d7aa6b35f4cf0e5091ec2d73b20acb955429e8b6774c8dd3126faef031864719d8a5643afbc0015f9ee3227cbd0fce90512cedb3724988d6176aabf53483421cdda0613ffec5045a9be62779b814d58b4a37f6a8695293cd0c71b0ee2f985907c6bb7a24e5de1f4180fd3c62a311d08e4f32f3ad6c5796c80974b5eb2a9d5c02c3be7f21e0db1a4485f83967a61edf81403dfca2635899c7067bbae42592530dccb1702eefd4154b8af73668a91bda844538f9a7665d9cc2037ebfe120975608c9b4752bead1104e8ff2336dac,
  0x00c2995b2fedb6745e9cc70571b3e82abc7e25e793510ac8e2207bb9cd0f549665a7fc3e4a88d3113bf9a26014d68d4fd91b4082f6346fad87451edca86a31f3ca085391e5277cbe94560dcfbb7922e076b4ef2d599bc00228eab17307c59e5caf6d36f4804219dbf13368aade1c478513d18a483cfea5674d8fd41662a0fb39894b10d2a6643ffdd7154e8cf83a61a335f7ac6e1ad883416ba9f2304486dd1fec2e75b7c3015a98b2702be99d5f04c65092c90b7fbde6240ecc975521e3b87a4381da186caef5371ddf844632f0ab69ff3d66a4d012498ba16338fa8e4c17d526e4bf7d09cb905278bae1235795ce0c9a5803c1b5772ceec4065d9feb2972b0,
  0x00c39b582be8b0735695cd0e7dbee625ac6f37f487441cdffa3961a2d1124a894586de1d6eadf53613d0884b38fba360e92a72b1c201599abf7c24e794570fcc8a4911d2a1623af9dc1f4784f7346caf26e5bd7e0dce965570b3eb285b98c003cf0c5497e4277fbc995a02c1b27129ea63a0f83b488bd31035f6ae6d1edd854609ca925122e1b97a5f9cc40774b7ef2ca5663efd8e4d15d6f33068abd81b43804c8fd71467a4fc3f1ad9814231f2aa69e0237bb8cb085093b6752dee9d5e06c5834018dba86b33f0d5164e8dfe3d65a62fecb47704c79f5c79bae2215291c90ac6055d9eed2e76b590530bc8bb7820e36aa9f1324182da193cffa76417d48c4f,
  0x00c4955137f3a2666eaafb3f599dcc08dc18498deb2f7ebab27627e3854110d4a56130f4925607c3cb0f5e9afc3869ad79bdec284e8adb1f17d3824620e4b5715793c20660a4f53139fdac680eca9b5f8b4f1edabc7829ede52170b4d2164783f23667a3c50150949c5809cdab6f3efa2eeabb7f19dd8c484084d51177b3e226ae6a3bff995d0cc8c0045591f73362a672b6e7234581d0141cd8894d2befbe7a0bcf9e5a3cf8a96d65a1f0345296c703d7134286e02475b1b97d2ce88e4a1bdff93d6ca8ce0a5b9f975302c6a06435f125e1b07412d687434b8fde1a7cb8e92d5c98c90d6baffe3a32f6a76305c19054804415d1b77322e6ee2a7bbfd91d4c88,
  0x00c5975233f6a46166a3f1345590c207cc095b9eff3a68adaa6f3df8995c0ecb854012d7b67321e4e32674b1d0154782498cde1b7abfed282feab87d1cd98b4e17d2804524e1b37671b4e6234287d510db1e4c89e82d7fbabd782aef8e4b19dc925705c0a16436f3f43163a6c70250955e9bc90c6da8fa3f38fdaf6a0bce9c592eebb97c1dd88a4f488ddf1a7bbeec29e22775b0d1144683844113d6b77220e5ab6e3cf9985d0fcacd085a9ffe3b69ac67a2f0355491c30601c4965332f7a56039fcae6b0acf9d585f9ac80d6ca9fb3ef53062a7c6035194935604c1a06537f2bc792bee8f4a18ddda1f4d88e92c7ebb70b5e7224386d41116d3814425e0b277,
  0x00c691573ff9ae687eb8ef294187d016fc3a6dabc3055294824413d5bd7b2ceae52374b2da1c4b8d9b5d0acca46235f319df884e26e0b77167a1f630589ec90fd7114680e82e79bfa96f38fe965007c12bedba7c14d285435593c4026aacfb3d32f4a3650dcb9c5a4c8add1b73b5e224ce085f99f13760a6b07621e78f491ed8b37522e48c4a1ddbcd0b5c9af23463a54f89de1870b6e12731f7a0660ec89f595690c70169aff83e28eeb97f17d18640aa6c3bfd955304c2d4124583eb2d7abc64a2f5335b9dca0c1adc8b4d25e3b472985e09cfa76136f0e62077b1d91f488e814710d6be782fe9ff396ea8c00651977dbbec2a4284d31503c592543cfaad6b,
  0x00c793543bfca86f76b1e5224d8ade19ec2b7fb8d71044839a5d09cea16632f5c5025691fe396daab37420e7884f1bdc29eeba7d12d581465f98cc0b64a3f730975004c3ac6b3ff8e12672b5da1d498e7bbce82f4087d3140dca9e5936f1a5625295c10669aefa3d24e3b7701fd88c4bbe792dea854216d1c80f5b9cf33460a733f4a06708cf9b5c4582d6117eb9ed2adf184c8be42377b0a96e3afd925501c6f63165a2cd0a5e99804713d4bb7c28ef1add894e21e6b2756cabff385790c403a46337f09f580ccbd2154186e92e7abd488fdb1c73b4e0273ef9ad6a05c2965161a6f2355a9dc90e17d084432cebbf788d4a1ed9b67125e2fb3c68afc0075394,
  0x00c88d4507cf8a420ec6834b09c1844c1cd491591bd3965e12da9f5715dd985038f0b57d3ff7b27a36febb7331f9bc7424eca96123ebae662ae2a76f2de5a06870b8fd3577bffa327eb6f33b79b1f43c6ca4e1296ba3e62e62aaef2765ade8204880c50d4f87c20a468ecb034189cc04549cd911539bde165a92d71f5d95d018e0286da5e72f6aa2ee2663abe92164acfc3471b9fb3376bef23a7fb7f53d78b0d810559ddf17529ad61e5b93d1195c94c40c4981c30b4e86ca02478fcd05408890581dd5975f1ad29e5613db995114dc8c4401c98b4306ce824a0fc7854d08c0a86025edaf6722eaa66e2be3a1692ce4b47c39f1b37b3ef6ba7237ffbd7530f8,
  0x00c98f4603ca8c4506cf894005cc8a430cc5834a0fc680490ac3854c09c0864f18d1975e1bd2945d1ed791581dd4925b14dd9b5217de985112db9d5411d89e5730f9bf7633fabc7536ffb97035fcba733cf5b37a3ff6b0793af3b57c39f0b67f28e1a76e2be2a46d2ee7a1682de4a26b24edab6227eea86122ebad6421e8ae6760a9ef2663aaec2566afe92065acea236ca5e32a6fa6e0296aa3e52c69a0e62f78b1f73e7bb2f43d7eb7f1387db4f23b74bdfb3277bef83172bbfd3471b8fe375099df16539adc15569fd910559cda135c95d31a5f96d0195a93d51c5990d61f4881c70e4b82c40d4e87c1084d84c20b448dcb02478ec801428bcd044188ce07,
  0x00ca89430fc5864c1ed4975d11db98523cf6b57f33f9ba7022e8ab612de7a46e78b2f13b77bdfe3466acef2569a3e02a448ecd074b81c2085a90d319559fdc16f03a79b3ff3576bcee2467ade12b68a2cc06458fc3094a80d2185b91dd17549e884201cb874d0ec4965c1fd5995310dab47e3df7bb7132f8aa6023e9a56f2ce6fd3774bef2387bb1e3296aa0ec2665afc10b4882ce04478ddf15569cd01a5993854f0cc68a4003c99b5112d8945e1dd7b97330fab67c3ff5a76d2ee4a86221eb0dc7844e02c88b4113d99a501cd6955f31fbb8723ef4b77d2fe5a66c20eaa96375bffc367ab0f3396ba1e22864aeed274983c00a468ccf05579dde145892d11b,
  0x00cb8b400bc0804b16dd9d561dd6965d2ce7a76c27ecac673af1b17a31faba715893d3185398d8134e85c50e458ece0574bfff347fb4f43f62a9e92269a2e229b07b3bf0bb7030fba66d2de6ad6626ed9c5717dc975c1cd78a4101ca814a0ac1e82363a8e32868a3fe3575bef53e7eb5c40f4f84cf04448fd2195992d91252997db6f63d76bdfd366ba0e02b60abeb20519ada115a91d11a478ccc074c87c70c25eeae652ee5a56e33f8b87338f3b37809c2824902c989421fd4945f14df9f54cd06468dc60d4d86db10509bd01b5b90e12a6aa1ea2161aaf73c7cb7fc3777bc955e1ed59e5515de834808c3884303c8b97232f9b27939f2af6424efa46f2fe4,
  0x00cc854917db925e2ee2ab6739f5bc705c90d9154b87ce0272bef73b65a9e02cb8743df1af632ae6965a13df814d04c8e42861adf33f76baca064f83dd1158946da1e8247ab6ff33438fc60a5498d11d31fdb47826eaa36f1fd39a5608c48d41d519509cc20e478bfb377eb2ec2069a589450cc09e521bd7a76b22eeb07c35f9da165f93cd014884f43871bde32f66aa864a03cf915d14d8a8642de1bf733af662aee72b75b9f03c4c80c9055b97de123ef2bb7729e5ac6010dc955907cb824eb77b32fea06c25e999551cd08e420bc7eb276ea2fc3079b5c509408cd21e579b0fc38a4618d49d5121eda46836fab37f539fd61a4488c10d7db1f8346aa6ef23,
  0x00cd874a13de945926eba16c35f8b27f4c81cb065f92d8156aa7ed2079b4fe3398551fd28b460cc1be7339f4ad602ae7d419539ec70a408df23f75b8e12c66ab2de0aa673ef3b9740bc68c4118d59f5261ace62b72bff538478ac00d5499d31eb57832ffa66b21ec935e14d9804d07caf9347eb3ea276da0df125895cc014b865a97dd104984ce037cb1fb366fa2e82516db915c05c8824f30fdb77a23eea469c20f4588d11c569be42963aef73a70bd8e4309c49d501ad7a8652fe2bb763cf177baf03d64a9e32e519cd61b428fc5083bf6bc7128e5af621dd09a570ec38944ef2268a5fc317bb6c9044e83da175d90a36e24e9b07d37fa854802cf965b11dc,
  0x00ce814f1fd19e503ef0bf7121efa06e7cb2fd3363ade22c428cc30d5d93dc12f83679b7e72966a8c6084789d9175896844a05cb9b551ad4ba743bf5a56b24eaed236ca2f23c73bdd31d529ccc024d83915f10de8e400fc1af612ee0b07e31ff15db945a0ac48b452be5aa6434fab57b69a7e82676b8f7395799d6184886c907c7094688d8165997f93778b6e62867a9bb753af4a46a25eb854b04ca9a541bd53ff1be7020eea16f01cf804e1ed09f51438dc20c5c92dd137db3fc3262ace32d2ae4ab6535fbb47a14da955b0bc58a445698d7194987c80668a6e92777b9f638d21c539dcd034c82ec226da3f33d72bcae602fe1b17f30fe905e11df8f410ec0,
  0x00cf834c1bd4985736f9b57a2de2ae616ca3ef2077b8f43b5a95d916418ec20dd8175b94c30c408fee216da2f53a76b9b47b37f8af602ce3824d01ce99561ad5ad622ee1b67935fa9b5418d7804f03ccc10e428dda155996f73874bbec236fa075baf6396ea1ed22438cc00f5897db1419d69a5502cd814e2fe0ac6334fbb7784788c40b5c93df1071bef23d6aa5e9262be4a86730ffb37c1dd29e5106c9854a9f501cd3844b07c8a9662ae5b27d31fef33c70bfe8276ba4c50a4689de115d92ea2569a6f13e72bddc135f90c708448b864905ca9d521ed1b07f33fcab6428e732fdb17e29e6aa6504cb87481fd09c535e91dd12458ac60968a7eb2473bcf03f,
  0x00d0bd6d67b7da0ace1e73a3a97914c481513cece6365b8b4f9ff22228f895451fcfa27278a8c515d1016cbcb6660bdb9e4e23f3f92944945080ed3d37e78a5a3eee83535989e434f0204d9d97472afabf6f02d2d80865b571a1cc1c16c6ab7b21f19c4c4696fb2bef3f5282885835e5a0701dcdc7177aaa6ebed30309d9b4647cacc1111bcba676b2620fdfd50568b8fd2d40909a4a27f733e38e5e5484e93963b3de0e04d4b969ad7d10c0ca1a77a7e2325f8f855538e82cfc91414b9bf6264292ff2f25f598488c5c31e1eb3b5686c3137eaea47419c90dddb0606abad7075d8de0303aea875793432efef4244999dc0c61b1bb6b06d612c2af7f75a5c818,
  0x00d1bf6e63b2dc0dc61779a8a5741acb91402efff2234d9c5786e83934e58b5a3fee80515c8de332f92846979a4b25f4ae7f11c0cd1c72a368b9d7060bdab4657eafc1101dcca273b86907d6db0a64b5ef3e50818c5d33e229f896474a9bf5244190fe2f22f39d4c875638e9e4355b8ad0016fbeb3620cdd16c7a97875a4ca1bfc2d43929f4e20f13aeb85545988e6376dbcd2030edfb160ab7a14c5c81977a6c3127cada0711fce05d4ba6b66b7d9085283ed3c31e08e5f94452bfaf726489982533dece1305e8f4495fb2a27f6984913c2ac7d70a1cf1ed5046abbb66709d8bd6c02d3de0f61b07baac41518c9a7762cfd93424f9ef021ea3b5584895836e7,
  0x00d2b96b6fbdd604de0c67b5b16308daa17318cace1c77a57fadc61410c2a97b5f8de63430e2895b815338eaee3c5785fe2c4795914328fa20f2994b4f9df624be6c07d5d10368ba60b2d90b0fddb6641fcda67470a2c91bc11378aaae7c17c5e133588a8e5c37e53fed86545082e93b4092f92b2ffd96449e4c27f5f123489a61b3d80a0edcb765bf6d06d4d00269bbc01279abaf7d16c41ecca77571a3c81a3eec87555183e83ae032598b8f5d36e49f4d26f4f022499b4193f82a2efc9745df0d66b4b06209db01d3b86a6ebcd7057eacc71511c3a87aa07219cbcf1d76a4805239ebef3d56845e8ce73531e3885a21f3984a4e9cf725ff2d4694904229fb,
  0x00d3bb686bb8d003d6056dbebd6e06d5b1620ad9da0961b267b4dc0f0cdfb7647facc41714c7af7ca97a12c1c21179aace1d75a6a5761ecd18cba37073a0c81bfe2d459695462efd28fb93404390f82b4f9cf42724f79f4c994a22f1f221499a81523ae9ea3951825784ec3f3cef875430e38b585b88e033e6355d8e8d5e36e5e1325a898a5931e237e48c5f5c8fe7345083eb383be8805386553deeed3e56859e4d25f6f5264e9d489bf32023f0984b2ffc94474497ff2cf92a4291924129fa1fcca47774a7cf1cc91a72a1a27119caae7d15c6c5167ead78abc31013c0a87b60b3db080bd8b063b6650ddedd0e66b5d1026ab9ba6901d207d4bc6f6cbfd704,
  0x00d4b56177a3c216ee3a5b8f994d2cf8c11574a0b66203d72ffb9a4e588ced399f4b2afee83c5d8971a5c41006d2b3675e8aeb3f29fd9c48b06405d1c71372a623f796425480e135cd1978acba6e0fdbe2365783954120f40cd8b96d7bafce1abc6809ddcb1f7eaa5286e73325f190447da9c81c0adebf6b934726f2e43051854692f32731e58450a87c1dc9df0b6abe875332e6f024459169bddc081ecaab7fd90d6cb8ae7a1bcf37e382564094f52118ccad796fbbda0ef6224397815534e065b1d00412c6a7738b5f3eeafc28499da47011c5d30766b24a9eff2b3de9885cfa2e4f9b8d5938ec14c0a17563b7d6023bef8e5a4c98f92dd50160b4a27617c3,
  0x00d5b76273a6c411e6335184954022f7d10466b3a27715c037e280554491f326bf6a08ddcc197bae598cee3b2aff9d486ebbd90c1dc8aa7f885d3feafb2e4c9963b6d40110c5a772855032e7f6234194b26705d0c11476a35481e33627f29045dc096bbeaf7a18cd3aef8d58499cfe2b0dd8ba6f7eabc91ceb3e5c89984d2ffac61371a4b56002d720f597425386e43117c2a07564b1d306f1244693825735e079acce1b0adfbd689f4a28fdec395b8ea87d1fcadb0e6cb94e9bf92c3de88a5fa57012c7d60361b44396f42130e5875274a1c31607d2b065924725f0e13456831acfad7869bcde0bfc294b9e8f5a38edcb1e7ca9b86d0fda2df89a4f5e8be93c,
  0x00d6b1677fa9ce18fe284f99815730e6e13750869e482ff91fc9ae7860b6d107df096eb8a07611c721f790465e88ef393ee88f594197f026c01671a7bf690ed8a37512c4dc0a6dbb5d8bec3a22f493454294f3253deb8c5abc6a0ddbc31572a47caacd1b03d5b264825433e5fd2b4c9a9d4b2cfae234538563b5d2041ccaad7b5b8dea3c24f29543a57314c2da0c6bbdba6c0bddc51374a24492f5233bed8a5c845235e3fb2d4a9c7aaccb1d05d3b46265b3d4021accab7d9b4d2afce4325583f82e499f875136e006d0b76179afc81e19cfa87e66b0d701e7315680984e29ff27f19640588ee93fd90f68bea67017c1c61077a1b96f08de38ee895f4791f620,
  0x00d7b3647bacc81ff62145928d5a3ee9f12642958a5d39ee07d0b4637cabcf18ff284c9b845337e009deba6d72a5c1160ed9bd6a75a2c611f82f4b9c835430e7e3345087984f2bfc15c2a6716eb9dd0a12c5a17669beda0de43357809f482cfb1ccbaf7867b0d403ea3d598e914622f5ed3a5e89964125f21bcca87f60b7d304db0c68bfa07713c42dfa9e495681e5322afd994e5186e235dc0b6fb8a77014c324f397405f88ec3bd20561b6a97e1acdd50266b1ae791dca23f49047588feb3c38ef8b5c4394f027ce197daab56206d1c91e7aadb26501d63fe88c5b4493f720c71074a3bc6b0fd831e682554a9df92e36e185524d9afe29c01773a4bb6c08df,
  0x00d8ad75479fea328e5623fbc91164bc01d9ac74469eeb338f5722fac81065bd02daaf77459de8308c5421f9cb1366be03dbae76449ce9318d5520f8ca1267bf04dca971439bee368a5227ffcd1560b805dda870429aef378b5326fecc1461b906deab734199ec34885025fdcf1762ba07dfaa724098ed35895124fcce1663bb08d0a57d4f97e23a865e2bf3c1196cb409d1a47c4e96e33b875f2af2c0186db50ad2a77f4d95e038845c29f1c31b6eb60bd3a67e4c94e139855d28f0c21a6fb70cd4a1794b93e63e825a2ff7c51d68b00dd5a0784a92e73f835b2ef6c41c69b10ed6a37b4991e43c80582df5c71f6ab20fd7a27a4890e53d81592cf4c61e6bb3,
  0x00d9af76439aec35865f29f0c51c6ab311c8be67528bfd24974e38e1d40d7ba222fb8d5461b8ce17a47d0bd2e73e489133ea9c4570a9df06b56c1ac3f62f5980449deb3207dea871c21b6db481582ef7558cfa2316cfb960d30a7ca590493fe666bfc91025fc8a53e0394f96a37a0cd577aed80134ed9b42f1285e87b26b1dc4885127fecb1264bd0ed7a1784d94e23b994036efda0375ac1fc6b0695c85f32aaa7305dce930469f2cf5835a6fb6c019bb6214cdf821578e3de4924b7ea7d108cc1563ba8f5620f94a93e53c09d0a67fdd0472ab9e4731e85b82f42d18c1b76eee374198ad7402db68b1c71e2bf2845dff265089bc6513ca79a0d60f3ae3954c,
  0x00daa9734f95e63c9e4437edd10b78a221fb88526eb4c71dbf6516ccf02a59834298eb310dd7a47edc0675af93493ae063b9ca102cf6855ffd27548eb2681bc1845e2df7cb1162b81ac0b369558ffc26a57f0cd6ea3043993be1924874aedd07c61c6fb5895320fa5882f12b17cdbe64e73d4e94a87201db79a3d00a36ec9f4515cfbc665a80f3298b5122f8c41e6db734ee9d477ba1d208aa7003d9e53f4c96578dfe2418c2b16bc91360ba865c2ff576acdf0539e3904ae832419ba77d0ed4914b38e2de0477ad0fd5a67c409ae933b06a19c3ff25568c2ef4875d61bbc812d3097aa09c4635ef4d97e43e02d8ab71f2285b81bd6714ce6cb6c51f23f98a50,
  0x00dbab704b90e03b964d3de6dd0676ad31ea9a417aa1d10aa77c0cd7ec37479c62b9c91229f28259f42f5f84bf6414cf5388f82318c3b368c51e6eb58e5525fec41f6fb48f5424ff5289f92219c2b269f52e5e85be6515ce63b8c81328f38358a67d0dd6ed36469d30eb9b407ba0d00b974c3ce7dc0777ac01daaa714a91e13a954e3ee5de0575ae03d8a8734893e338a47f0fd4ef34449f32e9994279a2d209f72c5c87bc6717cc61baca112af1815ac61d6db68d5626fd508bfb201bc0b06b518afa211ac1b16ac71c6cb78c5727fc60bbcb102bf0805bf62d5d86bd6616cd33e8984378a3d308a57e0ed5ee35459e02d9a9724992e239944f3fe4df0474af,
  0x00dca579578bf22eae720bd7f9255c80419de43816cab36fef334a96b8641dc1825e27fbd50970ac2cf089557ba7de02c31f66ba944831ed6db1c8143ae69f4319c5bc604e92eb37b76b12cee03c45995884fd210fd3aa76f62a538fa17d04d89b473ee2cc1069b535e9904c62bec71bda067fa38d5128f474a8d10d23ff865a32ee974b65b9c01c9c4039e5cb176eb273afd60a24f8815ddd0178a48a562ff3b06c15c9e73b429e1ec2bb674995ec30f12d5488a67a03df5f83fa2608d4ad712bf78e527ca0d905855920fcd20e77ab6ab6cf133de19844c41861bd934f36eaa9750cd0fe225b8707dba27e508cf529e8344d91bf631ac6469ae33f11cdb468,
  0x00dda77a538ef429a67b01dcf528528f518cf62b02dfa578f72a508da47903dea27f05d8f12c568b04d9a37e578af02df32e5489a07d07da5588f22f06dba17c5984fe230ad7ad70ff225885ac710bd608d5af725b86fc21ae7309d4fd205a87fb265c81a8750fd25d80fa270ed3a974aa770dd0f9245e830cd1ab765f82f825b26f15c8e13c469b14c9b36e479ae03de33e4499b06d17ca4598e23f16cbb16c10cdb76a439ee439b66b11cce538429f419ce63b12cfb568e73a409db46913ceeb364c91b8651fc24d90ea371ec3b964ba671dc0e9344e931cc1bb664f92e8354994ee331ac7bd60ef324895bc611bc618c5bf624b96ec31be6319c4ed304a97,
  0x00dea17f5f81fe20be601fc1e13f409e61bfc01e3ee09f41df017ea0805e21ffc21c63bd9d433ce27ca2dd0323fd825ca37d02dcfc225d831dc3bc62429ce33d994738e6c61867b927f9865878a6d907f8265987a77906d84698e73919c7b8665b85fa2404daa57be53b449aba641bc53ae49b4565bbc41a845a25fbdb057aa42ff18e5070aed10f914f30eece106fb14e90ef3111cfb06ef02e518faf710ed0ed334c92b26c13cd538df22c0cd2ad738c522df3d30d72ac32ec934d6db3cc12b66817c9e937489608d6a9775789f628d70976a8885629f769b7c81636e8974974aad50b2bf58a54ca146bb5954b34ea15cbb46a4a94eb35ab750ad4f42a558b,
  0x00dfa37c5b84f827b66915caed324e9171aed20d2af58956c71864bb9c433fe0e23d419eb9661ac5548bf7280fd0ac73934c30efc8176bb425fa86597ea1dd02d9067aa5825d21fe6fb0cc1334eb9748a8770bd4f32c508f1ec1bd62459ae6393be4984760bfc31c8d522ef1d60975aa4a95e93611ceb26dfc235f80a77804dbaf700cd3f42b578819c6ba65429de13ede017da2855a26f968b7cb1433ec904f4d92ee3116c9b56afb245887a07f03dc3ce39f4067b8c41b8a5529f6d10e72ad76a9d50a2df28e51c01f63bc9b4438e707d8a47b5c83ff20b16e12cdea354996944b37e8cf106cb322fd815e79a6da05e53a4699be611dc2538cf02f08d7ab74,
  0x00e0dd3da7477a9a53b38e6ef41429c9a6467b9b01e1dc3cf51528c852b28f6f51b18c6cf6162bcb02e2df3fa5457898f7172aca50b08d6da444799903e3de3ea2427f9f05e5d838f1112ccc56b68b6b04e4d939a3437e9e57b78a6af0102dcdf3132ece54b48969a0407d9d07e7da3a55b58868f2122fcf06e6db3ba1417c9c59b98464fe1e23c30aead737ad4d7090ff1f22c258b88565ac4c71910bebd63608e8d535af4f72925bbb8666fc1c21c1ae4e739309e9d434fd1d20c05aba8767fb1b26c65cbc8161a84875950fefd2325dbd8060fa1a27c70eeed333a9497494aa4a77970dedd030f91924c45ebe83630cecd131ab4b76965fbf8262f81825c5,
  0x00e1df3ea3427c9d5bba8465f81927c6b657698815f4ca2bed0c32d34eaf91707190ae4fd2330dec2acbf514896856b7c72618f96485bb5a9c7d43a23fdee001e2033ddc41a09e7fb95866871afbc52454b58b6af71628c90feed031ac4d739293724cad30d1ef0ec82917f66b8ab45525c4fa1b866759b87e9fa140dd3c02e3d93806e77a9ba54482635dbc21c0fe1f6f8eb051cc2d13f234d5eb0a977648a9a84977960bead435f3122ccd50b18f6e1effc120bd5c628345a49a7be60739d83bdae405987947a66081bf5ec3221cfd8d6c52b32ecff110d63709e87594aa4b4aab9574e90836d711f0ce2fb2536d8cfc1d23c25fbe8061a746789904e5db3a,
  0x00e2d93baf4d769443a19a78ec0e35d786645fbd29cbf012c5271cfe6a88b35111f3c82abe5c678552b08b69fd1f24c697754eac38dae103d4360def7b99a24022c0fb198d6f54b66183b85ace2c17f5a4467d9f0be9d230e7053edc48aa917333d1ea089c7e45a77092a94bdf3d06e4b5576c8e1af8c321f6142fcd59bb806244a69d7feb0932d007e5de3ca84a7193c2201bf96d8fb456816358ba2eccf71555b78c6efa1823c116f4cf2db95b6082d3310ae87c9ea547907249ab3fdde6046684bf5dc92b10f225c7fc1e8a6853b1e00239db4fad9674a3417a980ceed5377795ae4cd83a01e334d6ed0f9b7942a0f11328ca5ebc8765b2506b891dffc426,
  0x00e3db38ab4870934ba89073e0033bd896754dae3ddee605dd3e06e57695ad4e31d2ea099a7941a27a99a142d1320ae9a7447c9f0cefd734ec0f37d447a49c7f6281b95ac92a12f129caf211826159baf4172fcc5fbc8467bf5c648714f7cf2c53b0886bf81b23c018fbc320b350688bc5261efd6e8db5568e6d55b625c6fe1dc4271ffc6f8cb4578f6c54b724c7ff1c52b1896af91a22c119fac221b251698af5162ecd5ebd8566be5d658615f6ce2d6380b85bc82b13f028cbf310836058bba6457d9e0deed635ed0e36d546a59d7e30d3eb089b7840a37b98a043d0330be897744caf3cdfe704dc3f07e47794ac4f01e2da39aa4971924aa99172e1023ad9,
  0x00e4d531b75362867397a642c42011f5e60233d751b58460957140a422c6f713d13504e06682b357a246779315f1c02437d3e206806455b144a09175f31726c2bf5b6a8e08ecdd39cc2819fd7b9fae4a59bd8c68ee0a3bdf2aceff1b9d7948ac6e8abb5fd93d0ce81df9c82caa4e7f9b886c5db93fdbea0efb1f2eca4ca8997d6387b652d43001e510f4c521a7437296856150b432d6e703f61223c741a59470b256678305e1d034c12514f07692a34754b08165e30736d227c3f216907445a1dc3809ed6b8fbe5aaf4b7a9e18fccd293adeef0b8d6958bc49ad9c78fe1a2bcf0de9d83cba5e6f8b7e9aab4fc92d1cf8eb0f3eda5cb8896d987c4da92fcbfa1e,
  0x00e5d732b35664817b9eac49c82d1ffaf61321c445a092778d685abf3edbe90cf11426c342a795708a6f5db839dcee0b07e2d035b45163867c99ab4ecf2a18fdff1a28cd4ca99b7e846153b637d2e00509ecde3bba5f6d887297a540c12416f30eebd93cbd586a8f7590a247c62311f4f81d2fca4bae9c79836654b130d5e702e30634d150b58762987d4faa2bcefc1915f0c227a64371946e8bb95cdd380aef12f7c520a1447693698cbe5bda3f0de8e40133d657b280659f7a48ad2cc9fb1e1cf9cb2eaf4a789d6782b055d43103e6ea0f3dd859bc8e6b917446a322c7f510ed083adf5ebb896c967341a425c0f2171bfecc29a84d7f9a6085b752d33604e1,
  0x00e6d137bf596e886385b254dc3a0debc62017f1799fa84ea54374921afccb2d917740a62ec8ff19f21423c54dab9c7a57b18660e80e39df34d2e5038b6d5abc3fd9ee08806651b75cba8d6be30532d4f91f28ce46a097719a7c4bad25c3f412ae487f9911f7c026cd2b1cfa7294a345688eb95fd73106e00bedda3cb45265837e98af49c12710f61dfbcc2aa2447395b85e698f07e1d630db3d0aec6482b553ef093ed850b681678c6a5dbb33d5e20429cff81e967047a14aac9b7df51324c241a79076fe182fc922c4f3159d7b4caa876156b038dee90fe40235d35bbd8a6cd03601e76f89be58b35562840ceadd3b16f0c721a94f789e7593a442ca2c1bfd,
  0x00e7d334bb5c688f6b8cb85fd03703e4d63105e26d8abe59bd5a6e8906e1d532b15662850aedd93eda3d09ee6186b2556780b453dc3b0fe80cebdf38b75064837f98ac4bc42317f014f3c720af487c9ba94e7a9d12f5c126c22511f6799eaa4dce291dfa7592a641a54276911ef9cd2a18ffcb2ca34470977394a047c82f1bfcfe192dca45a29671957246a12ec9fd1a28cffb1c937440a743a49077f81f2bcc4fa89c7bf41327c024c3f7109f784cab997e4aad22c5f116f21521c649ae9a7d816652b53adde90eea0d39de51b6826557b08463ec0b3fd83cdbef08876054b330d7e3048b6c58bf5bbc886fe00733d4e60135d25dba8e698d6a5eb936d1e502,
  0x00e8cd25876f4aa213fbde36947c59b126ceeb03a1496c8435ddf810b25a7f974ca48169cb2306ee5fb7927ad83015fd6a82a74fed0520c87991b45cfe1633db987055bd1ff7d23a8b6346ae0ce4c129be56739b39d1f41cad4560882ac2e70fd43c19f153bb9e76c72f0ae240a88d65f21a3fd7759db850e1092cc4668eab432dc5e008aa42678f3ed6f31bb951749c0be3c62e8c6441a918f0d53d9f7752ba6189ac44e60e2bc3729abf57f51d38d047af8a62c0280de554bc9971d33b1ef6b55d789032daff17a64e6b8321c9ec04937b5eb614fcd93180684da507efca22f91134dc7e96b35bea0227cf6d85a048df3712fa58b0957dcc2401e94ba3866e,
  0x00e9cf26836a4ca51bf2d43d987157be36dff910b55c7a932dc4e20bae4761886c85a34aef0620c9779eb851f41d3bd25ab3957cd93016ff41a88e67c22b0de4d83117fe5bb2947dc32a0ce540a98f66ee0721c86d84a24bf51c3ad3769fb950b45d7b9237def811af4660892cc5e30a826b4da401e8ce27997056bf1af3d53cad44628b2ec7e108b65f799035dcfa139b7254bd18f1d73e80694fa603eacc25c1280ee742ab8d64da3315fc59b0967ff71e38d1749dbb52ec0523ca6f86a049759cba53f61f39d06e87a148ed0422cb43aa8c65c0290fe658b1977edb3214fd19f0d63f9a7355bc02ebcd2481684ea72fc6e009ac45638a34ddfb12b75e7891,
  0x00eac9238f6546ac03e9ca208c6645af06eccf25896340aa05efcc268a6043a90ce6c52f83694aa00fe5c62c806a49a30ae0c329856f4ca609e3c02a866c4fa518f2d13b977d5eb41bf1d238947e5db71ef4d73d917b58b21df7d43e92785bb114fedd379b7152b817fdde34987251bb12f8db319d7754be11fbd8329e7457bd30daf913bf55769c33d9fa10bc56759f36dcff15b953709a35dffc16ba5073993cd6f51fb3597a903fd5f61cb05a79933ad0f319b55f7c9639d3f01ab65c7f9528c2e10ba74d6e842bc1e208a44e6d872ec4e70da14b68822dc7e40ea2486b8124ceed07ab41628827cdee04a842618b22c8eb01ad47648e21cbe802ae44678d,
  0x00ebcb208b6040ab0be0c02b806b4ba016fddd369d7656bd1df6d63d967d5db62cc7e70ca74c6c8727ccec07ac47678c3ad1f11ab15a7a9131dafa11ba51719a58b39378d33818f353b89873d83313f84ea5856ec52e0ee545ae8e65ce2505ee749fbf54ff1434df7f94b45ff41f3fd46289a942e90222c96982a249e20929c2b05b7b903bd0f01bbb50709b30dbfb10a64d6d862dc6e60dad46668d26cded069c7757bc17fcdc37977c5cb71cf7d73c8a6141aa01eaca21816a4aa10ae1c12ae80323c86388a843e30828c36883a348fe1535de759ebe55f51e3ed57e95b55ec42f0fe44fa4846fcf2404ef44af8f64d23919f259b29279d93212f952b99972,
  0x00ecc529977b52be33dff61aa448618d668aa34ff11d34d855b9907cc22e07ebcc2009e55bb79e72ff133ad66884ad41aa466f833dd1f81499755cb00ee2cb27856940ac12fed73bb65a739f21cde408e30f26ca7498b15dd03c15f947ab826e49a58c60de321bf77a96bf53ed0128c42fc3ea06b8547d911cf0d9358b674ea217fbd23e806c45a924c8e10db35f769a719db458e60a23cf42ae876bd53910fcdb371ef24ca08965e8042dc17f93ba56bd5178942ac6ef038e624ba719f5dc30927e57bb05e9c02ca14d648836daf31ff41831dd638fa64ac72b02ee50bc95795eb29b77c9250ce06d81a844fa163fd338d4fd11af436a860be7ce229c7059b5,
  0x00edc72a937e54b93bd6fc11a8456f82769bb15ce50822cf4da08a67de3319f4ec012bc67f92b855d73a10fd44a9836e9a775db009e4ce23a14c668b32dff518c52802ef56bb917cfe1339d46d80aa47b35e749920cde70a88654fa21bf6dc3129c4ee03ba577d9012ffd538816c46ab5fb29875cc210be66489a34ef71a30dd977a50bd04e9c32eac416b863fd2f815e10c26cb729fb558da371df049a48e637b96bc51e8052fc240ad876ad33e14f90de0ca279e7359b436dbf11ca548628f52bf9578c12c06eb6984ae43fa173dd024c9e30eb75a709d1ff2d8358c614ba6be5379942dc0ea07856842af16fbd13cc8250fe25bb69c71f31e34d9608da74a,
  0x00eec12f9f715eb023cde20cbc527d9346a88769d93718f6658ba44afa143bd58c624da313fdd23caf416e8030def11fca240be555bb947ae90728c67698b75905ebc42a9a745bb526c8e709b957789643ad826cdc321df3608ea14fff113ed0896748a616f8d739aa446b8535dbf41acf210ee050be917fec022dc3739db25c0ae4cb25957b54ba29c7e806b65877994ca28d63d33d12fc6f81ae40f01e31df866847a919f7d836a54b648a3ad4fb15c02e01ef5fb19e70e30d22cc7c92bd530fe1ce20907e51bf2cc2ed03b35d729c49a78866d63817f96a84ab45f51b34da836d42ac1cf2dd33a04e618f3fd1fe10c52b04ea5ab49b75e60827c97997b856,
  0x00efc32c9b7458b72bc4e807b05f739c56b9957acd220ee17d92be51e60925caac436f8037d8f41b876844ab1cf3df30fa1539d6618ea24dd13e12fd4aa5896645aa8669de311df26e81ad42f51a36d913fcd03f88674ba438d7fb14a34c608fe9062ac5729db15ec22d01ee59b69a75bf507c9324cbe708947b57b80fe0cc238a6549a611fed23da14e628d3ad5f916dc331ff047a8846bf71834db6c83af4026c9e50abd527e910de2ce21967955ba709fb35ceb0428c75bb49877c02f03eccf200ce354bb9778e40b27c87f90bc5399765ab502edc12eb25d719e29c6ea05638ca04ff8173bd448a78b64d33c10ff35daf619ae416d821ef1dd32856a46a9,
  0x00f0fd0de7171aead3232ede34c4c939bb4b46b65caca151689895658f7f72826b9b96668c7c7181b84845b55fafa252d0202ddd37c7ca3a03f3fe0ee41419e9d6262bdb31c1cc3c05f5f808e2121fef6d9d90608a7a7787be4e43b359a9a454bd4d40b05aaaa7576e9e93638979748406f6fb0be1111cecd52528d832c2cf3fb1414cbc56a6ab5b62929f6f857578880afaf707ed1d10e0d92924d43ecec333da2a27d73dcdc03009f9f404ee1e13e361919c6c86767b8bb2424fbf55a5a85867979a6a80707d8db44449b953a3ae5edc2c21d13bcbc6360ffff202e81815e50cfcf101eb1b16e6df2f22d238c8c535b7474aba50a0ad5d6494996983737e8e,
  0x00f1ff0ee3121ceddb2a24d538c9c736ab5a54a548b9b74670818f7e93626c9d4bbab445a85957a690616f9e73828c7de0111fee03f2fc0d3bcac435d82927d69667699875848a7b4dbcb243ae5f51a03dccc233de2f21d0e61719e805f4fa0bdd2c22d33ecfc13006f7f908e5141aeb7687897895646a9bad5c52a34ebfb14031c0ce3fd2232ddcea1b15e409f8f6079a6b65947988867741b0be4fa2535dac7a8b857499686697a1505eaf42b3bd4cd1202edf32c3cd3c0afbf504e91816e7a75658a944b5bb4a7c8d83729f6e60910cfdf302ef1e10e1d72628d934c5cb3aec1d13e20ffef00137c6c839d4252bda47b6b849a4555baa9c6d63927f8e8071,
  0x00f2f90bef1d16e4c3313ac82cded5279b69629074868d7f58aaa153b7454ebc2bd9d220c4363dcfe81a11e307f5fe0cb04249bb5fada65473818a789c6e659756a4af5db94b40b295676c9e7a888371cd3f34c622d0db290efcf705e11318ea7d8f847692606b99be4c47b551a3a85ae6141fed09fbf00225d7dc2eca3833c1ac5e55a743b1ba486f9d96648072798b37c5ce3cd82a21d3f4060dff1be9e21087757e8c689a916344b6bd4fab5952a01ceee517f3010af8df2d26d430c2c93bfa0803f115e7ec1e39cbc032d6242fdd6193986a8e7c7785a2505ba94dbfb446d12328da3eccc73512e0eb19fd0f04f64ab8b341a5575cae897b708266949f6d,
  0x00f3fb08eb1810e3cb3830c320d3db288b78708360939b6840b3bb48ab5850a30bf8f003e0131be8c0333bc82bd8d02380737b886b9890634bb8b043a0535ba816e5ed1efd0e06f5dd2e26d536c5cd3e9d6e669576858d7e56a5ad5ebd4e46b51deee615f6050dfed6252dde3dcec63596656d9e7d8e86755daea655b6454dbe2cdfd724c7343ccfe7141cef0cfff704a7545caf4cbfb7446c9f976487747c8f27d4dc2fcc3f37c4ec1f17e407f4fc0fac5f57a447b4bc4f67949c6f8c7f77843ac9c132d1222ad9f1020af91ae9e112b1424ab95aa9a1527a89817291626a9931c2ca39da2921d2fa0901f211e2ea19ba4941b251a2aa5971828a799a696192,
  0x00f4f501f70302f6f30706f204f0f105fb0f0efa0cf8f90d08fcfd09ff0b0afeeb1f1eea1ce8e91d18eced19ef1b1aee10e4e511e71312e6e31716e214e0e115cb3f3eca3cc8c93d38cccd39cf3b3ace30c4c531c73332c6c33736c234c0c13520d4d521d72322d6d32726d224d0d125db2f2eda2cd8d92d28dcdd29df2b2ade8b7f7e8a7c88897d788c8d798f7b7a8e70848571877372868377768274808175609495619763629693676692649091659b6f6e9a6c98996d689c9d699f6b6a9e40b4b541b74342b6b34746b244b0b145bb4f4eba4cb8b94d48bcbd49bf4b4abeab5f5eaa5ca8a95d58acad59af5b5aae50a4a551a75352a6a35756a254a0a155,
  0x00f5f702f30604f1fb0e0cf908fdff0aeb1e1ce918edef1a10e5e712e31614e1cb3e3cc938cdcf3a30c5c732c33634c120d5d722d32624d1db2e2cd928dddf2a8b7e7c89788d8f7a708587728376748160959762936664919b6e6c99689d9f6a40b5b742b34644b1bb4e4cb948bdbf4aab5e5ca958adaf5a50a5a752a35654a10bfefc09f80d0ffaf00507f203f6f401e01517e213e6e4111beeec19e81d1feac03537c233c6c4313bcecc39c83d3fca2bdedc29d82d2fdad02527d223d6d42180757782738684717b8e8c79887d7f8a6b9e9c69986d6f9a90656792639694614bbebc49b84d4fbab04547b243b6b441a05557a253a6a4515baeac59a85d5faa,
  0x00f6f107ff090ef8e31512e41ceaed1bdb2d2adc24d2d52338cec93fc73136c0ab5d5aac54a2a55348beb94fb74146b0708681778f797e88936562946c9a9d6b4bbdba4cb44245b3a85e59af57a1a650906661976f999e68738582748c7a7d8be01611e71fe9ee1803f5f204fc0a0dfb3bcdca3cc43235c3d82e29df27d1d62096606791699f986e758384728a7c7b8d4dbbbc4ab24443b5ae585fa951a7a0563dcbcc3ac23433c5de282fd921d7d026e61017e119efe81e05f3f402fa0c0bfddd2b2cda22d4d3253ec8cf39c13730c606f0f701f90f08fee51314e21aeceb1d76808771897f788e956364926a9c9b6dad5b5caa52a4a3554eb8bf49b14740b6,
  0x00f7f304fb0c08ffeb1c18ef10e7e314cb3c38cf30c7c33420d7d324db2c28df8b7c788f70878374609793649b6c689f40b7b344bb4c48bfab5c58af50a7a3540bfcf80ff00703f4e01713e41bece81fc03733c43bccc83f2bdcd82fd02723d4807773847b8c887f6b9c986f906763944bbcb84fb04743b4a05753a45baca85f16e1e512ed1a1ee9fd0a0ef906f1f502dd2a2ed926d1d52236c1c532cd3a3ec99d6a6e9966919562768185728d7a7e8956a1a552ad5a5ea9bd4a4eb946b1b5421deaee19e61115e2f60105f20dfafe09d62125d22ddade293dcace39c63135c2966165926d9a9e697d8a8e79867175825daaae59a65155a2b64145b24dbabe49,
  0x00f8ed15c73f2ad2936b7e8654acb9413bc3d62efc0411e9a85045bd6f97827a768e9b63b1495ca4e51d08f022dacf374db5a0588a72679fde2633cb19e1f40cec1401f92bd3c63e7f87926ab84055add72f3ac210e8fd0544bca951837b6e969a62778f5da5b04809f1e41cce3623dba1594cb4669e8b7332cadf27f50d18e0c53d28d002faef1756aebb4391697c84fe0613eb39c1d42c6d958078aa5247bfb34b5ea6748c996120d8cd35e71f0af28870659d4fb7a25a1be3f60edc2431c929d1c43cee1603fbba4257af7d85906812eaff07d52d38c081796c9446beab535fa7b24a9860758dcc3421d90bf3e61e649c8971a35b4eb6f70f1ae230c8dd25,
  0x00f9ef16c33a2cd59b62748d58a1b74e2bd2c43de81107feb0495fa6738a9c6556afb940956c7a83cd3422db0ef7e1187d84926bbe4751a8e61f09f025dcca33ac5543ba6f96807937ced821f40d1be2877e689144bdab521ce5f30adf2630c9fa0315ec39c0d62f61988e77a25b4db4d1283ec712ebfd044ab3a55c8970669f45bcaa53867f6990de2731c81de4f20b6e978178ad5442bbf50c1ae336cfd92013eafc05d0293fc68871679e4bb2a45d38c1d72efb0214eda35a4cb560998f76e91006ff2ad3c53c728b9d64b1485ea7c23b2dd401f8ee1759a0b64f9a63758cbf4650a97c85936a24ddcb32e71e08f1946d7b8257aeb8410ff6e019cc3523da,
  0x00fae913cf3526dc83796a904cb6a55f1be1f208d42e3dc79862718b57adbe4436ccdf25f90310eab54f5ca67a8093692dd7c43ee2180bf1ae5447bd619b88726c96857fa3594ab0ef1506fc20dac933778d9e64b84251abf40e1de73bc1d2285aa0b349956f7c86d92330ca16ecff0541bba8528e74679dc2382bd10df7e41ed82231cb17edfe045ba1b248946e7d87c3392ad00cf6e51f40baa9538f75669cee1407fd21dbc8326d97847ea2584bb1f50f1ce63ac0d329768c9f65b94350aab44e5da77b81926837cdde24f80211ebaf5546bc609a89732cd6c53fe3190af082786b914db7a45e01fbe812ce3427dd9963708a56acbf451ae0f309d52f3cc6,
  0x00fbeb10cb3020db8b70609b40bbab500bf0e01bc03b2bd0807b6b904bb0a05b16edfd06dd2636cd9d66768d56adbd461de6f60dd62d3dc6966d7d865da6b64d2cd7c73ce71c0cf7a75c4cb76c97877c27dccc37ec1707fcac5747bc679c8c773ac1d12af10a1ae1b14a5aa17a81916a31cada21fa0111eaba4151aa718a9a6158a3b34893687883d32838c318e3f30853a8b84398637388d82333c813e8f8034eb5a55e857e6e95c53e2ed50ef5e51e45beae558e75659ece3525de05feee15748f9f64bf4454afff0414ef34cfdf247f84946fb44f5fa4f40f1fe43fc4d42f62998972a95242b9e91202f922d9c93269928279a25949b2e21909f229d2c239,
  0x00fce519d72b32ceb34f56aa6498817d7b879e62ac5049b5c8342dd11fe3fa06f60a13ef21ddc43845b9a05c926e778b8d7168945aa6bf433ec2db27e9150cf0f10d14e826dac33f42bea75b9569708c8a766f935da1b84439c5dc20ee120bf707fbe21ed02c35c9b44851ad639f867a7c809965ab574eb2cf332ad618e4fd01ff031ae628d4cd314cb0a9559b677e828478619d53afb64a37cbd22ee01c05f909f5ec10de223bc7ba465fa36d918874728e976ba55940bcc13d24d816eaf30f0ef2eb17d9253cc0bd4158a46a968f737589906ca25e47bbc63a23df11edf408f8041de12fd3ca364bb7ae529c607985837f669a54a8b14d30ccd529e71b02fe,
  0x00fde71ad32e34c9bb465ca168958f726b968c71b8455fa2d02d37ca03fee419d62b31cc05f8e21f6d908a77be4359a4bd405aa76e93897406fbe11cd52832cfb14c56ab629f85780af7ed10d9243ec3da273dc009f4ee13619c867bb24f55a8679a807db44953aedc213bc60ff2e8150cf1eb16df2238c5b74a50ad6499837e7f829865ac514bb6c43923de17eaf00d14e9f30ec73a20ddaf5248b57c819b66a9544eb37a879d6012eff508c13c26dbc23f25d811ecf60b79849e63aa574db0ce3329d41de0fa077588926fa65b41bca55842bf768b916c1ee3f904cd302ad718e5ff02cb362cd1a35e44b9708d976a738e9469a05d47bac8352fd21be6fc01,
  0x00fee11fdf213ec0a35d42bc7c829d635ba5ba44847a659bf80619e727d9c638b64857a96997887615ebf40aca342bd5ed130cf232ccd32d4eb0af51916f708e718f906eae504fb1d22c33cd0df3ec122ad4cb35f50b14ea8977689656a8b749c73926d818e6f907649a857bbb455aa49c627d8343bda25c3fc1de20e01e01ffe21c03fd3dc3dc2241bfa05e9e607f81b94758a6669887791ae4fb05c53b24da54aab54b8b756a94f70916e828d6c9370ff1ee10d02e31cfac524db3738d926c936d728c4cb2ad5330ced12fef110ef0c83629d717e9f6086b958a74b44a55ab25dbc43afa041be58678679959a7b8467e809f61a15f40bedd233cc202fce31d,
  0x00ffe31cdb2438c7ab5448b7708f936c4bb4a857906f738ce01f03fc3bc4d8279669758a4db2ae513dc2de21e61905fadd223ec106f9e51a7689956aad524eb131ced22dea1509f69a65798641bea25d7a859966a15e42bdd12e32cd0af5e916a75844bb7c839f600cf3ef10d72834cbec130ff037c8d42b47b8a45b9c637f80629d817eb9465aa5c9362ad512edf10e29d6ca35f20d11ee827d619e59a6ba45f40b17e82fd0cc335fa0bc43847b6798bf405ca3649b877814ebf708cf302cd353acb04f88776b94f8071be423dcc03f18e7fb04c33c20dfb34c50af68978b74c53a26d91ee1fd026e918d72b54a56a98e716d9255aab64925dac639fe011de2]

end Verif.Tables.Shamir
