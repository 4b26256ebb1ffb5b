import Verif.Concrete.SeedBase

/-! # The seed of the phrase of the repository's tests: part 4 of the 2047 iterations

Each theorem is 64 iterations (the last one 63), evaluated by the kernel. -/

namespace Stacks.Concrete.Seed
open FastPbkdf

theorem run24 : iter inner outer
    0xeb7e6df47dabdc3245c082401561d4930ef7d0209271a9bf6e2637421ee7d7fb2a9bbc100b0c431a7d9f0a0907677dfe4c4d8aefc282197e434602dc86e0419c
    0x14b3cf0dd4858c463718cd3791ff85609ab6bca450a5cd621ddfa3bec771363df3d49ada77f2f6a286acd9a295ca03b5d5fd7e1de1c9a357ee3a3fd7121209c7 64
    0x31980922dbd0c08a64a1f3875d8029819dcf4af2b048bee33be19337578fcffdf0adb6c5fa1a62704722b7b4a99ef8b57967b602837045897f74d4fea0d8dff2
    0x8f6eb8d73692bdd7853c978f90d86cb6650106ad11a3c385b966fcc26aa38ca6c4c3dff9140c036be5b87f39cebc09b50a87e95cd549f1a0a9870bb03b2db7af = true := by decide +kernel

theorem run25 : iter inner outer
    0x5786234c8aa26d83eb5fd9cf012ff138ec433a3328648afa06411159023a9f99bde23e5d9055ff8f10cd76571226b204cdc26e827b4b2f26fe094facb78aace8
    0xd183f5b66ed0fa0e1cafdb69f2de7ba40ecf042638c043832f1c8483df5f15e5c36c471d93c08b587ce8ba80335e0fa62983f5684b9174d7540d9d43554f8f76 64
    0xeb7e6df47dabdc3245c082401561d4930ef7d0209271a9bf6e2637421ee7d7fb2a9bbc100b0c431a7d9f0a0907677dfe4c4d8aefc282197e434602dc86e0419c
    0x14b3cf0dd4858c463718cd3791ff85609ab6bca450a5cd621ddfa3bec771363df3d49ada77f2f6a286acd9a295ca03b5d5fd7e1de1c9a357ee3a3fd7121209c7 = true := by decide +kernel

theorem run26 : iter inner outer
    0x13e60db5fdaeb3c9a9735750fc963565d96822278556fc42ea792a31f5aa99f0bd6686170c71f62488c6a73750095ff15cd2395a6000780ee8b58d104fc5c0a5
    0x486817ef758c362d24208f1165f20bc51e0e37c44574cb4f011409d6778e354813887ce01de09dd85b1b09eeb978cc50f96c20ba49399b90d3011b7801378807 64
    0x5786234c8aa26d83eb5fd9cf012ff138ec433a3328648afa06411159023a9f99bde23e5d9055ff8f10cd76571226b204cdc26e827b4b2f26fe094facb78aace8
    0xd183f5b66ed0fa0e1cafdb69f2de7ba40ecf042638c043832f1c8483df5f15e5c36c471d93c08b587ce8ba80335e0fa62983f5684b9174d7540d9d43554f8f76 = true := by decide +kernel

theorem run27 : iter inner outer
    0x4465b14f865cd3e70957df1829aa358602cb1cdef3df01c415130fc13b1417961260ae2a1c68b9c9fe24e9159cadb53c67f8ed4b643ec200b5f871e2cd6795e3
    0x3bc9b1446e71e0f05ac58a3fa8d4d4625746525463d568026fe8819ddbb59740fff07e139461fa4bec738693754882fbeaa9b61c5db453daa6b3b8801abd3220 64
    0x13e60db5fdaeb3c9a9735750fc963565d96822278556fc42ea792a31f5aa99f0bd6686170c71f62488c6a73750095ff15cd2395a6000780ee8b58d104fc5c0a5
    0x486817ef758c362d24208f1165f20bc51e0e37c44574cb4f011409d6778e354813887ce01de09dd85b1b09eeb978cc50f96c20ba49399b90d3011b7801378807 = true := by decide +kernel

theorem run28 : iter inner outer
    0xe0e238102e4e235385eebb6d8251b602470f7c253f598dd8aecbcf921f35e4bc6c21646690b4f5d734548ea3cc0bb2646345dae67fda95d3eb2e9fd1cdf68bdf
    0x409284be22c84bdd18af314054f5e0b6e93b9ab688f57dda460e90d617a28feac630a8e906129c9dc71fc73947e1ea36b7f0a49ed2a2c044d82ba77389ea23a 64
    0x4465b14f865cd3e70957df1829aa358602cb1cdef3df01c415130fc13b1417961260ae2a1c68b9c9fe24e9159cadb53c67f8ed4b643ec200b5f871e2cd6795e3
    0x3bc9b1446e71e0f05ac58a3fa8d4d4625746525463d568026fe8819ddbb59740fff07e139461fa4bec738693754882fbeaa9b61c5db453daa6b3b8801abd3220 = true := by decide +kernel

theorem run29 : iter inner outer
    0x76defd6096761bcd0ec85a3f2296844b3184a040de8bec5410282a46cfe1ac4f40a5d4f22cedb268f319f08dac20edb9a329f241b60088db622ca6ea1e8d3bc6
    0xf1b1025bd7ccfe91c6e200b426381cf45dd0dcb583eeb61e6379edc387314fecf343c29344fac1dbba72d40ac501882abf411fb86f7482d1996f90e5d486eae9 64
    0xe0e238102e4e235385eebb6d8251b602470f7c253f598dd8aecbcf921f35e4bc6c21646690b4f5d734548ea3cc0bb2646345dae67fda95d3eb2e9fd1cdf68bdf
    0x409284be22c84bdd18af314054f5e0b6e93b9ab688f57dda460e90d617a28feac630a8e906129c9dc71fc73947e1ea36b7f0a49ed2a2c044d82ba77389ea23a = true := by decide +kernel

theorem run30 : iter inner outer
    0x12f46a18857ade1150512dda62b7c6af79614c7c8c5575a74c279291c976a4fc5f8662a78168728471656011498f7cbe07a1532ff89bdf8a71a38aa1cdf9e0de
    0xe315bd831169ec459c16f42a71b94123645494bfff50decc82d71fcd3de5112e43b1808af1485ee8634ce0ef1d6e3f0adfa58ff3fd00d22e5cb58706494d1741 64
    0x76defd6096761bcd0ec85a3f2296844b3184a040de8bec5410282a46cfe1ac4f40a5d4f22cedb268f319f08dac20edb9a329f241b60088db622ca6ea1e8d3bc6
    0xf1b1025bd7ccfe91c6e200b426381cf45dd0dcb583eeb61e6379edc387314fecf343c29344fac1dbba72d40ac501882abf411fb86f7482d1996f90e5d486eae9 = true := by decide +kernel

theorem run31 : iter inner outer
    0xfa83c5a196c84d633825f2996b9150512665fe8993e47da263530145d1160733a164d3fbc2230ac7f434a008f219734b5d8d5dfc73bc83ab999d4d7f0822a12c
    0xf3068d6e795db1545d5067caf0b48b042de533a233ebb402846c2afe54bb1c2c9d927ee1cd057c56e7ca1af65021152f6264c317d744005604afee363e238265 63
    0x12f46a18857ade1150512dda62b7c6af79614c7c8c5575a74c279291c976a4fc5f8662a78168728471656011498f7cbe07a1532ff89bdf8a71a38aa1cdf9e0de
    0xe315bd831169ec459c16f42a71b94123645494bfff50decc82d71fcd3de5112e43b1808af1485ee8634ce0ef1d6e3f0adfa58ff3fd00d22e5cb58706494d1741 = true := by decide +kernel

end Stacks.Concrete.Seed
