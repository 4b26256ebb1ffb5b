import Verif.Concrete.SeedBase

/-! # The seed of the phrase of the repository's tests: part 3 of the 2047 iterations

Each theorem is 64 iterations (the last one 63), evaluated by the kernel. -/

namespace Stacks.Concrete.Seed
open FastPbkdf

theorem run16 : iter inner outer
    0x8fb4f49fcfc9dcd6aa77bf207fbc422724e5d77ee1377c1a24a19a1a610fd1d7c0c19c5cddeeccaeefc3fbc74eb986c513cbf43ad60bc422d8f217e085a6d08a
    0x1d8c3b2773b6cff2ffb2126c61b294e44ae6a55e41f0df5da7770056e33b98a1fb5eec03339eb83933e57671233d433d2518356d513a09dc1cba21826a20fdbb 64
    0xcd64745853c056bf3dd6a0b260432eb8517873c72a353c7d82f1f5d689b99b52005edfdb626d74e1b9ca96fecbd1d30da835d66d084a2710d00a08958713d25e
    0x8c9168791d893e6d5c86b5f57cd79ab81e129fde74bdb29ed976b3a888c564512fcb6aac222d7dbf8e89fd18b317ef33612d0d42b97ae980496ce56c8dfb53be = true := by decide +kernel

theorem run17 : iter inner outer
    0x5beaf6888cd8958f58395b7130cdb619acc19f3e285e7cfba662ac17429148d5c74dabb12d65a88977c9dfb0d550e7ce51cc532b99ec6617944e1c442d8be2a3
    0xb2302e28afee8c04359da78d1a903a1aea6d66126a164017ce6e0b51dfd6583e218d3edb1a73de1c0b01639f3a5228dda720948965b28d1612c7f78ee375e13 64
    0x8fb4f49fcfc9dcd6aa77bf207fbc422724e5d77ee1377c1a24a19a1a610fd1d7c0c19c5cddeeccaeefc3fbc74eb986c513cbf43ad60bc422d8f217e085a6d08a
    0x1d8c3b2773b6cff2ffb2126c61b294e44ae6a55e41f0df5da7770056e33b98a1fb5eec03339eb83933e57671233d433d2518356d513a09dc1cba21826a20fdbb = true := by decide +kernel

theorem run18 : iter inner outer
    0x76bc228d9f6767b500237005b2c2d240e8b91b1fc3bfe264834d019e0ab23d6ba148f471582596161eaf1fc63df673a7fe5b5ddb8101604c68019267cdd06032
    0x6776580722ebae225480adea54d566b15d3d214e7ec9714f7d5d0e89f0dbd3be1f9c15e643ad1f2b381836cd1b095746b5f2bf8c1ec18a4a3b0d14941e5b463f 64
    0x5beaf6888cd8958f58395b7130cdb619acc19f3e285e7cfba662ac17429148d5c74dabb12d65a88977c9dfb0d550e7ce51cc532b99ec6617944e1c442d8be2a3
    0xb2302e28afee8c04359da78d1a903a1aea6d66126a164017ce6e0b51dfd6583e218d3edb1a73de1c0b01639f3a5228dda720948965b28d1612c7f78ee375e13 = true := by decide +kernel

theorem run19 : iter inner outer
    0x2e68ee1155c45c4d7e4529071aa28c1e8008b71ef2f999dc312e04965c0cfb8a959c2c6fbc8c4462619c088963ef313dae76e24e459fbbaaf2840a07ba80c15
    0xd122fdd9594a95583279bd9627194aa8777bfad739e3fd2bd5ec0968ed24b8a474f751eb81468b1ff05581a3d55bd12cf933b5b6b5d3799b8850ff1011c75618 64
    0x76bc228d9f6767b500237005b2c2d240e8b91b1fc3bfe264834d019e0ab23d6ba148f471582596161eaf1fc63df673a7fe5b5ddb8101604c68019267cdd06032
    0x6776580722ebae225480adea54d566b15d3d214e7ec9714f7d5d0e89f0dbd3be1f9c15e643ad1f2b381836cd1b095746b5f2bf8c1ec18a4a3b0d14941e5b463f = true := by decide +kernel

theorem run20 : iter inner outer
    0xc1699a005665b5993e3d488e27eac62f57a1ff942606d9d23625b8bc2a52661935ba067073d1e0bc0840796c2f1a2703a0c34977e60b40570cad3a9f1a138195
    0x6ce1e47bf042424281ebacc94f061be8cec5b1c298aef911ec071dec98ef7c44066f9a20b8d591fe279e1108bb351b9c98f0d2ac674f94f24b3985f5e6aee027 64
    0x2e68ee1155c45c4d7e4529071aa28c1e8008b71ef2f999dc312e04965c0cfb8a959c2c6fbc8c4462619c088963ef313dae76e24e459fbbaaf2840a07ba80c15
    0xd122fdd9594a95583279bd9627194aa8777bfad739e3fd2bd5ec0968ed24b8a474f751eb81468b1ff05581a3d55bd12cf933b5b6b5d3799b8850ff1011c75618 = true := by decide +kernel

theorem run21 : iter inner outer
    0xee55e97ed706d3e7477ebdf40c0209e3c86b2ac8369a2e241181fbb7dc22655ab60aca8866267c572cdc5bf94d96eaf37f5641f019a94809df6abdea82246958
    0x16162a929dcc520929913f348337846f2ef93cd211286ef4d55bf7b480d8294426a336ffb862f950b2be71f0d05e696295d88264908c06d62d995cf938b5d59a 64
    0xc1699a005665b5993e3d488e27eac62f57a1ff942606d9d23625b8bc2a52661935ba067073d1e0bc0840796c2f1a2703a0c34977e60b40570cad3a9f1a138195
    0x6ce1e47bf042424281ebacc94f061be8cec5b1c298aef911ec071dec98ef7c44066f9a20b8d591fe279e1108bb351b9c98f0d2ac674f94f24b3985f5e6aee027 = true := by decide +kernel

theorem run22 : iter inner outer
    0xa9b6fb5429f1c3e663465fae0bced7f34f538f73d32cc0e3c2ad2f309dcb0158370c92f947e178ada4c3d4038649d2b12cf641110703f1ed7d2fa80191b4b699
    0xbb2eb3d9cced0eb354245af17354d33c6e0b1980fb9f8a360ade06ed7396216db4a09e55c82dd7edbb334cea373aca3d7f02c6f37a920009ff0dbcdbca544329 64
    0xee55e97ed706d3e7477ebdf40c0209e3c86b2ac8369a2e241181fbb7dc22655ab60aca8866267c572cdc5bf94d96eaf37f5641f019a94809df6abdea82246958
    0x16162a929dcc520929913f348337846f2ef93cd211286ef4d55bf7b480d8294426a336ffb862f950b2be71f0d05e696295d88264908c06d62d995cf938b5d59a = true := by decide +kernel

theorem run23 : iter inner outer
    0x31980922dbd0c08a64a1f3875d8029819dcf4af2b048bee33be19337578fcffdf0adb6c5fa1a62704722b7b4a99ef8b57967b602837045897f74d4fea0d8dff2
    0x8f6eb8d73692bdd7853c978f90d86cb6650106ad11a3c385b966fcc26aa38ca6c4c3dff9140c036be5b87f39cebc09b50a87e95cd549f1a0a9870bb03b2db7af 64
    0xa9b6fb5429f1c3e663465fae0bced7f34f538f73d32cc0e3c2ad2f309dcb0158370c92f947e178ada4c3d4038649d2b12cf641110703f1ed7d2fa80191b4b699
    0xbb2eb3d9cced0eb354245af17354d33c6e0b1980fb9f8a360ade06ed7396216db4a09e55c82dd7edbb334cea373aca3d7f02c6f37a920009ff0dbcdbca544329 = true := by decide +kernel

end Stacks.Concrete.Seed
