import Verif.Concrete.SeedBase

/-! # The seed of the phrase of the repository's tests: part 2 of the 2047 iterations

Each theorem is 64 iterations (the last one 63), evaluated by the kernel. -/

namespace Stacks.Concrete.Seed
open FastPbkdf

theorem run8 : iter inner outer
    0x7d53e79d8e2368968099a7a0be85ad2652027795e1db41005e33fb0671630c7a5fe2a6df850187c7c31ea38cbc34d3149473224be4d5a6f284c2dc2d22889861
    0xb9de760a07e4be70fda90558c14ce6e8c6cfb1b0e30c238d4b5264f0f347137199408df5bf0ab5ff4bd57d33b96004778d626e97bdccbe8290ab69f56b98a27d 64
    0x8b5c6ab58127ca8d001da37a92509fc69c73bccbc61e5da6482ae780890e56c44b88855710c2593da5b42cd3d56f5d27215f6c34757eef9a61618969c9c6facd
    0x763c18479e9d4856ce1d5ba201c2a599cd8d3e0df4467f8a3cf68b347e23d20c6b54ea286079e388613ed162e999f3a5d4f8ead50f1ce57c4ab05f173b16c133 = true := by decide +kernel

theorem run9 : iter inner outer
    0xa2dc2ac805342fe6bac286053e86bea90ea019f54c6a74614e5e932f33e140238190bb351e31b6a3adfa1c2c7a52db5672e6af7e586a15059b9054d99b55e9fc
    0xbc075da197480114748a9b18a1b14211aa03eabf092f023b07a655e19f191df287a218865d9c0a7a4b23da6cd420de2c680f8f031c63729d35acc8ac7d2eac39 64
    0x7d53e79d8e2368968099a7a0be85ad2652027795e1db41005e33fb0671630c7a5fe2a6df850187c7c31ea38cbc34d3149473224be4d5a6f284c2dc2d22889861
    0xb9de760a07e4be70fda90558c14ce6e8c6cfb1b0e30c238d4b5264f0f347137199408df5bf0ab5ff4bd57d33b96004778d626e97bdccbe8290ab69f56b98a27d = true := by decide +kernel

theorem run10 : iter inner outer
    0xd1679d6e04b1ad5aac3ef45a94e70e7694a3c2ea81275444f47f26eb6539827a8c0eea3de55d691f38176b55175576b9f104081da7de4d4cea8cbb4c555497a7
    0x46e6a9da3e94b4b10081e3de2ee44ba272c415be23f73d12942aa60123522f6e7f16c81ae16b2783fc9e66d8449a1814fdd78e1bdbbb19cccd11defd0eca89d7 64
    0xa2dc2ac805342fe6bac286053e86bea90ea019f54c6a74614e5e932f33e140238190bb351e31b6a3adfa1c2c7a52db5672e6af7e586a15059b9054d99b55e9fc
    0xbc075da197480114748a9b18a1b14211aa03eabf092f023b07a655e19f191df287a218865d9c0a7a4b23da6cd420de2c680f8f031c63729d35acc8ac7d2eac39 = true := by decide +kernel

theorem run11 : iter inner outer
    0xfd428b56607343cbe2a8709fdadecfa3a7ebe9dd40d008c0c0a043da20968c8aacdc93e1e306dd80e10f7590dde73b37f346939c9003516856ee36a25b8c245b
    0x3a136ec8c6dceabbb01648c0b10414ae1c6b8ab28f4e7981abd223c7c443321e47a07e924acc561b10d1e86d7f1c0b5f55ea3c975e45058b56d3ae425df6e2c3 64
    0xd1679d6e04b1ad5aac3ef45a94e70e7694a3c2ea81275444f47f26eb6539827a8c0eea3de55d691f38176b55175576b9f104081da7de4d4cea8cbb4c555497a7
    0x46e6a9da3e94b4b10081e3de2ee44ba272c415be23f73d12942aa60123522f6e7f16c81ae16b2783fc9e66d8449a1814fdd78e1bdbbb19cccd11defd0eca89d7 = true := by decide +kernel

theorem run12 : iter inner outer
    0xe9ab6715860a09797c661976055b04eb0c7a6eea4de88bc1c6d8da9212aabda0db91a6c4339ce5c9068933798e0e96b5f852de03240ac49bc8f425237ae606ac
    0x4989276fd0e23155f9802f936e42305726bf34ec1ad8b726786f772c6b61876fb5c565bc1ae884e700fcd59cfbc787510fc3f8a78b2743d4be1da5ea61c7ed3c 64
    0xfd428b56607343cbe2a8709fdadecfa3a7ebe9dd40d008c0c0a043da20968c8aacdc93e1e306dd80e10f7590dde73b37f346939c9003516856ee36a25b8c245b
    0x3a136ec8c6dceabbb01648c0b10414ae1c6b8ab28f4e7981abd223c7c443321e47a07e924acc561b10d1e86d7f1c0b5f55ea3c975e45058b56d3ae425df6e2c3 = true := by decide +kernel

theorem run13 : iter inner outer
    0x4746e91a17c21a49d4d49f9e389a67d3bee9ade2388ed0823a31dfbd77969966202c64d30542db6bae0384ab16da5105476e8aaab24e8f0aad4a35aaab9eb07e
    0x9900ad788033435f12eb9b4a2f24e8778af0ee105e9e73ebc1322c15be62a438cf4ce515e8a94ff476953140960ad86c035efcf84b2f75cf9464da0d4a325682 64
    0xe9ab6715860a09797c661976055b04eb0c7a6eea4de88bc1c6d8da9212aabda0db91a6c4339ce5c9068933798e0e96b5f852de03240ac49bc8f425237ae606ac
    0x4989276fd0e23155f9802f936e42305726bf34ec1ad8b726786f772c6b61876fb5c565bc1ae884e700fcd59cfbc787510fc3f8a78b2743d4be1da5ea61c7ed3c = true := by decide +kernel

theorem run14 : iter inner outer
    0xabdc32470182367fb5aa87491b49645203ef7f3cea7c254ab70e5a37723007ff4f05b6c90aae4bc0b63b8826e4e311dfc033b3c2623c6b6b5c3d1f463e1698eb
    0x289b849b124f11d07fc7d831648013bac1255f78af720a3a4a801ef4461a623c9b831e29400e188231841438e8b4dcec59c7c66022a8739d4e5741c13d4f291 64
    0x4746e91a17c21a49d4d49f9e389a67d3bee9ade2388ed0823a31dfbd77969966202c64d30542db6bae0384ab16da5105476e8aaab24e8f0aad4a35aaab9eb07e
    0x9900ad788033435f12eb9b4a2f24e8778af0ee105e9e73ebc1322c15be62a438cf4ce515e8a94ff476953140960ad86c035efcf84b2f75cf9464da0d4a325682 = true := by decide +kernel

theorem run15 : iter inner outer
    0xcd64745853c056bf3dd6a0b260432eb8517873c72a353c7d82f1f5d689b99b52005edfdb626d74e1b9ca96fecbd1d30da835d66d084a2710d00a08958713d25e
    0x8c9168791d893e6d5c86b5f57cd79ab81e129fde74bdb29ed976b3a888c564512fcb6aac222d7dbf8e89fd18b317ef33612d0d42b97ae980496ce56c8dfb53be 64
    0xabdc32470182367fb5aa87491b49645203ef7f3cea7c254ab70e5a37723007ff4f05b6c90aae4bc0b63b8826e4e311dfc033b3c2623c6b6b5c3d1f463e1698eb
    0x289b849b124f11d07fc7d831648013bac1255f78af720a3a4a801ef4461a623c9b831e29400e188231841438e8b4dcec59c7c66022a8739d4e5741c13d4f291 = true := by decide +kernel

end Stacks.Concrete.Seed
