import Verif.Concrete.SeedBase

/-! # The seed of the phrase of the repository's tests: part 1 of the 2047 iterations

Each theorem is 64 iterations (the last one 63), evaluated by the kernel. -/

namespace Stacks.Concrete.Seed
open FastPbkdf

theorem run0 : iter inner outer
    0x8db6c462cbd72189c7b31aa3dd7c5d41c1cbc59d58630712381d3d7113584d9dcd6356a70e719cbd5912564484d8d9858187e37ba0a3c06a80d30df5d5056dd0
    0x1ad89a2e4c707898155120dfbe52ea48d7a605d972a3751176b10035527fb18c47bef4267dcaa7a5caf36ff72eb2fbc110cc7c5d93f85730600653b33f1b83c 64
    0x42473e9f98b6b4f1daddc9a75a82a9cf5fb6df1c616984fd8394ebbb32729ce130a56860cd7af8a709a2ab220924ff5e3fcbec59c78c37c832ab40135ffa89a7
    0x42473e9f98b6b4f1daddc9a75a82a9cf5fb6df1c616984fd8394ebbb32729ce130a56860cd7af8a709a2ab220924ff5e3fcbec59c78c37c832ab40135ffa89a7 = true := by decide +kernel

theorem run1 : iter inner outer
    0x58dbbaeb75d23d6120ce2b948a6720a0f757c35cbc491b6d0e6527e8b6ddd3519b4f83accb0f8477afc2062056fbb82514a3a1dedcc772e23c31199e71a2b4d8
    0xd791d3df1e678d7a87e352348a174661151b4204a55ce7473584b9d0ad0ce6efd98730074dcc62f16d127dd057409a7149abbf95c267b2bb001dad9690242481 64
    0x8db6c462cbd72189c7b31aa3dd7c5d41c1cbc59d58630712381d3d7113584d9dcd6356a70e719cbd5912564484d8d9858187e37ba0a3c06a80d30df5d5056dd0
    0x1ad89a2e4c707898155120dfbe52ea48d7a605d972a3751176b10035527fb18c47bef4267dcaa7a5caf36ff72eb2fbc110cc7c5d93f85730600653b33f1b83c = true := by decide +kernel

theorem run2 : iter inner outer
    0xa748514da8a05b53e2cbd4ff0c0125d90e5d2fca24851e2da2256772de8b10676f0cee54afe4172066ca002451bdd4f114f92909bfe0e57c6cfef0baa84dcfaf
    0xf90cecc21655a758442f1f86a381caa18a1b5ed11d22c25b170bc582048d3d0bb8fb431c4ec187e17ad1bce65bb50195d026753a950768281bfb216753ac74a6 64
    0x58dbbaeb75d23d6120ce2b948a6720a0f757c35cbc491b6d0e6527e8b6ddd3519b4f83accb0f8477afc2062056fbb82514a3a1dedcc772e23c31199e71a2b4d8
    0xd791d3df1e678d7a87e352348a174661151b4204a55ce7473584b9d0ad0ce6efd98730074dcc62f16d127dd057409a7149abbf95c267b2bb001dad9690242481 = true := by decide +kernel

theorem run3 : iter inner outer
    0x50016b704fd797811e831cdbd26f15df97b6f3ee42ac3af16bf8ee308b7f5d95c3a960264b01c32a872ad3da4ee74ce9fe27542d8fc72200db55a2137be4f1fa
    0x6cc1fea8ed6df86b8be1bdd49b81d76b84f48176e3a5c4a20a254591095c3125fa8d80e3610add0fe65c2f364a519a5b9773993be73bf1c3a78dab34e0d6eb3e 64
    0xa748514da8a05b53e2cbd4ff0c0125d90e5d2fca24851e2da2256772de8b10676f0cee54afe4172066ca002451bdd4f114f92909bfe0e57c6cfef0baa84dcfaf
    0xf90cecc21655a758442f1f86a381caa18a1b5ed11d22c25b170bc582048d3d0bb8fb431c4ec187e17ad1bce65bb50195d026753a950768281bfb216753ac74a6 = true := by decide +kernel

theorem run4 : iter inner outer
    0x382a060a6b0ad6b39805561e0166da048c6f5d6a0dca12960c788ed04d249473c4da2b73b0a73607f9ff1914e68a9fc0f1618d5ec29bdb53a7c2f88d5f622c5d
    0xc24880d2537734b8c1473575e0026b661e72ae04b2b0443d52a76c52d6f20eb1cc0618ee550cc42429c3a92a60622169bf2682513eaf4414021bcf4c0b229d67 64
    0x50016b704fd797811e831cdbd26f15df97b6f3ee42ac3af16bf8ee308b7f5d95c3a960264b01c32a872ad3da4ee74ce9fe27542d8fc72200db55a2137be4f1fa
    0x6cc1fea8ed6df86b8be1bdd49b81d76b84f48176e3a5c4a20a254591095c3125fa8d80e3610add0fe65c2f364a519a5b9773993be73bf1c3a78dab34e0d6eb3e = true := by decide +kernel

theorem run5 : iter inner outer
    0xa9cf4f8994799a4b4da7bf27bc1cd4e4c566ae8eea76a821917fd822e3805d04d59bb700febe1cc7e8bc07ef0768e312f7290e1a6357d31160ebffa7a311dd1
    0xac9a370f426f08905fa729b08795fcd72e793cc7c0826dd085aa2b54b530f97db9540a031da536e1acc6b04736991e0ce8a0e3beb677fba003185ac6ca1a5152 64
    0x382a060a6b0ad6b39805561e0166da048c6f5d6a0dca12960c788ed04d249473c4da2b73b0a73607f9ff1914e68a9fc0f1618d5ec29bdb53a7c2f88d5f622c5d
    0xc24880d2537734b8c1473575e0026b661e72ae04b2b0443d52a76c52d6f20eb1cc0618ee550cc42429c3a92a60622169bf2682513eaf4414021bcf4c0b229d67 = true := by decide +kernel

theorem run6 : iter inner outer
    0x3ba5f3d469c653add307b05b0f84a602e8ea9379c474283e6c85980b3f6f1cd23b3166f8489e0bcf741ba8b13ddf2c260bc512f047d55b578decc3a8db82c8a5
    0xdbe6ecd279eea27a4ab11b03926a7e6ab744d98f097bf96bbcdceb0076981a7e4d42ab5685cd8a9214063c97fb40bc73345ba104e34de91952415344f6cf4844 64
    0xa9cf4f8994799a4b4da7bf27bc1cd4e4c566ae8eea76a821917fd822e3805d04d59bb700febe1cc7e8bc07ef0768e312f7290e1a6357d31160ebffa7a311dd1
    0xac9a370f426f08905fa729b08795fcd72e793cc7c0826dd085aa2b54b530f97db9540a031da536e1acc6b04736991e0ce8a0e3beb677fba003185ac6ca1a5152 = true := by decide +kernel

theorem run7 : iter inner outer
    0x8b5c6ab58127ca8d001da37a92509fc69c73bccbc61e5da6482ae780890e56c44b88855710c2593da5b42cd3d56f5d27215f6c34757eef9a61618969c9c6facd
    0x763c18479e9d4856ce1d5ba201c2a599cd8d3e0df4467f8a3cf68b347e23d20c6b54ea286079e388613ed162e999f3a5d4f8ead50f1ce57c4ab05f173b16c133 64
    0x3ba5f3d469c653add307b05b0f84a602e8ea9379c474283e6c85980b3f6f1cd23b3166f8489e0bcf741ba8b13ddf2c260bc512f047d55b578decc3a8db82c8a5
    0xdbe6ecd279eea27a4ab11b03926a7e6ab744d98f097bf96bbcdceb0076981a7e4d42ab5685cd8a9214063c97fb40bc73345ba104e34de91952415344f6cf4844 = true := by decide +kernel

end Stacks.Concrete.Seed
