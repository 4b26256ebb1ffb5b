import Verif.Concrete.FastPbkdfDef

/-! # The seed of the phrase of the repository's tests: the two hash functions of a block

They are the hash function of SHA-512 from the states it has after the block of the key of HMAC, the phrase of
`/repo/stacks/src/wallet.rs:153` (`Vectors.phrase`). That these are the states is proved in `Verif/Concrete/Seed.lean`. -/

namespace Stacks.Concrete.Seed
open FastPbkdf

noncomputable def inner : Nat → Nat := comp
  (nat_lit 9503529611295081011) (nat_lit 13610700109180017949) (nat_lit 13012709391070369546) (nat_lit 16328868990151669596)
  (nat_lit 6054922978750273969) (nat_lit 16515145918237665102) (nat_lit 8011240328576485666) (nat_lit 4380018986550406399)

noncomputable def outer : Nat → Nat := comp
  (nat_lit 9496247687216563808) (nat_lit 6112414131427042894) (nat_lit 2490186441560391138) (nat_lit 16414591847729112294)
  (nat_lit 14561817319521754167) (nat_lit 1671029649924405483) (nat_lit 9225207703627018412) (nat_lit 14127692286001667436)

end Stacks.Concrete.Seed
