/-! # PBKDF2 for the kernel: the functions

The 2048 iterations of PBKDF2 are too many for the kernel in the form of `Verif/Concrete/Bip32.lean`: a window of the
message schedule is a list there, and lists are slow. Here the window is one number, so is a digest, and the operations
are those the kernel has its own arithmetic for. This file models no code of the repository: that the fast form computes
the same is proved in `Verif/Concrete/FastPbkdf.lean`, so that the seed of a phrase can be evaluated
(`Verif/Concrete/Seed.lean`). -/

namespace Stacks.Concrete.FastPbkdf

local macro:max "§" n:num : term => `(nat_lit $n)
local infixl:65 " ⊞ " => Nat.add
local infixl:60 " ⊻ " => Nat.xor
local infixl:75 " ⊳ " => Nat.shiftRight
local notation "M" => nat_lit 18446744073709551616
local notation "D" => nat_lit 18446744073709551617

/-- Evaluate to a numeral before continuing. -/
def frc {α : Type} (x : Nat) (k : Nat → α) : α :=
  Nat.rec (motive := fun _ => (Nat → α) → α) (fun k => k §0) (fun n _ k => k n.succ) x k

theorem frc_eq {α : Type} (x : Nat) (k : Nat → α) : frc x k = k x := by cases x <;> rfl

/-- The constants of SHA-512. -/
def ks : List Nat := [
  §4794697086780616226, §8158064640168781261, §13096744586834688815, §16840607885511220156,
  §4131703408338449720, §6480981068601479193, §10538285296894168987, §12329834152419229976,
  §15566598209576043074, §1334009975649890238, §2608012711638119052, §6128411473006802146,
  §8268148722764581231, §9286055187155687089, §11230858885718282805, §13951009754708518548,
  §16472876342353939154, §17275323862435702243, §1135362057144423861, §2597628984639134821,
  §3308224258029322869, §5365058923640841347, §6679025012923562964, §8573033837759648693,
  §10970295158949994411, §12119686244451234320, §12683024718118986047, §13788192230050041572,
  §14330467153632333762, §15395433587784984357, §489312712824947311, §1452737877330783856,
  §2861767655752347644, §3322285676063803686, §5560940570517711597, §5996557281743188959,
  §7280758554555802590, §8532644243296465576, §9350256976987008742, §10552545826968843579,
  §11727347734174303076, §12113106623233404929, §14000437183269869457, §14369950271660146224,
  §15101387698204529176, §15463397548674623760, §17586052441742319658, §1182934255886127544,
  §1847814050463011016, §2177327727835720531, §2830643537854262169, §3796741975233480872,
  §4115178125766777443, §5681478168544905931, §6601373596472566643, §7507060721942968483,
  §8399075790359081724, §8693463985226723168, §9568029438360202098, §10144078919501101548,
  §10430055236837252648, §11840083180663258601, §13761210420658862357, §14299343276471374635,
  §14566680578165727644, §15097957966210449927, §16922976911328602910, §17689382322260857208,
  §500013540394364858, §748580250866718886, §1242879168328830382, §1977374033974150939,
  §2944078676154940804, §3659926193048069267, §4368137639120453308, §4836135668995329356,
  §5532061633213252278, §6448918945643986474, §6902733635092675308, §7801388544844847127]

/-- The three rotations of a word, up to multiples of 2⁶⁴: the word is written twice, one behind the other. -/
local macro "rot3 " x:term:max a:num b:num c:num : term =>
  `(Nat.mul $x D ⊳ (nat_lit $a) ⊻ Nat.mul $x D ⊳ (nat_lit $b) ⊻ Nat.mul $x D ⊳ (nat_lit $c))
/-- Two rotations and a shift. -/
local macro "rot2 " x:term:max a:num b:num c:num : term =>
  `(Nat.mul $x D ⊳ (nat_lit $a) ⊻ Nat.mul $x D ⊳ (nat_lit $b) ⊻ $x ⊳ (nat_lit $c))

/-- The rounds of SHA-512. `W` is the window of the next 16 words of the schedule, the first one lowest. -/
noncomputable def rounds (fin : Nat → Nat → Nat → Nat → Nat → Nat → Nat → Nat → Nat) (ks : List Nat) :
    (W a b c d e f g h : Nat) → Nat :=
  List.rec (motive := fun _ => Nat → Nat → Nat → Nat → Nat → Nat → Nat → Nat → Nat → Nat)
    (fun _ a b c d e f g h => fin a b c d e f g h)
    (fun k _ ih W a b c d e f g h =>
      frc (h ⊞ (rot3 e 14 18 41) ⊞ (g ⊻ Nat.land e (f ⊻ g)) ⊞ k ⊞ W) fun t =>
      frc (W ⊳ §64) fun V =>
      frc (Nat.mod V M) fun x =>
      frc (Nat.mod (V ⊳ §832) M) fun y =>
      frc (V ⊞ Nat.shiftLeft (Nat.mod (W ⊞ V ⊳ §512 ⊞ (rot2 x 1 8 7) ⊞ (rot2 y 19 61 6)) M) §960) fun W' =>
      frc (Nat.mod (t ⊞ (rot3 a 28 34 39) ⊞ (Nat.land a b ⊻ Nat.land c (a ⊻ b))) M) fun a' =>
      frc (Nat.mod (d ⊞ t) M) fun e' =>
      ih W' a' a b c e' e f g) ks

/-- The hash of the block of the 8 words of `U` and the padding of a message of 192 bytes, from the state `h0` … `h7`.
-/
noncomputable def comp (h0 h1 h2 h3 h4 h5 h6 h7 U : Nat) : Nat :=
  rounds (fun a b c d e f g h =>
    Nat.mod (h0 ⊞ a) M ⊞ (Nat.shiftLeft (Nat.mod (h1 ⊞ b) M) §64 ⊞ (Nat.shiftLeft (Nat.mod (h2 ⊞ c) M) §128 ⊞
    (Nat.shiftLeft (Nat.mod (h3 ⊞ d) M) §192 ⊞ (Nat.shiftLeft (Nat.mod (h4 ⊞ e) M) §256 ⊞
    (Nat.shiftLeft (Nat.mod (h5 ⊞ f) M) §320 ⊞ (Nat.shiftLeft (Nat.mod (h6 ⊞ g) M) §384 ⊞
    Nat.shiftLeft (Nat.mod (h7 ⊞ h) M) §448))))))) ks
    (U ⊞ §14968802321510398587422795347776289245505884453265931561269104318279089189017230493387184741194767758170068351331443714453458485649504219485795048996959830669965717097739062530913060957281334957135833760742279960571503573212242240924736084189042848334679011785341247863264272672530966148808704)
    h0 h1 h2 h3 h4 h5 h6 h7

/-- Some iterations, with given hash functions of a block, and a comparison with what should come out. -/
noncomputable def iter (inner outer : Nat → Nat) (u' acc' n : Nat) : (u acc : Nat) → Bool :=
  Nat.rec (motive := fun _ => Nat → Nat → Bool) (fun u acc => Nat.beq u u' && Nat.beq acc acc')
    (fun _ ih u acc => frc (inner u) fun v => frc (outer v) fun u => frc (acc ⊻ u) fun acc => ih u acc) n

end Stacks.Concrete.FastPbkdf
