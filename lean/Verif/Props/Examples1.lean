import Verif.Props.Legible

/-!
# C99: lines of the files of examples, part 1

Written by tools/mk_examples.py.
-/

-- with one thread for each theorem the memory of the last one is not used again
set_option Elab.async false

namespace Cnars.Props

/-- In examples/single_step/nal1. -/
def exampleLine1 : List Char := "<A --> B>!".toList
theorem exampleLine1_legible : legible? 11 exampleLine1 = true := by decide +kernel

/-- In examples/single_step/nal1. -/
def exampleLine2 : List Char := "<A --> B>@".toList
theorem exampleLine2_legible : legible? 11 exampleLine2 = true := by decide +kernel

/-- In examples/single_step/nal1. -/
def exampleLine3 : List Char := "<bird --> swimmer>. %1.00;0.90%".toList
theorem exampleLine3_legible : legible? 11 exampleLine3 = true := by decide +kernel

/-- In examples/single_step/nal1. -/
def exampleLine4 : List Char := "<bird --> swimmer>. %0.10;0.60%".toList
theorem exampleLine4_legible : legible? 11 exampleLine4 = true := by decide +kernel

/-- In examples/single_step/nal1. -/
def exampleLine5 : List Char := "<bird --> animal>.".toList
theorem exampleLine5_legible : legible? 11 exampleLine5 = true := by decide +kernel

/-- In examples/single_step/nal1. -/
def exampleLine6 : List Char := "<robin --> bird>.".toList
theorem exampleLine6_legible : legible? 11 exampleLine6 = true := by decide +kernel

/-- In examples/single_step/nal1. -/
def exampleLine7 : List Char := "<sport --> competition>.".toList
theorem exampleLine7_legible : legible? 11 exampleLine7 = true := by decide +kernel

/-- In examples/single_step/nal1. -/
def exampleLine8 : List Char := "<chess --> competition>. %0.90%".toList
theorem exampleLine8_legible : legible? 11 exampleLine8 = true := by decide +kernel

/-- In examples/single_step/nal1. -/
def exampleLine9 : List Char := "<swan --> swimmer>. %0.90%".toList
theorem exampleLine9_legible : legible? 11 exampleLine9 = true := by decide +kernel

/-- In examples/single_step/nal1. -/
def exampleLine10 : List Char := "<swan --> bird>.".toList
theorem exampleLine10_legible : legible? 11 exampleLine10 = true := by decide +kernel

/-- In examples/single_step/nal1. -/
def exampleLine11 : List Char := "<bird --> swimmer>.".toList
theorem exampleLine11_legible : legible? 11 exampleLine11 = true := by decide +kernel

/-- In examples/single_step/nal1. -/
def exampleLine12 : List Char := "<swimmer --> bird>?".toList
theorem exampleLine12_legible : legible? 11 exampleLine12 = true := by decide +kernel

/-- In examples/single_step/nal1. -/
def exampleLine13 : List Char := "<bird --> swimmer>?".toList
theorem exampleLine13_legible : legible? 11 exampleLine13 = true := by decide +kernel

/-- In examples/single_step/nal1. -/
def exampleLine14 : List Char := "<bird --> swimmer>. %1.00;0.80%".toList
theorem exampleLine14_legible : legible? 11 exampleLine14 = true := by decide +kernel

/-- In examples/single_step/nal1. -/
def exampleLine15 : List Char := "<?x --> swimmer>?".toList
theorem exampleLine15_legible : legible? 11 exampleLine15 = true := by decide +kernel

/-- In examples/single_step/nal1. -/
def exampleLine16 : List Char := "<?1 --> swimmer>?".toList
theorem exampleLine16_legible : legible? 11 exampleLine16 = true := by decide +kernel

/-- In examples/single_step/nal2. -/
def exampleLine17 : List Char := "<robin <-> swan>.".toList
theorem exampleLine17_legible : legible? 11 exampleLine17 = true := by decide +kernel

/-- In examples/single_step/nal2. -/
def exampleLine18 : List Char := "<robin <-> swan>. %0.10;0.60%".toList
theorem exampleLine18_legible : legible? 11 exampleLine18 = true := by decide +kernel

/-- In examples/single_step/nal2. -/
def exampleLine19 : List Char := "<Birdie <-> Tweety>. %0.90%".toList
theorem exampleLine19_legible : legible? 11 exampleLine19 = true := by decide +kernel

/-- In examples/single_step/nal2. -/
def exampleLine20 : List Char := "<{Birdie} <-> {Tweety}>?".toList
theorem exampleLine20_legible : legible? 11 exampleLine20 = true := by decide +kernel

/-- In examples/single_step/nal2. -/
def exampleLine21 : List Char := "<swan --> bird>. %0.90%".toList
theorem exampleLine21_legible : legible? 11 exampleLine21 = true := by decide +kernel

/-- In examples/single_step/nal2. -/
def exampleLine22 : List Char := "<bird <-> swan>?".toList
theorem exampleLine22_legible : legible? 11 exampleLine22 = true := by decide +kernel

/-- In examples/single_step/nal2. -/
def exampleLine23 : List Char := "<bird <-> swan>. %0.90%".toList
theorem exampleLine23_legible : legible? 11 exampleLine23 = true := by decide +kernel

/-- In examples/single_step/nal2. -/
def exampleLine24 : List Char := "<swan --> bird>?".toList
theorem exampleLine24_legible : legible? 11 exampleLine24 = true := by decide +kernel

/-- In examples/single_step/nal2. -/
def exampleLine25 : List Char := "<Tweety {-- bird>.".toList
theorem exampleLine25_legible : legible? 11 exampleLine25 = true := by decide +kernel

/-- In examples/single_step/nal2. -/
def exampleLine26 : List Char := "<raven --] black>.".toList
theorem exampleLine26_legible : legible? 11 exampleLine26 = true := by decide +kernel

/-- In examples/single_step/nal2. -/
def exampleLine27 : List Char := "<Tweety {-] yellow>.".toList
theorem exampleLine27_legible : legible? 11 exampleLine27 = true := by decide +kernel

/-- In examples/single_step/nal2. -/
def exampleLine28 : List Char := "<{Tweety} --> {Birdie}>.".toList
theorem exampleLine28_legible : legible? 11 exampleLine28 = true := by decide +kernel

/-- In examples/single_step/nal2. -/
def exampleLine29 : List Char := "<[smart] --> [bright]>.".toList
theorem exampleLine29_legible : legible? 11 exampleLine29 = true := by decide +kernel

/-- In examples/single_step/nal2. -/
def exampleLine30 : List Char := "<{Birdie} <-> {Tweety}>.".toList
theorem exampleLine30_legible : legible? 11 exampleLine30 = true := by decide +kernel

/-- In examples/single_step/nal2. -/
def exampleLine31 : List Char := "<[bright] <-> [smart]>.".toList
theorem exampleLine31_legible : legible? 11 exampleLine31 = true := by decide +kernel

/-- In examples/single_step/nal2. -/
def exampleLine32 : List Char := "<{?1} --> swimmer>?".toList
theorem exampleLine32_legible : legible? 11 exampleLine32 = true := by decide +kernel

/-- In examples/single_step/nal2. -/
def exampleLine33 : List Char := "<swan --> swimmer>.".toList
theorem exampleLine33_legible : legible? 11 exampleLine33 = true := by decide +kernel

/-- In examples/single_step/nal2. -/
def exampleLine34 : List Char := "<gull <-> swan>.".toList
theorem exampleLine34_legible : legible? 11 exampleLine34 = true := by decide +kernel

/-- In examples/single_step/nal2. -/
def exampleLine35 : List Char := "<gull --> swimmer>.".toList
theorem exampleLine35_legible : legible? 11 exampleLine35 = true := by decide +kernel

/-- In examples/single_step/nal2. -/
def exampleLine36 : List Char := "<bird --> swan>. %0.10%".toList
theorem exampleLine36_legible : legible? 11 exampleLine36 = true := by decide +kernel

/-- In examples/single_step/nal2. -/
def exampleLine37 : List Char := "<bright <-> smart>. %0.90%".toList
theorem exampleLine37_legible : legible? 11 exampleLine37 = true := by decide +kernel

/-- In examples/single_step/nal2. -/
def exampleLine38 : List Char := "<[smart] --> [bright]>?".toList
theorem exampleLine38_legible : legible? 11 exampleLine38 = true := by decide +kernel

/-- In examples/single_step/nal2. -/
def exampleLine39 : List Char := "<bird <-> swan>. %0.10%".toList
theorem exampleLine39_legible : legible? 11 exampleLine39 = true := by decide +kernel

/-- In examples/single_step/nal3. -/
def exampleLine40 : List Char := "<swan --> bird>. %0.80%".toList
theorem exampleLine40_legible : legible? 11 exampleLine40 = true := by decide +kernel

/-- In examples/single_step/nal3. -/
def exampleLine41 : List Char := "<sport --> competition>. %0.90%".toList
theorem exampleLine41_legible : legible? 11 exampleLine41 = true := by decide +kernel

/-- In examples/single_step/nal3. -/
def exampleLine42 : List Char := "<chess --> competition>. %0.80%".toList
theorem exampleLine42_legible : legible? 11 exampleLine42 = true := by decide +kernel

/-- In examples/single_step/nal3. -/
def exampleLine43 : List Char := "<swan --> (-,swimmer,bird)>?".toList
theorem exampleLine43_legible : legible? 11 exampleLine43 = true := by decide +kernel

/-- In examples/single_step/nal3. -/
def exampleLine44 : List Char := "<(~,swimmer, swan) --> bird>?".toList
theorem exampleLine44_legible : legible? 11 exampleLine44 = true := by decide +kernel

/-- In examples/single_step/nal3. -/
def exampleLine45 : List Char := "<robin --> (&,bird,swimmer)>. %0.90%".toList
theorem exampleLine45_legible : legible? 11 exampleLine45 = true := by decide +kernel

/-- In examples/single_step/nal3. -/
def exampleLine46 : List Char := "<robin --> (-,bird,swimmer)>. %0.90%".toList
theorem exampleLine46_legible : legible? 11 exampleLine46 = true := by decide +kernel

/-- In examples/single_step/nal3. -/
def exampleLine47 : List Char := "<(|, boy, girl) --> youth>. %0.90%".toList
theorem exampleLine47_legible : legible? 11 exampleLine47 = true := by decide +kernel

/-- In examples/single_step/nal3. -/
def exampleLine48 : List Char := "<(~, boy, girl) --> [strong]>. %0.90%".toList
theorem exampleLine48_legible : legible? 11 exampleLine48 = true := by decide +kernel

/-- In examples/single_step/nal3. -/
def exampleLine49 : List Char := "<robin --> (|,bird,swimmer)>.".toList
theorem exampleLine49_legible : legible? 11 exampleLine49 = true := by decide +kernel

/-- In examples/single_step/nal3. -/
def exampleLine50 : List Char := "<robin --> swimmer>. %0.00%".toList
theorem exampleLine50_legible : legible? 11 exampleLine50 = true := by decide +kernel

/-- In examples/single_step/nal3. -/
def exampleLine51 : List Char := "<robin --> (-,mammal,swimmer)>. %0.00%".toList
theorem exampleLine51_legible : legible? 11 exampleLine51 = true := by decide +kernel

/-- In examples/single_step/nal3. -/
def exampleLine52 : List Char := "<planetX --> {Mars,Pluto,Venus}>. %0.90%".toList
theorem exampleLine52_legible : legible? 11 exampleLine52 = true := by decide +kernel

/-- In examples/single_step/nal3. -/
def exampleLine53 : List Char := "<planetX --> {Pluto,Saturn}>. %0.70%".toList
theorem exampleLine53_legible : legible? 11 exampleLine53 = true := by decide +kernel

/-- In examples/single_step/nal3. -/
def exampleLine54 : List Char := "<planetX --> {Pluto,Saturn}>. %0.10%".toList
theorem exampleLine54_legible : legible? 11 exampleLine54 = true := by decide +kernel

/-- In examples/single_step/nal3. -/
def exampleLine55 : List Char := "<bird --> animal>. %0.90%".toList
theorem exampleLine55_legible : legible? 11 exampleLine55 = true := by decide +kernel

/-- In examples/single_step/nal3. -/
def exampleLine56 : List Char := "<(&,bird,swimmer) --> (&,animal,swimmer)>?".toList
theorem exampleLine56_legible : legible? 11 exampleLine56 = true := by decide +kernel

/-- In examples/single_step/nal3. -/
def exampleLine57 : List Char := "<bird --> animal>. %0.90;0.90%".toList
theorem exampleLine57_legible : legible? 11 exampleLine57 = true := by decide +kernel

/-- In examples/single_step/nal3. -/
def exampleLine58 : List Char := "<(-,swimmer,animal) --> (-,swimmer,bird)>?".toList
theorem exampleLine58_legible : legible? 11 exampleLine58 = true := by decide +kernel

/-- In examples/single_step/nal3. -/
def exampleLine59 : List Char := "<swan --> (|,bird,swimmer)>?".toList
theorem exampleLine59_legible : legible? 11 exampleLine59 = true := by decide +kernel

/-- In examples/single_step/nal3. -/
def exampleLine60 : List Char := "<(&,swan,swimmer) --> bird>?".toList
theorem exampleLine60_legible : legible? 11 exampleLine60 = true := by decide +kernel

/-- In examples/single_step/nal4. -/
def exampleLine61 : List Char := "<(*,acid,base) --> reaction>.".toList
theorem exampleLine61_legible : legible? 11 exampleLine61 = true := by decide +kernel

/-- In examples/single_step/nal4. -/
def exampleLine62 : List Char := "<acid --> (/,reaction,_,base)>.".toList
theorem exampleLine62_legible : legible? 11 exampleLine62 = true := by decide +kernel

/-- In examples/single_step/nal4. -/
def exampleLine63 : List Char := "<base --> (/,reaction,acid,_)>.".toList
theorem exampleLine63_legible : legible? 11 exampleLine63 = true := by decide +kernel

/-- In examples/single_step/nal4. -/
def exampleLine64 : List Char := "<neutralization --> (*,acid,base)>.".toList
theorem exampleLine64_legible : legible? 11 exampleLine64 = true := by decide +kernel

/-- In examples/single_step/nal4. -/
def exampleLine65 : List Char := "<(\\,neutralization,_,base) --> acid>.".toList
theorem exampleLine65_legible : legible? 11 exampleLine65 = true := by decide +kernel

/-- In examples/single_step/nal4. -/
def exampleLine66 : List Char := "<(\\,neutralization,acid,_) --> base>.".toList
theorem exampleLine66_legible : legible? 11 exampleLine66 = true := by decide +kernel

/-- In examples/single_step/nal4. -/
def exampleLine67 : List Char := "<(*,bird,plant) --> ?x>?".toList
theorem exampleLine67_legible : legible? 11 exampleLine67 = true := by decide +kernel

/-- In examples/single_step/nal4. -/
def exampleLine68 : List Char := "<neutralization --> reaction>.".toList
theorem exampleLine68_legible : legible? 11 exampleLine68 = true := by decide +kernel

/-- In examples/single_step/nal4. -/
def exampleLine69 : List Char := "<(\\,neutralization,acid,_) --> ?x>?".toList
theorem exampleLine69_legible : legible? 11 exampleLine69 = true := by decide +kernel

/-- In examples/single_step/nal4. -/
def exampleLine70 : List Char := "<soda --> base>.".toList
theorem exampleLine70_legible : legible? 11 exampleLine70 = true := by decide +kernel

/-- In examples/single_step/nal4. -/
def exampleLine71 : List Char := "<(/,neutralization,_,base) --> ?x>?".toList
theorem exampleLine71_legible : legible? 11 exampleLine71 = true := by decide +kernel

/-- In examples/single_step/nal5. -/
def exampleLine72 : List Char := "<<robin --> [flying]> ==> <robin --> bird>>.".toList
theorem exampleLine72_legible : legible? 11 exampleLine72 = true := by decide +kernel

/-- The lines of this file. -/
def exampleLines1 : List (List Char) :=
  [exampleLine1, exampleLine2, exampleLine3, exampleLine4,
   exampleLine5, exampleLine6, exampleLine7, exampleLine8,
   exampleLine9, exampleLine10, exampleLine11, exampleLine12,
   exampleLine13, exampleLine14, exampleLine15, exampleLine16,
   exampleLine17, exampleLine18, exampleLine19, exampleLine20,
   exampleLine21, exampleLine22, exampleLine23, exampleLine24,
   exampleLine25, exampleLine26, exampleLine27, exampleLine28,
   exampleLine29, exampleLine30, exampleLine31, exampleLine32,
   exampleLine33, exampleLine34, exampleLine35, exampleLine36,
   exampleLine37, exampleLine38, exampleLine39, exampleLine40,
   exampleLine41, exampleLine42, exampleLine43, exampleLine44,
   exampleLine45, exampleLine46, exampleLine47, exampleLine48,
   exampleLine49, exampleLine50, exampleLine51, exampleLine52,
   exampleLine53, exampleLine54, exampleLine55, exampleLine56,
   exampleLine57, exampleLine58, exampleLine59, exampleLine60,
   exampleLine61, exampleLine62, exampleLine63, exampleLine64,
   exampleLine65, exampleLine66, exampleLine67, exampleLine68,
   exampleLine69, exampleLine70, exampleLine71, exampleLine72]

theorem exampleLines1_legible : exampleLines1.all (legible? 11) = true :=
  all_cons exampleLine1_legible <| all_cons exampleLine2_legible <| all_cons exampleLine3_legible <| all_cons exampleLine4_legible <|
  all_cons exampleLine5_legible <| all_cons exampleLine6_legible <| all_cons exampleLine7_legible <| all_cons exampleLine8_legible <|
  all_cons exampleLine9_legible <| all_cons exampleLine10_legible <| all_cons exampleLine11_legible <| all_cons exampleLine12_legible <|
  all_cons exampleLine13_legible <| all_cons exampleLine14_legible <| all_cons exampleLine15_legible <| all_cons exampleLine16_legible <|
  all_cons exampleLine17_legible <| all_cons exampleLine18_legible <| all_cons exampleLine19_legible <| all_cons exampleLine20_legible <|
  all_cons exampleLine21_legible <| all_cons exampleLine22_legible <| all_cons exampleLine23_legible <| all_cons exampleLine24_legible <|
  all_cons exampleLine25_legible <| all_cons exampleLine26_legible <| all_cons exampleLine27_legible <| all_cons exampleLine28_legible <|
  all_cons exampleLine29_legible <| all_cons exampleLine30_legible <| all_cons exampleLine31_legible <| all_cons exampleLine32_legible <|
  all_cons exampleLine33_legible <| all_cons exampleLine34_legible <| all_cons exampleLine35_legible <| all_cons exampleLine36_legible <|
  all_cons exampleLine37_legible <| all_cons exampleLine38_legible <| all_cons exampleLine39_legible <| all_cons exampleLine40_legible <|
  all_cons exampleLine41_legible <| all_cons exampleLine42_legible <| all_cons exampleLine43_legible <| all_cons exampleLine44_legible <|
  all_cons exampleLine45_legible <| all_cons exampleLine46_legible <| all_cons exampleLine47_legible <| all_cons exampleLine48_legible <|
  all_cons exampleLine49_legible <| all_cons exampleLine50_legible <| all_cons exampleLine51_legible <| all_cons exampleLine52_legible <|
  all_cons exampleLine53_legible <| all_cons exampleLine54_legible <| all_cons exampleLine55_legible <| all_cons exampleLine56_legible <|
  all_cons exampleLine57_legible <| all_cons exampleLine58_legible <| all_cons exampleLine59_legible <| all_cons exampleLine60_legible <|
  all_cons exampleLine61_legible <| all_cons exampleLine62_legible <| all_cons exampleLine63_legible <| all_cons exampleLine64_legible <|
  all_cons exampleLine65_legible <| all_cons exampleLine66_legible <| all_cons exampleLine67_legible <| all_cons exampleLine68_legible <|
  all_cons exampleLine69_legible <| all_cons exampleLine70_legible <| all_cons exampleLine71_legible <| all_cons exampleLine72_legible <| rfl

end Cnars.Props
