import Verif.Props.Legible

/-!
# C99: lines of the files of examples, part 2

Written by tools/mk_examples.py.
-/

-- with one thread for each theorem the memory of the last one is not used again
set_option Elab.async false

namespace Cnars.Props

/-- In examples/single_step/nal5. -/
def exampleLine73 : List Char := "<<robin --> [flying]> ==> <robin --> bird>>. %0.00;0.60%".toList
theorem exampleLine73_legible : legible? 11 exampleLine73 = true := by decide +kernel

/-- In examples/single_step/nal5. -/
def exampleLine74 : List Char := "<<robin --> bird> ==> <robin --> animal>>.".toList
theorem exampleLine74_legible : legible? 11 exampleLine74 = true := by decide +kernel

/-- In examples/single_step/nal5. -/
def exampleLine75 : List Char := "<<robin --> bird> <=> <robin --> [flying]>>. %0.80%".toList
theorem exampleLine75_legible : legible? 11 exampleLine75 = true := by decide +kernel

/-- In examples/single_step/nal5. -/
def exampleLine76 : List Char := "<<robin --> animal> <=> <robin --> bird>>.".toList
theorem exampleLine76_legible : legible? 11 exampleLine76 = true := by decide +kernel

/-- In examples/single_step/nal5. -/
def exampleLine77 : List Char := "<<robin --> bird> <=> <robin --> [flying]>>. %0.9%".toList
theorem exampleLine77_legible : legible? 11 exampleLine77 = true := by decide +kernel

/-- In examples/single_step/nal5. -/
def exampleLine78 : List Char := "<<robin --> [flying]> ==> <robin --> bird>>. %0.9%".toList
theorem exampleLine78_legible : legible? 11 exampleLine78 = true := by decide +kernel

/-- In examples/single_step/nal5. -/
def exampleLine79 : List Char := "<<robin --> bird> ==> <robin --> [flying]>>. %0.9%".toList
theorem exampleLine79_legible : legible? 11 exampleLine79 = true := by decide +kernel

/-- In examples/single_step/nal5. -/
def exampleLine80 : List Char := "<<robin --> [flying]> ==> <robin --> animal>>. %0.9%".toList
theorem exampleLine80_legible : legible? 11 exampleLine80 = true := by decide +kernel

/-- In examples/single_step/nal5. -/
def exampleLine81 : List Char := "<<robin --> bird> ==> (&&,<robin --> animal>,<robin --> [flying]>)>. %0%".toList
theorem exampleLine81_legible : legible? 11 exampleLine81 = true := by decide +kernel

/-- In examples/single_step/nal5. -/
def exampleLine82 : List Char := "<<robin --> bird> ==> <robin --> [flying]>>.".toList
theorem exampleLine82_legible : legible? 11 exampleLine82 = true := by decide +kernel

/-- In examples/single_step/nal5. -/
def exampleLine83 : List Char := "(&&,<robin --> [flying]>,<robin --> swimmer>). %0%".toList
theorem exampleLine83_legible : legible? 11 exampleLine83 = true := by decide +kernel

/-- In examples/single_step/nal5. -/
def exampleLine84 : List Char := "<robin --> [flying]>.".toList
theorem exampleLine84_legible : legible? 11 exampleLine84 = true := by decide +kernel

/-- In examples/single_step/nal5. -/
def exampleLine85 : List Char := "(||,<robin --> [flying]>,<robin --> swimmer>).".toList
theorem exampleLine85_legible : legible? 11 exampleLine85 = true := by decide +kernel

/-- In examples/single_step/nal5. -/
def exampleLine86 : List Char := "<robin --> swimmer>. %0%".toList
theorem exampleLine86_legible : legible? 11 exampleLine86 = true := by decide +kernel

/-- In examples/single_step/nal5. -/
def exampleLine87 : List Char := "(||,<robin --> [flying]>,<robin --> swimmer>)?".toList
theorem exampleLine87_legible : legible? 11 exampleLine87 = true := by decide +kernel

/-- In examples/single_step/nal5. -/
def exampleLine88 : List Char := "$0.90;0.90$ (&&,<robin --> swimmer>,<robin --> [flying]>). %0.9%".toList
theorem exampleLine88_legible : legible? 11 exampleLine88 = true := by decide +kernel

/-- In examples/single_step/nal5. -/
def exampleLine89 : List Char := "(--,<robin --> [flying]>). %0.1%".toList
theorem exampleLine89_legible : legible? 11 exampleLine89 = true := by decide +kernel

/-- In examples/single_step/nal5. -/
def exampleLine90 : List Char := "<robin --> [flying]>. %0.9%".toList
theorem exampleLine90_legible : legible? 11 exampleLine90 = true := by decide +kernel

/-- In examples/single_step/nal5. -/
def exampleLine91 : List Char := "(--,<robin --> [flying]>)?".toList
theorem exampleLine91_legible : legible? 11 exampleLine91 = true := by decide +kernel

/-- In examples/single_step/nal5. -/
def exampleLine92 : List Char := "<(--,<robin --> bird>) ==> <robin --> [flying]>>. %0.1%".toList
theorem exampleLine92_legible : legible? 11 exampleLine92 = true := by decide +kernel

/-- In examples/single_step/nal5. -/
def exampleLine93 : List Char := "<(--,<robin --> [flying]>) ==> <robin --> bird>>?".toList
theorem exampleLine93_legible : legible? 11 exampleLine93 = true := by decide +kernel

/-- In examples/single_step/nal5. -/
def exampleLine94 : List Char := "<(&&,<robin --> [flying]>,<robin --> [with_wings]>) ==> <robin --> bird>>.".toList
theorem exampleLine94_legible : legible? 11 exampleLine94 = true := by decide +kernel

/-- In examples/single_step/nal5. -/
def exampleLine95 : List Char := "<(&&,<robin --> [chirping]>,<robin --> [flying]>,<robin --> [with_wings]>) ==> <robin --> bird>>.".toList
theorem exampleLine95_legible : legible? 11 exampleLine95 = true := by decide +kernel

/-- In examples/single_step/nal5. -/
def exampleLine96 : List Char := "<(&&,<robin --> bird>,<robin --> [living]>) ==> <robin --> animal>>.".toList
theorem exampleLine96_legible : legible? 11 exampleLine96 = true := by decide +kernel

/-- In examples/single_step/nal5. -/
def exampleLine97 : List Char := "<(&&,<robin --> swimmer>,<robin --> [flying]>) ==> <robin --> bird>>.".toList
theorem exampleLine97_legible : legible? 11 exampleLine97 = true := by decide +kernel

/-- In examples/single_step/nal5. -/
def exampleLine98 : List Char := "<(&&,<robin --> [with_wings]>,<robin --> [chirping]>) ==> <robin --> bird>>.".toList
theorem exampleLine98_legible : legible? 11 exampleLine98 = true := by decide +kernel

/-- In examples/single_step/nal5. -/
def exampleLine99 : List Char := "<(&&,<robin --> [flying]>,<robin --> [with_wings]>,<robin --> [chirping]>) ==> <robin --> bird>>.".toList
theorem exampleLine99_legible : legible? 11 exampleLine99 = true := by decide +kernel

/-- In examples/single_step/nal5. -/
def exampleLine100 : List Char := "<(&&,<robin --> [flying]>,<robin --> [with_wings]>) ==> <robin --> [living]>>. %0.9%".toList
theorem exampleLine100_legible : legible? 11 exampleLine100 = true := by decide +kernel

/-- In examples/single_step/nal5. -/
def exampleLine101 : List Char := "<(&&,<robin --> [flying]>,<robin --> bird>) ==> <robin --> [living]>>.".toList
theorem exampleLine101_legible : legible? 11 exampleLine101 = true := by decide +kernel

/-- In examples/single_step/nal5. -/
def exampleLine102 : List Char := "<(&&,<robin --> [chirping]>,<robin --> [flying]>) ==> <robin --> bird>>.".toList
theorem exampleLine102_legible : legible? 11 exampleLine102 = true := by decide +kernel

/-- In examples/single_step/nal5. -/
def exampleLine103 : List Char := "<<robin --> [flying]> ==> <robin --> [with_beak]>>. %0.90%".toList
theorem exampleLine103_legible : legible? 11 exampleLine103 = true := by decide +kernel

/-- In examples/single_step/nal5. -/
def exampleLine104 : List Char := "<<robin --> bird> ==> <robin --> [flying]>>. %0.80%".toList
theorem exampleLine104_legible : legible? 11 exampleLine104 = true := by decide +kernel

/-- In examples/single_step/nal5. -/
def exampleLine105 : List Char := "<<robin --> [flying]> ==> <robin --> animal>>. %0.8%".toList
theorem exampleLine105_legible : legible? 11 exampleLine105 = true := by decide +kernel

/-- In examples/single_step/nal5. -/
def exampleLine106 : List Char := "<<robin --> bird> ==> <robin --> animal>>. %0.70;0.90%".toList
theorem exampleLine106_legible : legible? 11 exampleLine106 = true := by decide +kernel

/-- In examples/single_step/nal5. -/
def exampleLine107 : List Char := "<robin --> animal>.".toList
theorem exampleLine107_legible : legible? 11 exampleLine107 = true := by decide +kernel

/-- In examples/single_step/nal5. -/
def exampleLine108 : List Char := "<<robin --> bird> ==> <robin --> animal>>. %0.70%".toList
theorem exampleLine108_legible : legible? 11 exampleLine108 = true := by decide +kernel

/-- In examples/single_step/nal5. -/
def exampleLine109 : List Char := "<<robin --> [flying]> ==> <robin --> animal>>.".toList
theorem exampleLine109_legible : legible? 11 exampleLine109 = true := by decide +kernel

/-- In examples/single_step/nal6. -/
def exampleLine110 : List Char := "<<$x --> bird> ==> <$x --> flyer>>.".toList
theorem exampleLine110_legible : legible? 11 exampleLine110 = true := by decide +kernel

/-- In examples/single_step/nal6. -/
def exampleLine111 : List Char := "<<$y --> bird> ==> <$y --> flyer>>. %0.00;0.70%".toList
theorem exampleLine111_legible : legible? 11 exampleLine111 = true := by decide +kernel

/-- In examples/single_step/nal6. -/
def exampleLine112 : List Char := "<<$x --> bird> ==> <$x --> animal>>.".toList
theorem exampleLine112_legible : legible? 11 exampleLine112 = true := by decide +kernel

/-- In examples/single_step/nal6. -/
def exampleLine113 : List Char := "<<$y --> robin> ==> <$y --> bird>>.".toList
theorem exampleLine113_legible : legible? 11 exampleLine113 = true := by decide +kernel

/-- In examples/single_step/nal6. -/
def exampleLine114 : List Char := "(&&,<#x --> bird>,<#x --> swimmer>).".toList
theorem exampleLine114_legible : legible? 11 exampleLine114 = true := by decide +kernel

/-- In examples/single_step/nal6. -/
def exampleLine115 : List Char := "<{Tweety} --> [with_wings]>.".toList
theorem exampleLine115_legible : legible? 11 exampleLine115 = true := by decide +kernel

/-- In examples/single_step/nal6. -/
def exampleLine116 : List Char := "<(&&,<$x --> [chirping]>,<$x --> [with_wings]>) ==> <$x --> bird>>.".toList
theorem exampleLine116_legible : legible? 11 exampleLine116 = true := by decide +kernel

/-- In examples/single_step/nal6. -/
def exampleLine117 : List Char := "<{Tweety} --> flyer>.".toList
theorem exampleLine117_legible : legible? 11 exampleLine117 = true := by decide +kernel

/-- In examples/single_step/nal6. -/
def exampleLine118 : List Char := "<{lock1} --> lock>.".toList
theorem exampleLine118_legible : legible? 11 exampleLine118 = true := by decide +kernel

/-- In examples/single_step/nal6. -/
def exampleLine119 : List Char := "<swan --> swimmer>. %0.80%".toList
theorem exampleLine119_legible : legible? 11 exampleLine119 = true := by decide +kernel

/-- In examples/single_step/nal6. -/
def exampleLine120 : List Char := "<{key1} --> (/,open,_,{lock1})>.".toList
theorem exampleLine120_legible : legible? 11 exampleLine120 = true := by decide +kernel

/-- In examples/single_step/nal6. -/
def exampleLine121 : List Char := "<{key1} --> key>.".toList
theorem exampleLine121_legible : legible? 11 exampleLine121 = true := by decide +kernel

/-- In examples/single_step/nal6. -/
def exampleLine122 : List Char := "<<$x --> swan> ==> <$x --> bird>>. %1.00;0.80%".toList
theorem exampleLine122_legible : legible? 11 exampleLine122 = true := by decide +kernel

/-- In examples/single_step/nal6. -/
def exampleLine123 : List Char := "<<$y --> swan> ==> <$y --> swimmer>>. %0.80%".toList
theorem exampleLine123_legible : legible? 11 exampleLine123 = true := by decide +kernel

/-- In examples/single_step/nal6. -/
def exampleLine124 : List Char := "<<$x --> key> ==> <{lock1} --> (/,open,$x,_)>>.".toList
theorem exampleLine124_legible : legible? 11 exampleLine124 = true := by decide +kernel

/-- In examples/single_step/nal6. -/
def exampleLine125 : List Char := "<0 --> num>. %1.00;0.90%".toList
theorem exampleLine125_legible : legible? 11 exampleLine125 = true := by decide +kernel

/-- In examples/single_step/nal6. -/
def exampleLine126 : List Char := "<<$1 --> num> ==> <(*,$1) --> num>>. %1.00;0.90%".toList
theorem exampleLine126_legible : legible? 11 exampleLine126 = true := by decide +kernel

/-- In examples/single_step/nal6. -/
def exampleLine127 : List Char := "<(*,(*,(*,0))) --> num>?".toList
theorem exampleLine127_legible : legible? 11 exampleLine127 = true := by decide +kernel

/-- In examples/single_step/nal6. -/
def exampleLine128 : List Char := "<{key1} --> key>. %1.00;0.90%".toList
theorem exampleLine128_legible : legible? 11 exampleLine128 = true := by decide +kernel

/-- In examples/single_step/nal6. -/
def exampleLine129 : List Char := "<<lock1 --> (/,open,$1,_)> ==> <$1 --> key>>.".toList
theorem exampleLine129_legible : legible? 11 exampleLine129 = true := by decide +kernel

/-- In examples/single_step/nal6. -/
def exampleLine130 : List Char := "<lock1 --> lock>.".toList
theorem exampleLine130_legible : legible? 11 exampleLine130 = true := by decide +kernel

/-- In examples/single_step/nal6. -/
def exampleLine131 : List Char := "<lock1 --> lock>. %1.00;0.90%".toList
theorem exampleLine131_legible : legible? 11 exampleLine131 = true := by decide +kernel

/-- In examples/single_step/nal6. -/
def exampleLine132 : List Char := "<(&&,<#1 --> lock>,<#1 --> (/,open,$2,_)>) ==> <$2 --> key>>. %1.00;0.90%".toList
theorem exampleLine132_legible : legible? 11 exampleLine132 = true := by decide +kernel

/-- In examples/single_step/nal6. -/
def exampleLine133 : List Char := "<<lock1 --> (/,open,$1,_)> ==> <$1 --> key>>. %1.00;0.90%".toList
theorem exampleLine133_legible : legible? 11 exampleLine133 = true := by decide +kernel

/-- In examples/single_step/nal6. -/
def exampleLine134 : List Char := "<<bird --> $x> ==> <robin --> $x>>.".toList
theorem exampleLine134_legible : legible? 11 exampleLine134 = true := by decide +kernel

/-- In examples/single_step/nal6. -/
def exampleLine135 : List Char := "<<swimmer --> $y> ==> <robin --> $y>>. %0.70;0.90%".toList
theorem exampleLine135_legible : legible? 11 exampleLine135 = true := by decide +kernel

/-- In examples/single_step/nal6. -/
def exampleLine136 : List Char := "<(&&,<$x --> flyer>,<$x --> [chirping]>) ==> <$x --> bird>>.".toList
theorem exampleLine136_legible : legible? 11 exampleLine136 = true := by decide +kernel

/-- In examples/single_step/nal6. -/
def exampleLine137 : List Char := "<<$y --> [with_wings]> ==> <$y --> flyer>>.".toList
theorem exampleLine137_legible : legible? 11 exampleLine137 = true := by decide +kernel

/-- In examples/single_step/nal6. -/
def exampleLine138 : List Char := "<<$y --> flyer> ==> <$y --> [with_wings]>>.".toList
theorem exampleLine138_legible : legible? 11 exampleLine138 = true := by decide +kernel

/-- In examples/single_step/nal6. -/
def exampleLine139 : List Char := "<tiger --> animal>.".toList
theorem exampleLine139_legible : legible? 11 exampleLine139 = true := by decide +kernel

/-- In examples/single_step/nal6. -/
def exampleLine140 : List Char := "<<$x --> animal> <=> <$x --> bird>>.".toList
theorem exampleLine140_legible : legible? 11 exampleLine140 = true := by decide +kernel

/-- In examples/single_step/nal6. -/
def exampleLine141 : List Char := "<(&,<{Tweety} --> bird>,<bird --> fly>) --> claimedByBob>.".toList
theorem exampleLine141_legible : legible? 11 exampleLine141 = true := by decide +kernel

/-- In examples/single_step/nal6. -/
def exampleLine142 : List Char := "<?x --> claimedByBob>?".toList
theorem exampleLine142_legible : legible? 11 exampleLine142 = true := by decide +kernel

/-- In examples/single_step/nal6. -/
def exampleLine143 : List Char := "<0 --> (/,num,_)>. %1.00;0.90%".toList
theorem exampleLine143_legible : legible? 11 exampleLine143 = true := by decide +kernel

/-- In examples/single_step/nal6. -/
def exampleLine144 : List Char := "<(\\,REPRESENT,_,CAT) --> cat>. %1.00;0.90%".toList
theorem exampleLine144_legible : legible? 11 exampleLine144 = true := by decide +kernel

/-- The lines of this file. -/
def exampleLines2 : List (List Char) :=
  [exampleLine73, exampleLine74, exampleLine75, exampleLine76,
   exampleLine77, exampleLine78, exampleLine79, exampleLine80,
   exampleLine81, exampleLine82, exampleLine83, exampleLine84,
   exampleLine85, exampleLine86, exampleLine87, exampleLine88,
   exampleLine89, exampleLine90, exampleLine91, exampleLine92,
   exampleLine93, exampleLine94, exampleLine95, exampleLine96,
   exampleLine97, exampleLine98, exampleLine99, exampleLine100,
   exampleLine101, exampleLine102, exampleLine103, exampleLine104,
   exampleLine105, exampleLine106, exampleLine107, exampleLine108,
   exampleLine109, exampleLine110, exampleLine111, exampleLine112,
   exampleLine113, exampleLine114, exampleLine115, exampleLine116,
   exampleLine117, exampleLine118, exampleLine119, exampleLine120,
   exampleLine121, exampleLine122, exampleLine123, exampleLine124,
   exampleLine125, exampleLine126, exampleLine127, exampleLine128,
   exampleLine129, exampleLine130, exampleLine131, exampleLine132,
   exampleLine133, exampleLine134, exampleLine135, exampleLine136,
   exampleLine137, exampleLine138, exampleLine139, exampleLine140,
   exampleLine141, exampleLine142, exampleLine143, exampleLine144]

theorem exampleLines2_legible : exampleLines2.all (legible? 11) = true :=
  all_cons exampleLine73_legible <| all_cons exampleLine74_legible <| all_cons exampleLine75_legible <| all_cons exampleLine76_legible <|
  all_cons exampleLine77_legible <| all_cons exampleLine78_legible <| all_cons exampleLine79_legible <| all_cons exampleLine80_legible <|
  all_cons exampleLine81_legible <| all_cons exampleLine82_legible <| all_cons exampleLine83_legible <| all_cons exampleLine84_legible <|
  all_cons exampleLine85_legible <| all_cons exampleLine86_legible <| all_cons exampleLine87_legible <| all_cons exampleLine88_legible <|
  all_cons exampleLine89_legible <| all_cons exampleLine90_legible <| all_cons exampleLine91_legible <| all_cons exampleLine92_legible <|
  all_cons exampleLine93_legible <| all_cons exampleLine94_legible <| all_cons exampleLine95_legible <| all_cons exampleLine96_legible <|
  all_cons exampleLine97_legible <| all_cons exampleLine98_legible <| all_cons exampleLine99_legible <| all_cons exampleLine100_legible <|
  all_cons exampleLine101_legible <| all_cons exampleLine102_legible <| all_cons exampleLine103_legible <| all_cons exampleLine104_legible <|
  all_cons exampleLine105_legible <| all_cons exampleLine106_legible <| all_cons exampleLine107_legible <| all_cons exampleLine108_legible <|
  all_cons exampleLine109_legible <| all_cons exampleLine110_legible <| all_cons exampleLine111_legible <| all_cons exampleLine112_legible <|
  all_cons exampleLine113_legible <| all_cons exampleLine114_legible <| all_cons exampleLine115_legible <| all_cons exampleLine116_legible <|
  all_cons exampleLine117_legible <| all_cons exampleLine118_legible <| all_cons exampleLine119_legible <| all_cons exampleLine120_legible <|
  all_cons exampleLine121_legible <| all_cons exampleLine122_legible <| all_cons exampleLine123_legible <| all_cons exampleLine124_legible <|
  all_cons exampleLine125_legible <| all_cons exampleLine126_legible <| all_cons exampleLine127_legible <| all_cons exampleLine128_legible <|
  all_cons exampleLine129_legible <| all_cons exampleLine130_legible <| all_cons exampleLine131_legible <| all_cons exampleLine132_legible <|
  all_cons exampleLine133_legible <| all_cons exampleLine134_legible <| all_cons exampleLine135_legible <| all_cons exampleLine136_legible <|
  all_cons exampleLine137_legible <| all_cons exampleLine138_legible <| all_cons exampleLine139_legible <| all_cons exampleLine140_legible <|
  all_cons exampleLine141_legible <| all_cons exampleLine142_legible <| all_cons exampleLine143_legible <| all_cons exampleLine144_legible <| rfl

end Cnars.Props
