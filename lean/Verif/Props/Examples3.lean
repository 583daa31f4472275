import Verif.Props.Legible

/-!
# C99: lines of the files of examples, part 3

Written by tools/mk_examples.py.
-/

-- with one thread for each theorem the memory of the last one is not used again
set_option Elab.async false

namespace Cnars.Props

/-- In examples/single_step/nal6. -/
def exampleLine145 : List Char := "<(\\,(\\,REPRESENT,_,<(*,CAT,FISH) --> FOOD>),_,eat,fish) --> cat>.".toList
theorem exampleLine145_legible : legible? 11 exampleLine145 = true := by decide +kernel

/-- In examples/single_step/nal6. -/
def exampleLine146 : List Char := "<cat --> (/,(/,REPRESENT,_,<(*,CAT,FISH) --> FOOD>),_,eat,fish)>.".toList
theorem exampleLine146_legible : legible? 11 exampleLine146 = true := by decide +kernel

/-- In examples/single_step/nal6. -/
def exampleLine147 : List Char := "<cat --> CAT>. %1.00;0.90%".toList
theorem exampleLine147_legible : legible? 11 exampleLine147 = true := by decide +kernel

/-- In examples/single_step/nal6. -/
def exampleLine148 : List Char := "<(*,a,b) --> like>. %1.00;0.90%".toList
theorem exampleLine148_legible : legible? 11 exampleLine148 = true := by decide +kernel

/-- In examples/single_step/nal6. -/
def exampleLine149 : List Char := "<(*,b,a) --> like>. %1.00;0.90%".toList
theorem exampleLine149_legible : legible? 11 exampleLine149 = true := by decide +kernel

/-- In examples/single_step/nal6. -/
def exampleLine150 : List Char := "<<(*,$1,$2) --> like> <=> <(*,$2,$1) --> like>>?".toList
theorem exampleLine150_legible : legible? 11 exampleLine150 = true := by decide +kernel

/-- In examples/single_step/nal6. -/
def exampleLine151 : List Char := "<tim --> (/,uncle,_,tom)>. %1.00;0.90%".toList
theorem exampleLine151_legible : legible? 11 exampleLine151 = true := by decide +kernel

/-- In examples/single_step/nal6. -/
def exampleLine152 : List Char := "<tim --> (/,uncle,tom,_)>. %0.00;0.90%".toList
theorem exampleLine152_legible : legible? 11 exampleLine152 = true := by decide +kernel

/-- In examples/single_step/nal7. -/
def exampleLine153 : List Char := "<<(*, $x, room_101) --> enter> =\\> <(*, $x, door_101) --> open>>. %0.9%".toList
theorem exampleLine153_legible : legible? 11 exampleLine153 = true := by decide +kernel

/-- In examples/single_step/nal7. -/
def exampleLine154 : List Char := "<<(*, $y, door_101) --> open> =\\> <(*, $y, key_101) --> hold>>. %0.8%".toList
theorem exampleLine154_legible : legible? 11 exampleLine154 = true := by decide +kernel

/-- In examples/single_step/nal7. -/
def exampleLine155 : List Char := "<<(*, $x, door_101) --> open> =/> <(*, $x, room_101) --> enter>>. %0.9%".toList
theorem exampleLine155_legible : legible? 11 exampleLine155 = true := by decide +kernel

/-- In examples/single_step/nal7. -/
def exampleLine156 : List Char := "<<(*, $x, door_101) --> open> =/> <(*, $x, room_101) --> enter>>. %0.95%".toList
theorem exampleLine156_legible : legible? 11 exampleLine156 = true := by decide +kernel

/-- In examples/single_step/nal7. -/
def exampleLine157 : List Char := "<<(*, $x, room_101) --> enter> <|> <(*, $x, corridor_100) --> leave>>.".toList
theorem exampleLine157_legible : legible? 11 exampleLine157 = true := by decide +kernel

/-- In examples/single_step/nal7. -/
def exampleLine158 : List Char := "<(&/,<(*, John, key_101) --> hold>,+100) =/> <(*, John, room_101) --> enter>>.".toList
theorem exampleLine158_legible : legible? 11 exampleLine158 = true := by decide +kernel

/-- In examples/single_step/nal7. -/
def exampleLine159 : List Char := "<(*, John, key_101) --> hold>. :\\:".toList
theorem exampleLine159_legible : legible? 11 exampleLine159 = true := by decide +kernel

/-- In examples/single_step/nal7. -/
def exampleLine160 : List Char := "<(&/,<(*, $x, key_101) --> hold>,+100) =/> <(*, $x, room_101) --> enter>>.".toList
theorem exampleLine160_legible : legible? 11 exampleLine160 = true := by decide +kernel

/-- In examples/single_step/nal7. -/
def exampleLine161 : List Char := "<(*,John,room_101) --> enter>. :|:".toList
theorem exampleLine161_legible : legible? 11 exampleLine161 = true := by decide +kernel

/-- In examples/single_step/nal7. -/
def exampleLine162 : List Char := "<<(*,John,key_101) --> hold> =/> <(*,John,room_101) --> enter>>.".toList
theorem exampleLine162_legible : legible? 11 exampleLine162 = true := by decide +kernel

/-- In examples/single_step/nal7. -/
def exampleLine163 : List Char := "<(*,John,key_101) --> hold>. :|:".toList
theorem exampleLine163_legible : legible? 11 exampleLine163 = true := by decide +kernel

/-- In examples/single_step/nal7. -/
def exampleLine164 : List Char := "<<(*,John,key_101) --> hold> =/> <(*,John,room_101) --> enter>>. %1.00;0.90%".toList
theorem exampleLine164_legible : legible? 11 exampleLine164 = true := by decide +kernel

/-- In examples/single_step/nal7. -/
def exampleLine165 : List Char := "<(*,John,room_101) --> enter>. :\\: %1.00;0.90%".toList
theorem exampleLine165_legible : legible? 11 exampleLine165 = true := by decide +kernel

/-- In examples/single_step/nal7. -/
def exampleLine166 : List Char := "<(&/, a, +1) =/> b>.".toList
theorem exampleLine166_legible : legible? 11 exampleLine166 = true := by decide +kernel

/-- In examples/single_step/nal7. -/
def exampleLine167 : List Char := "<(&/, b, +1) =/> c>.".toList
theorem exampleLine167_legible : legible? 11 exampleLine167 = true := by decide +kernel

/-- In examples/single_step/nal7. -/
def exampleLine168 : List Char := "<John --> (/,open,_,door_101)>. :|:".toList
theorem exampleLine168_legible : legible? 11 exampleLine168 = true := by decide +kernel

/-- In examples/single_step/nal7. -/
def exampleLine169 : List Char := "<John --> (/,enter,_,room_101)>. :|:".toList
theorem exampleLine169_legible : legible? 11 exampleLine169 = true := by decide +kernel

/-- In examples/single_step/nal7. -/
def exampleLine170 : List Char := "<(*,John,key_101) --> hold>. :|:  %1.00;0.90%".toList
theorem exampleLine170_legible : legible? 11 exampleLine170 = true := by decide +kernel

/-- In examples/single_step/nal7. -/
def exampleLine171 : List Char := "<<(*,John,door_101) --> open> =/> <(*,John,room_101) --> enter>>. :|:  %1.00;0.90%".toList
theorem exampleLine171_legible : legible? 11 exampleLine171 = true := by decide +kernel

/-- In examples/single_step/nal7. -/
def exampleLine172 : List Char := "<(*,John,key_101) --> hold>. :|: %0%".toList
theorem exampleLine172_legible : legible? 11 exampleLine172 = true := by decide +kernel

/-- In examples/single_step/nal7. -/
def exampleLine173 : List Char := "<(*,John,key_101) --> hold>? :|:".toList
theorem exampleLine173_legible : legible? 11 exampleLine173 = true := by decide +kernel

/-- In examples/single_step/nal7. -/
def exampleLine174 : List Char := "<A <|> B>.".toList
theorem exampleLine174_legible : legible? 11 exampleLine174 = true := by decide +kernel

/-- In examples/single_step/nal7. -/
def exampleLine175 : List Char := "<B <|> C>.".toList
theorem exampleLine175_legible : legible? 11 exampleLine175 = true := by decide +kernel

/-- In examples/single_step/nal7. -/
def exampleLine176 : List Char := "<A =|> B>.".toList
theorem exampleLine176_legible : legible? 11 exampleLine176 = true := by decide +kernel

/-- In examples/single_step/nal7. -/
def exampleLine177 : List Char := "<C =|> B>.".toList
theorem exampleLine177_legible : legible? 11 exampleLine177 = true := by decide +kernel

/-- In examples/single_step/nal7. -/
def exampleLine178 : List Char := "<B =|> C>.".toList
theorem exampleLine178_legible : legible? 11 exampleLine178 = true := by decide +kernel

/-- In examples/single_step/nal7. -/
def exampleLine179 : List Char := "<<something --> [hardened]> =|> <something --> [unscrewing]>>. %1.00;0.90%".toList
theorem exampleLine179_legible : legible? 11 exampleLine179 = true := by decide +kernel

/-- In examples/single_step/nal7. -/
def exampleLine180 : List Char := "<something --> [unscrewing]>!".toList
theorem exampleLine180_legible : legible? 11 exampleLine180 = true := by decide +kernel

/-- In examples/single_step/nal7. -/
def exampleLine181 : List Char := "<<$1 --> [hardened]> =|> <$1 --> [unscrewing]>>. %1.00;0.90%".toList
theorem exampleLine181_legible : legible? 11 exampleLine181 = true := by decide +kernel

/-- In examples/single_step/nal7. -/
def exampleLine182 : List Char := "<#1 --> [unscrewing]>!".toList
theorem exampleLine182_legible : legible? 11 exampleLine182 = true := by decide +kernel

/-- In examples/single_step/nal7. -/
def exampleLine183 : List Char := "<A =|> C>.".toList
theorem exampleLine183_legible : legible? 11 exampleLine183 = true := by decide +kernel

/-- In examples/single_step/nal7. -/
def exampleLine184 : List Char := "(&&,<#1 --> [unscrewing]>,<#1 --> object>)! %1.00;0.90%".toList
theorem exampleLine184_legible : legible? 11 exampleLine184 = true := by decide +kernel

/-- In examples/single_step/nal7. -/
def exampleLine185 : List Char := "<(&/, (||, S, P), +5) =/> M>. %0.9%".toList
theorem exampleLine185_legible : legible? 11 exampleLine185 = true := by decide +kernel

/-- In examples/single_step/nal7. -/
def exampleLine186 : List Char := "<S =/> M>. %0.9%".toList
theorem exampleLine186_legible : legible? 11 exampleLine186 = true := by decide +kernel

/-- In examples/single_step/nal7. -/
def exampleLine187 : List Char := "<(*,John,door_101) --> open>. :|:".toList
theorem exampleLine187_legible : legible? 11 exampleLine187 = true := by decide +kernel

/-- In examples/single_step/nal7. -/
def exampleLine188 : List Char := "<(*,John,room_101) --> enter>. :|: %0%".toList
theorem exampleLine188_legible : legible? 11 exampleLine188 = true := by decide +kernel

/-- In examples/single_step/nal7. -/
def exampleLine189 : List Char := "<a-->A>. :|:".toList
theorem exampleLine189_legible : legible? 11 exampleLine189 = true := by decide +kernel

/-- In examples/single_step/nal7. -/
def exampleLine190 : List Char := "<b-->B>. :|:".toList
theorem exampleLine190_legible : legible? 11 exampleLine190 = true := by decide +kernel

/-- In examples/single_step/nal7. -/
def exampleLine191 : List Char := "<<something --> [hardened]> =/> <something --> [unscrewing]>>. %1.00;0.90%".toList
theorem exampleLine191_legible : legible? 11 exampleLine191 = true := by decide +kernel

/-- In examples/single_step/nal7. -/
def exampleLine192 : List Char := "<<$1 --> [hardened]> =/> <$1 --> [unscrewing]>>. %1.00;0.90%".toList
theorem exampleLine192_legible : legible? 11 exampleLine192 = true := by decide +kernel

/-- In examples/single_step/nal7. -/
def exampleLine193 : List Char := "<c-->C>. :|:".toList
theorem exampleLine193_legible : legible? 11 exampleLine193 = true := by decide +kernel

/-- In examples/single_step/nal7. -/
def exampleLine194 : List Char := "<<something --> [unscrewing]> =\\> <something --> [hardened]>>. %1.00;0.90%".toList
theorem exampleLine194_legible : legible? 11 exampleLine194 = true := by decide +kernel

/-- In examples/single_step/nal7. -/
def exampleLine195 : List Char := "<<$1 --> [unscrewing]> =\\> <$1 --> [hardened]>>. %1.00;0.90%".toList
theorem exampleLine195_legible : legible? 11 exampleLine195 = true := by decide +kernel

/-- In examples/single_step/nal7. -/
def exampleLine196 : List Char := "<a --> A>. :|: %1.00;0.90%".toList
theorem exampleLine196_legible : legible? 11 exampleLine196 = true := by decide +kernel

/-- In examples/single_step/nal7. -/
def exampleLine197 : List Char := "<(&/,<$1 --> A>,+100) =/> <$1 --> B>>. %1.00;0.90%".toList
theorem exampleLine197_legible : legible? 11 exampleLine197 = true := by decide +kernel

/-- In examples/single_step/nal7. -/
def exampleLine198 : List Char := "<x --> B>. :|: %1.00;0.90%".toList
theorem exampleLine198_legible : legible? 11 exampleLine198 = true := by decide +kernel

/-- In examples/single_step/nal7. -/
def exampleLine199 : List Char := "<x --> A>. :|: %1.00;0.90%".toList
theorem exampleLine199_legible : legible? 11 exampleLine199 = true := by decide +kernel

/-- In examples/single_step/nal7. -/
def exampleLine200 : List Char := "<<$1 --> A> =/> <$1 --> B>>. %1.00;0.90%".toList
theorem exampleLine200_legible : legible? 11 exampleLine200 = true := by decide +kernel

/-- In examples/single_step/nal8. -/
def exampleLine201 : List Char := "<{t001} --> [opened]>!".toList
theorem exampleLine201_legible : legible? 11 exampleLine201 = true := by decide +kernel

/-- In examples/single_step/nal8. -/
def exampleLine202 : List Char := "<(&/,<(*,SELF,{t002}) --> hold>,<(*,SELF,{t001}) --> at>,<(*,{t001}) --> ^open>) =/> <{t001} --> [opened]>>.".toList
theorem exampleLine202_legible : legible? 11 exampleLine202 = true := by decide +kernel

/-- In examples/single_step/nal8. -/
def exampleLine203 : List Char := "(&/,<(*,SELF,{t002}) --> hold>,<(*,SELF,{t001}) --> at>,(^open,{t001}))!".toList
theorem exampleLine203_legible : legible? 11 exampleLine203 = true := by decide +kernel

/-- In examples/single_step/nal8. -/
def exampleLine204 : List Char := "<{t003} --> (/,at,SELF,_)>. :\\:".toList
theorem exampleLine204_legible : legible? 11 exampleLine204 = true := by decide +kernel

/-- In examples/single_step/nal8. -/
def exampleLine205 : List Char := "<{t003} --> (/,on,{t002},_)>. :\\:".toList
theorem exampleLine205_legible : legible? 11 exampleLine205 = true := by decide +kernel

/-- In examples/single_step/nal8. -/
def exampleLine206 : List Char := "(&|,<#1 --> (/,on,{t002},_)>,<#1 --> (/,at,SELF,_)>). :\\:".toList
theorem exampleLine206_legible : legible? 11 exampleLine206 = true := by decide +kernel

/-- In examples/single_step/nal8. -/
def exampleLine207 : List Char := "<(*,SELF,{t002}) --> reachable>. :|:".toList
theorem exampleLine207_legible : legible? 11 exampleLine207 = true := by decide +kernel

/-- In examples/single_step/nal8. -/
def exampleLine208 : List Char := "(&/,<(*,SELF,{t002}) --> reachable>,(^pick,{t002}))!".toList
theorem exampleLine208_legible : legible? 11 exampleLine208 = true := by decide +kernel

/-- In examples/single_step/nal8. -/
def exampleLine209 : List Char := "<(&/,<(*,SELF,{t002}) --> reachable>,(^pick,{t002}))=/><(*,SELF,{t002}) --> hold>>.".toList
theorem exampleLine209_legible : legible? 11 exampleLine209 = true := by decide +kernel

/-- In examples/single_step/nal8. -/
def exampleLine210 : List Char := "(^pick,{t002}). :\\:".toList
theorem exampleLine210_legible : legible? 11 exampleLine210 = true := by decide +kernel

/-- In examples/single_step/nal8. -/
def exampleLine211 : List Char := "<(^pick,{t002})=/><(*,SELF,{t002}) --> hold>>. :\\:".toList
theorem exampleLine211_legible : legible? 11 exampleLine211 = true := by decide +kernel

/-- In examples/single_step/nal8. -/
def exampleLine212 : List Char := "<(*,SELF,{t002}) --> hold>. :|:".toList
theorem exampleLine212_legible : legible? 11 exampleLine212 = true := by decide +kernel

/-- In examples/single_step/nal8. -/
def exampleLine213 : List Char := "(&/,<(*,SELF,{t002}) --> hold>,+100,<(*,SELF,{t001}) --> at>,+100,(^open,{SELF},{t001}))!".toList
theorem exampleLine213_legible : legible? 11 exampleLine213 = true := by decide +kernel

/-- In examples/single_step/nal8. -/
def exampleLine214 : List Char := "<(&/,<(*,SELF,{t002}) --> hold>,<(*,SELF,{t001}) --> at>,(^open,{SELF},{t001})) =/> <{t001} --> [opened]>>. %1.00;0.90%".toList
theorem exampleLine214_legible : legible? 11 exampleLine214 = true := by decide +kernel

/-- In examples/single_step/nal8. -/
def exampleLine215 : List Char := "(&/,<(*,SELF,{t001}) --> at>,(^open,{t001}))!".toList
theorem exampleLine215_legible : legible? 11 exampleLine215 = true := by decide +kernel

/-- In examples/single_step/nal8. -/
def exampleLine216 : List Char := "<(*,SELF,{t001}) --> at>!".toList
theorem exampleLine216_legible : legible? 11 exampleLine216 = true := by decide +kernel

/-- The lines of this file. -/
def exampleLines3 : List (List Char) :=
  [exampleLine145, exampleLine146, exampleLine147, exampleLine148,
   exampleLine149, exampleLine150, exampleLine151, exampleLine152,
   exampleLine153, exampleLine154, exampleLine155, exampleLine156,
   exampleLine157, exampleLine158, exampleLine159, exampleLine160,
   exampleLine161, exampleLine162, exampleLine163, exampleLine164,
   exampleLine165, exampleLine166, exampleLine167, exampleLine168,
   exampleLine169, exampleLine170, exampleLine171, exampleLine172,
   exampleLine173, exampleLine174, exampleLine175, exampleLine176,
   exampleLine177, exampleLine178, exampleLine179, exampleLine180,
   exampleLine181, exampleLine182, exampleLine183, exampleLine184,
   exampleLine185, exampleLine186, exampleLine187, exampleLine188,
   exampleLine189, exampleLine190, exampleLine191, exampleLine192,
   exampleLine193, exampleLine194, exampleLine195, exampleLine196,
   exampleLine197, exampleLine198, exampleLine199, exampleLine200,
   exampleLine201, exampleLine202, exampleLine203, exampleLine204,
   exampleLine205, exampleLine206, exampleLine207, exampleLine208,
   exampleLine209, exampleLine210, exampleLine211, exampleLine212,
   exampleLine213, exampleLine214, exampleLine215, exampleLine216]

theorem exampleLines3_legible : exampleLines3.all (legible? 11) = true :=
  all_cons exampleLine145_legible <| all_cons exampleLine146_legible <| all_cons exampleLine147_legible <| all_cons exampleLine148_legible <|
  all_cons exampleLine149_legible <| all_cons exampleLine150_legible <| all_cons exampleLine151_legible <| all_cons exampleLine152_legible <|
  all_cons exampleLine153_legible <| all_cons exampleLine154_legible <| all_cons exampleLine155_legible <| all_cons exampleLine156_legible <|
  all_cons exampleLine157_legible <| all_cons exampleLine158_legible <| all_cons exampleLine159_legible <| all_cons exampleLine160_legible <|
  all_cons exampleLine161_legible <| all_cons exampleLine162_legible <| all_cons exampleLine163_legible <| all_cons exampleLine164_legible <|
  all_cons exampleLine165_legible <| all_cons exampleLine166_legible <| all_cons exampleLine167_legible <| all_cons exampleLine168_legible <|
  all_cons exampleLine169_legible <| all_cons exampleLine170_legible <| all_cons exampleLine171_legible <| all_cons exampleLine172_legible <|
  all_cons exampleLine173_legible <| all_cons exampleLine174_legible <| all_cons exampleLine175_legible <| all_cons exampleLine176_legible <|
  all_cons exampleLine177_legible <| all_cons exampleLine178_legible <| all_cons exampleLine179_legible <| all_cons exampleLine180_legible <|
  all_cons exampleLine181_legible <| all_cons exampleLine182_legible <| all_cons exampleLine183_legible <| all_cons exampleLine184_legible <|
  all_cons exampleLine185_legible <| all_cons exampleLine186_legible <| all_cons exampleLine187_legible <| all_cons exampleLine188_legible <|
  all_cons exampleLine189_legible <| all_cons exampleLine190_legible <| all_cons exampleLine191_legible <| all_cons exampleLine192_legible <|
  all_cons exampleLine193_legible <| all_cons exampleLine194_legible <| all_cons exampleLine195_legible <| all_cons exampleLine196_legible <|
  all_cons exampleLine197_legible <| all_cons exampleLine198_legible <| all_cons exampleLine199_legible <| all_cons exampleLine200_legible <|
  all_cons exampleLine201_legible <| all_cons exampleLine202_legible <| all_cons exampleLine203_legible <| all_cons exampleLine204_legible <|
  all_cons exampleLine205_legible <| all_cons exampleLine206_legible <| all_cons exampleLine207_legible <| all_cons exampleLine208_legible <|
  all_cons exampleLine209_legible <| all_cons exampleLine210_legible <| all_cons exampleLine211_legible <| all_cons exampleLine212_legible <|
  all_cons exampleLine213_legible <| all_cons exampleLine214_legible <| all_cons exampleLine215_legible <| all_cons exampleLine216_legible <| rfl

end Cnars.Props
