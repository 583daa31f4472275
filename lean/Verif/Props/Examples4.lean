import Verif.Props.Legible

/-!
# C99: lines of the files of examples, part 4

Written by tools/mk_examples.py.
-/

-- with one thread for each theorem the memory of the last one is not used again
set_option Elab.async false

namespace Cnars.Props

/-- In examples/single_step/nal8. -/
def exampleLine217 : List Char := "<(^go_to,$1)=/><(*,SELF,$1) --> at>>.".toList
theorem exampleLine217_legible : legible? 11 exampleLine217 = true := by decide +kernel

/-- In examples/single_step/nal8. -/
def exampleLine218 : List Char := "(^go_to,{SELF},{t001}). :\\:".toList
theorem exampleLine218_legible : legible? 11 exampleLine218 = true := by decide +kernel

/-- In examples/single_step/nal8. -/
def exampleLine219 : List Char := "<(^go_to,{SELF},$1)=/><(*,{SELF},$1) --> at>>.".toList
theorem exampleLine219_legible : legible? 11 exampleLine219 = true := by decide +kernel

/-- In examples/single_step/nal8. -/
def exampleLine220 : List Char := "<(*,SELF,{t001}) --> at>. :|:".toList
theorem exampleLine220_legible : legible? 11 exampleLine220 = true := by decide +kernel

/-- In examples/single_step/nal8. -/
def exampleLine221 : List Char := "<(&/,<(*,SELF,{t001}) --> at>,+100,(^open,{t001}))=/><{t001} --> [opened]>>. :|:".toList
theorem exampleLine221_legible : legible? 11 exampleLine221 = true := by decide +kernel

/-- In examples/single_step/nal8. -/
def exampleLine222 : List Char := "(&/,<(*,SELF,{t001}) --> at>,(^open,{SELF},{t001}))!".toList
theorem exampleLine222_legible : legible? 11 exampleLine222 = true := by decide +kernel

/-- In examples/single_step/nal8. -/
def exampleLine223 : List Char := "<(^open,{SELF},{t001})=/><{t001} --> [opened]>>. :|:".toList
theorem exampleLine223_legible : legible? 11 exampleLine223 = true := by decide +kernel

/-- In examples/single_step/nal8. -/
def exampleLine224 : List Char := "(^open,{SELF},{t001}). :|:".toList
theorem exampleLine224_legible : legible? 11 exampleLine224 = true := by decide +kernel

/-- In examples/single_step/nal8. -/
def exampleLine225 : List Char := "<(*,SELF,{t002}) --> reachable>!".toList
theorem exampleLine225_legible : legible? 11 exampleLine225 = true := by decide +kernel

/-- In examples/single_step/nal8. -/
def exampleLine226 : List Char := "<(*,{t002},{t003}) --> on>. :|:".toList
theorem exampleLine226_legible : legible? 11 exampleLine226 = true := by decide +kernel

/-- In examples/single_step/nal8. -/
def exampleLine227 : List Char := "(&|,<(*,{t002},{t003}) --> on>,<(*,{t003},SELF) --> at>)!".toList
theorem exampleLine227_legible : legible? 11 exampleLine227 = true := by decide +kernel

/-- In examples/single_step/nal8. -/
def exampleLine228 : List Char := "<(*,SELF,{t003}) --> at>!".toList
theorem exampleLine228_legible : legible? 11 exampleLine228 = true := by decide +kernel

/-- In examples/single_step/nal8. -/
def exampleLine229 : List Char := "<(^go_to,{t003})=/><(*,SELF,{t003}) --> at>>.".toList
theorem exampleLine229_legible : legible? 11 exampleLine229 = true := by decide +kernel

/-- In examples/single_step/nal8. -/
def exampleLine230 : List Char := "<(*,{t003}) --> ^go_to>. :|:".toList
theorem exampleLine230_legible : legible? 11 exampleLine230 = true := by decide +kernel

/-- In examples/single_step/nal8. -/
def exampleLine231 : List Char := "<<(*,$1) --> ^go_to> =/> <(*,SELF,$1) --> at>>.".toList
theorem exampleLine231_legible : legible? 11 exampleLine231 = true := by decide +kernel

/-- In examples/single_step/nal8. -/
def exampleLine232 : List Char := "<SELF --> (/,at,_,{t003})>. :\\:".toList
theorem exampleLine232_legible : legible? 11 exampleLine232 = true := by decide +kernel

/-- In examples/single_step/nal8. -/
def exampleLine233 : List Char := "<(&/,<(*,Self,{t002}) --> hold>,(^go_to,{t001}),(^open,{t001})) =/> <{t001} --> [opened]>>.".toList
theorem exampleLine233_legible : legible? 11 exampleLine233 = true := by decide +kernel

/-- In examples/single_step/nal8. -/
def exampleLine234 : List Char := "<(&/,<(*,Self,{t002}) --> reachable>,(^pick,{t002})) =/> <(*,Self,{t002}) --> hold>>.".toList
theorem exampleLine234_legible : legible? 11 exampleLine234 = true := by decide +kernel

/-- In examples/single_step/nal8. -/
def exampleLine235 : List Char := "<(&/,<(*,Self,{t003}) --> at>,(^pick,{t002}),(^go_to,{t001}),(^open,{t001})) =/> <{t001} --> [opened]>>. :|:".toList
theorem exampleLine235_legible : legible? 11 exampleLine235 = true := by decide +kernel

/-- In examples/single_step/nal8. -/
def exampleLine236 : List Char := "<(^go_to,$1) =/> <(*,Self,$1) --> at>>.".toList
theorem exampleLine236_legible : legible? 11 exampleLine236 = true := by decide +kernel

/-- In examples/single_step/nal8. -/
def exampleLine237 : List Char := "<(&/,<(*,Self,{t001}) --> at>,(^break,{t001})) =/> <{t001} --> [opened]>>.".toList
theorem exampleLine237_legible : legible? 11 exampleLine237 = true := by decide +kernel

/-- In examples/single_step/nal8. -/
def exampleLine238 : List Char := "(&/,<(*,Self,{t001}) --> at>,(^break,{t001}))!".toList
theorem exampleLine238_legible : legible? 11 exampleLine238 = true := by decide +kernel

/-- In examples/single_step/nal8. -/
def exampleLine239 : List Char := "<(*,Self,{t001}) --> at>. :|:".toList
theorem exampleLine239_legible : legible? 11 exampleLine239 = true := by decide +kernel

/-- In examples/single_step/nal8. -/
def exampleLine240 : List Char := "<(^break,$1) =/> <$1 --> [damaged]>>.".toList
theorem exampleLine240_legible : legible? 11 exampleLine240 = true := by decide +kernel

/-- In examples/single_step/nal8. -/
def exampleLine241 : List Char := "<{t001} --> [damaged]>!".toList
theorem exampleLine241_legible : legible? 11 exampleLine241 = true := by decide +kernel

/-- In examples/single_step/nal8. -/
def exampleLine242 : List Char := "(^break,{t001})! %0.00;0.86%".toList
theorem exampleLine242_legible : legible? 11 exampleLine242 = true := by decide +kernel

/-- In examples/single_step/nal8. -/
def exampleLine243 : List Char := "(^break,{t001})! %1.00;0.73%".toList
theorem exampleLine243_legible : legible? 11 exampleLine243 = true := by decide +kernel

/-- In examples/single_step/nal8. -/
def exampleLine244 : List Char := "(^break,{t001})! %0.31;0.89%".toList
theorem exampleLine244_legible : legible? 11 exampleLine244 = true := by decide +kernel

/-- In examples/single_step/nal8. -/
def exampleLine245 : List Char := "(^break,{t001})! %1.00;0.95%".toList
theorem exampleLine245_legible : legible? 11 exampleLine245 = true := by decide +kernel

/-- In examples/single_step/nal8. -/
def exampleLine246 : List Char := "<(*,Self,key001) --> reachable>. :|:".toList
theorem exampleLine246_legible : legible? 11 exampleLine246 = true := by decide +kernel

/-- In examples/single_step/nal8. -/
def exampleLine247 : List Char := "<(&/,<(*,Self,key001) --> reachable>,(^pick,key001)) =/> <(*,Self,key001) --> hold>>.".toList
theorem exampleLine247_legible : legible? 11 exampleLine247 = true := by decide +kernel

/-- In examples/single_step/nal8. -/
def exampleLine248 : List Char := "<(^pick,key001) =/> <(*,Self,key001) --> hold>>. :|:".toList
theorem exampleLine248_legible : legible? 11 exampleLine248 = true := by decide +kernel

/-- In examples/single_step/nal8. -/
def exampleLine249 : List Char := "<(*,Self,key001) --> hold>!".toList
theorem exampleLine249_legible : legible? 11 exampleLine249 = true := by decide +kernel

/-- In examples/single_step/nal8. -/
def exampleLine250 : List Char := "(^pick,key001). :\\:".toList
theorem exampleLine250_legible : legible? 11 exampleLine250 = true := by decide +kernel

/-- In examples/single_step/nal8. -/
def exampleLine251 : List Char := "<(^pick,key001) =/> <(*,Self,key001) --> hold>>.".toList
theorem exampleLine251_legible : legible? 11 exampleLine251 = true := by decide +kernel

/-- In examples/single_step/nal8. -/
def exampleLine252 : List Char := "<(*,Self,key001) --> hold>. :|: %1.00;0.81%".toList
theorem exampleLine252_legible : legible? 11 exampleLine252 = true := by decide +kernel

/-- In examples/single_step/nal8. -/
def exampleLine253 : List Char := "<(*,Self,key001) --> hold>. :|:".toList
theorem exampleLine253_legible : legible? 11 exampleLine253 = true := by decide +kernel

/-- In examples/single_step/nal8. -/
def exampleLine254 : List Char := "<(*,Self,key001) --> hold>. :|: %0%".toList
theorem exampleLine254_legible : legible? 11 exampleLine254 = true := by decide +kernel

/-- In examples/single_step/nal8. -/
def exampleLine255 : List Char := "<(*,Self,key001) --> hold>. :|: %1.00;0.91%".toList
theorem exampleLine255_legible : legible? 11 exampleLine255 = true := by decide +kernel

/-- In examples/single_step/nal8. -/
def exampleLine256 : List Char := "<(*,Self,key001) --> hold>? :|:".toList
theorem exampleLine256_legible : legible? 11 exampleLine256 = true := by decide +kernel

/-- In examples/single_step/nal8. -/
def exampleLine257 : List Char := "<(^pick,key001) =/> <(*,Self,key001) --> hold>>. :\\: %1.00;0.90%".toList
theorem exampleLine257_legible : legible? 11 exampleLine257 = true := by decide +kernel

/-- In examples/single_step/nal8. -/
def exampleLine258 : List Char := "<(^pick,key001) =/> <(*,Self,key001) --> hold>>. :\\: %1.00;0.45%".toList
theorem exampleLine258_legible : legible? 11 exampleLine258 = true := by decide +kernel

/-- In examples/single_step/nal8. -/
def exampleLine259 : List Char := "<(^pick,key001) =/> <(*,Self,key001) --> hold>>. :|: %1.00;0.81%".toList
theorem exampleLine259_legible : legible? 11 exampleLine259 = true := by decide +kernel

/-- In examples/single_step/nal8. -/
def exampleLine260 : List Char := "(^pick,key001). :|:".toList
theorem exampleLine260_legible : legible? 11 exampleLine260 = true := by decide +kernel

/-- In examples/single_step/nal8. -/
def exampleLine261 : List Char := "<(*,Self,key001) --> hold>. :|: %1.00;0.73%".toList
theorem exampleLine261_legible : legible? 11 exampleLine261 = true := by decide +kernel

/-- In examples/single_step/nal8. -/
def exampleLine262 : List Char := "<(*,Self,key001) --> hold>. :|: %1.00;0.90%".toList
theorem exampleLine262_legible : legible? 11 exampleLine262 = true := by decide +kernel

/-- In examples/single_step/nal8. -/
def exampleLine263 : List Char := "<a --> A>. :|:".toList
theorem exampleLine263_legible : legible? 11 exampleLine263 = true := by decide +kernel

/-- In examples/single_step/nal8. -/
def exampleLine264 : List Char := "(^pick,{SELF},key001). :|: %1.00;0.90%".toList
theorem exampleLine264_legible : legible? 11 exampleLine264 = true := by decide +kernel

/-- In examples/single_step/nal8. -/
def exampleLine265 : List Char := "<(^pick,key001) =/> <(*,Self,key001) --> hold>>. :|: %1.00;0.45%".toList
theorem exampleLine265_legible : legible? 11 exampleLine265 = true := by decide +kernel

/-- In examples/single_step/nal8. -/
def exampleLine266 : List Char := "<(^pick,key001) =/> <(*,Self,key001) --> hold>>. :|: %1.00;0.84%".toList
theorem exampleLine266_legible : legible? 11 exampleLine266 = true := by decide +kernel

/-- In examples/single_step/nal8. -/
def exampleLine267 : List Char := "<(&/,<(*,Self,key001) --> reachable>,(^pick,key001)) =/> <(*,Self,key001) --> hold>>. %1.00;0.90%".toList
theorem exampleLine267_legible : legible? 11 exampleLine267 = true := by decide +kernel

/-- In examples/single_step/nal8. -/
def exampleLine268 : List Char := "<(&/,<(*,Self,key001) --> reachable>,(^pick,key001)) =/> <(*,Self,key001) --> hold>>. %1.00;0.43%".toList
theorem exampleLine268_legible : legible? 11 exampleLine268 = true := by decide +kernel

/-- In examples/single_step/nal8. -/
def exampleLine269 : List Char := "(^add,{SELF},2,3,?1)!".toList
theorem exampleLine269_legible : legible? 11 exampleLine269 = true := by decide +kernel

/-- In examples/single_step/nal8. -/
def exampleLine270 : List Char := "(^count,{SELF},{a,b,c,d},?1)!".toList
theorem exampleLine270_legible : legible? 11 exampleLine270 = true := by decide +kernel

/-- In examples/single_step/nal8. -/
def exampleLine271 : List Char := "(^reflect,{SELF},<cat --> animal>,?1)!".toList
theorem exampleLine271_legible : legible? 11 exampleLine271 = true := by decide +kernel

/-- In examples/single_step/nal9. -/
def exampleLine272 : List Char := "<(&/,<a --> A>,+10) =/> <b --> B>>.".toList
theorem exampleLine272_legible : legible? 11 exampleLine272 = true := by decide +kernel

/-- In examples/single_step/nal9. -/
def exampleLine273 : List Char := "<b --> B>.".toList
theorem exampleLine273_legible : legible? 11 exampleLine273 = true := by decide +kernel

/-- In examples/single_step/nal9. -/
def exampleLine274 : List Char := "<a --> b>.".toList
theorem exampleLine274_legible : legible? 11 exampleLine274 = true := by decide +kernel

/-- In examples/single_step/nal9. -/
def exampleLine275 : List Char := "<a --> b>?".toList
theorem exampleLine275_legible : legible? 11 exampleLine275 = true := by decide +kernel

/-- In examples/single_step/nal9. -/
def exampleLine276 : List Char := "(^believe, {SELF}, <cat --> animal>, FALSE)!".toList
theorem exampleLine276_legible : legible? 11 exampleLine276 = true := by decide +kernel

/-- In examples/single_step/nal9. -/
def exampleLine277 : List Char := "<a --> b>. %1.00;0.90%".toList
theorem exampleLine277_legible : legible? 11 exampleLine277 = true := by decide +kernel

/-- In examples/single_step/nal9. -/
def exampleLine278 : List Char := "(^doubt,{SELF},<a --> b>)! %1.00;0.90%".toList
theorem exampleLine278_legible : legible? 11 exampleLine278 = true := by decide +kernel

/-- In examples/single_step/nal9. -/
def exampleLine279 : List Char := "<a --> b>@".toList
theorem exampleLine279_legible : legible? 11 exampleLine279 = true := by decide +kernel

/-- In examples/single_step/nal9. -/
def exampleLine280 : List Char := "(^evaluate,{SELF},<cat --> animal>)!".toList
theorem exampleLine280_legible : legible? 11 exampleLine280 = true := by decide +kernel

/-- In examples/single_step/nal9. -/
def exampleLine281 : List Char := "<a --> b>! %1.00;0.90%".toList
theorem exampleLine281_legible : legible? 11 exampleLine281 = true := by decide +kernel

/-- In examples/single_step/nal9. -/
def exampleLine282 : List Char := "(^hesitate,{SELF},<a --> b>)! %1.00;0.90%".toList
theorem exampleLine282_legible : legible? 11 exampleLine282 = true := by decide +kernel

/-- In examples/single_step/nal9. -/
def exampleLine283 : List Char := "(^want,{SELF},<a --> b>). %1.00;0.90%".toList
theorem exampleLine283_legible : legible? 11 exampleLine283 = true := by decide +kernel

/-- In examples/single_step/nal9. -/
def exampleLine284 : List Char := "(^want,{SELF},<a --> b>). :|: %1.00;0.90%".toList
theorem exampleLine284_legible : legible? 11 exampleLine284 = true := by decide +kernel

/-- In examples/single_step/nal9. -/
def exampleLine285 : List Char := "(^want,{SELF},<a --> b>)! %1.00;0.90%".toList
theorem exampleLine285_legible : legible? 11 exampleLine285 = true := by decide +kernel

/-- In examples/single_step/nal9. -/
def exampleLine286 : List Char := "(^wonder,{SELF},<cat --> animal>)!".toList
theorem exampleLine286_legible : legible? 11 exampleLine286 = true := by decide +kernel

/-- The lines of this file. -/
def exampleLines4 : List (List Char) :=
  [exampleLine217, exampleLine218, exampleLine219, exampleLine220,
   exampleLine221, exampleLine222, exampleLine223, exampleLine224,
   exampleLine225, exampleLine226, exampleLine227, exampleLine228,
   exampleLine229, exampleLine230, exampleLine231, exampleLine232,
   exampleLine233, exampleLine234, exampleLine235, exampleLine236,
   exampleLine237, exampleLine238, exampleLine239, exampleLine240,
   exampleLine241, exampleLine242, exampleLine243, exampleLine244,
   exampleLine245, exampleLine246, exampleLine247, exampleLine248,
   exampleLine249, exampleLine250, exampleLine251, exampleLine252,
   exampleLine253, exampleLine254, exampleLine255, exampleLine256,
   exampleLine257, exampleLine258, exampleLine259, exampleLine260,
   exampleLine261, exampleLine262, exampleLine263, exampleLine264,
   exampleLine265, exampleLine266, exampleLine267, exampleLine268,
   exampleLine269, exampleLine270, exampleLine271, exampleLine272,
   exampleLine273, exampleLine274, exampleLine275, exampleLine276,
   exampleLine277, exampleLine278, exampleLine279, exampleLine280,
   exampleLine281, exampleLine282, exampleLine283, exampleLine284,
   exampleLine285, exampleLine286]

theorem exampleLines4_legible : exampleLines4.all (legible? 11) = true :=
  all_cons exampleLine217_legible <| all_cons exampleLine218_legible <| all_cons exampleLine219_legible <| all_cons exampleLine220_legible <|
  all_cons exampleLine221_legible <| all_cons exampleLine222_legible <| all_cons exampleLine223_legible <| all_cons exampleLine224_legible <|
  all_cons exampleLine225_legible <| all_cons exampleLine226_legible <| all_cons exampleLine227_legible <| all_cons exampleLine228_legible <|
  all_cons exampleLine229_legible <| all_cons exampleLine230_legible <| all_cons exampleLine231_legible <| all_cons exampleLine232_legible <|
  all_cons exampleLine233_legible <| all_cons exampleLine234_legible <| all_cons exampleLine235_legible <| all_cons exampleLine236_legible <|
  all_cons exampleLine237_legible <| all_cons exampleLine238_legible <| all_cons exampleLine239_legible <| all_cons exampleLine240_legible <|
  all_cons exampleLine241_legible <| all_cons exampleLine242_legible <| all_cons exampleLine243_legible <| all_cons exampleLine244_legible <|
  all_cons exampleLine245_legible <| all_cons exampleLine246_legible <| all_cons exampleLine247_legible <| all_cons exampleLine248_legible <|
  all_cons exampleLine249_legible <| all_cons exampleLine250_legible <| all_cons exampleLine251_legible <| all_cons exampleLine252_legible <|
  all_cons exampleLine253_legible <| all_cons exampleLine254_legible <| all_cons exampleLine255_legible <| all_cons exampleLine256_legible <|
  all_cons exampleLine257_legible <| all_cons exampleLine258_legible <| all_cons exampleLine259_legible <| all_cons exampleLine260_legible <|
  all_cons exampleLine261_legible <| all_cons exampleLine262_legible <| all_cons exampleLine263_legible <| all_cons exampleLine264_legible <|
  all_cons exampleLine265_legible <| all_cons exampleLine266_legible <| all_cons exampleLine267_legible <| all_cons exampleLine268_legible <|
  all_cons exampleLine269_legible <| all_cons exampleLine270_legible <| all_cons exampleLine271_legible <| all_cons exampleLine272_legible <|
  all_cons exampleLine273_legible <| all_cons exampleLine274_legible <| all_cons exampleLine275_legible <| all_cons exampleLine276_legible <|
  all_cons exampleLine277_legible <| all_cons exampleLine278_legible <| all_cons exampleLine279_legible <| all_cons exampleLine280_legible <|
  all_cons exampleLine281_legible <| all_cons exampleLine282_legible <| all_cons exampleLine283_legible <| all_cons exampleLine284_legible <|
  all_cons exampleLine285_legible <| all_cons exampleLine286_legible <| rfl

end Cnars.Props
