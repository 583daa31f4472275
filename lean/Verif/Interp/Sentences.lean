import Verif.Interp.Numbers
import Verif.Interp.Print
import Verif.Nal.Truth
import Verif.Sentence.Stamp

/-!
# `Interpreter::interpret` on sentences and tasks
-/

namespace Cnars

/-- `SENTENCE::PUNCTUATION` (Sentence.h:26-36). -/
inductive Punct where
  | judgement | question | goal | quest
  deriving Repr, DecidableEq

/-- `PUNCTUATION::Repr` (Sentence.h:35). -/
def Punct.symbol : Punct → String
  | judgement => "." | question => "?" | goal => "!" | quest => "@"

/-- The class a sentence object was created as (Sentence.h:117-183). -/
inductive SClass where
  | sentence | judgement | question | goal | quest
  deriving Repr, DecidableEq

/-- `SENTENCE::Sentence` (Sentence.h:117-140).  Pointers `truth` and `stamp` may be null; the
constructors make sure that `stamp` is not. -/
structure Sentence (K : Type) where
  term : Term
  punct : Punct
  truth : Option (Truth K)
  stamp : Stamp.Stamp
  cls : SClass

namespace Sentence
variable {K : Type}

/-- `Sentence(term, punct, truth, stamp)`, also reachable from Python (Sentence.h:127-131,
Sentence.cpp:37-41). -/
def ofPunct (g : Stamp.Globals) (t : Term) (p : Punct) (truth : Option (Truth K))
    (stamp : Option Stamp.Stamp) : Sentence K :=
  ⟨t, p, truth, (Stamp.ctorStamp g stamp).1, .sentence⟩

/-- `Judgement(term, truth, stamp)` (Sentence.h:150-159); `dflt` is `Truth(f, c_judgement, k)` of the
configuration. -/
def judgement (g : Stamp.Globals) (dflt : Truth K) (t : Term) (truth : Option (Truth K))
    (stamp : Option Stamp.Stamp) : Sentence K :=
  ⟨t, .judgement, some (truth.getD dflt), (Stamp.ctorStamp g stamp).1, .judgement⟩

/-- `Question(term, stamp)` (Sentence.h:161-165). -/
def question (g : Stamp.Globals) (t : Term) (stamp : Option Stamp.Stamp) : Sentence K :=
  ⟨t, .question, none, (Stamp.ctorStamp g stamp).1, .question⟩

/-- `Goal(term, desire, stamp)` (Sentence.h:167-176). -/
def goal (g : Stamp.Globals) (dflt : Truth K) (t : Term) (truth : Option (Truth K))
    (stamp : Option Stamp.Stamp) : Sentence K :=
  ⟨t, .goal, some (truth.getD dflt), (Stamp.ctorStamp g stamp).1, .goal⟩

/-- `Quest(term, stamp)` (Sentence.h:178-182). -/
def quest (g : Stamp.Globals) (t : Term) (stamp : Option Stamp.Stamp) : Sentence K :=
  ⟨t, .quest, none, (Stamp.ctorStamp g stamp).1, .quest⟩

end Sentence

namespace Print
variable {K : Type}

/-- The truth value that is read (Interpreter.cpp:258, 263, 274, 279).  A judgement's is the member
`truth` of `Sentence`, dereferenced; a goal's is read through the reference member `desire` of class
`Goal`, which an object created as a mere `Sentence` does not have. -/
def truthOf (s : Sentence K) : Res (Option (Truth K)) :=
  match s.punct with
  | .judgement => (Res.ofOption s.truth).bind fun t => .ok (some t)
  | .goal => if s.cls = .goal then (Res.ofOption s.truth).bind fun t => .ok (some t) else .ub
  | _ => .ok none

/-- `%{:.3f};{:.3f}%`, plain or coloured (Interpreter.cpp:259, 264, 275, 280); `fix n x` is
`fmt::format("{:.nf}", x)`. -/
def truthText (fix : Nat → K → Str) (colored : Bool) (t : Option (Truth K)) : Res Str :=
  match t with
  | none => .ok []
  | some t => do
    let l ← paint colored .percent ['%']
    let m ← paint colored .percent [';']
    let num (x : K) : Str := if colored then Color.escape .number ++ fix 3 x ++ reset else fix 3 x
    return l ++ num t.f ++ m ++ num t.c ++ l

/-- The tense mark and a space, unless eternal (Interpreter.cpp:267, 283). -/
def stampText (colored : Bool) (time : Nat) (s : Stamp.Stamp) : Str :=
  if s.isEternal then []
  else
    let x := (s.tense time).symbol.toList ++ [' ']
    if colored then Color.escape .tense ++ x ++ reset else x

/-- `Interpreter::interpret(Sentence&, bool)` (Interpreter.cpp:245-290).  The coloured branch ends in
a format string with six placeholders and four arguments, which throws. -/
def sentence (fix : Nat → K → Str) (time : Nat) (d : Map Key String) (colored : Bool)
    (s : Sentence K) : Res Str := do
  let t ← term d colored s.term
  let truth ← truthOf s
  let truth ← truthText fix colored truth
  let p ← paint colored .punct s.punct.symbol.toList
  let st := stampText colored time s.stamp
  if colored then .throw "fmt::format_error"
  else return t ++ p ++ [' '] ++ st ++ truth

variable [Field K] [LinearOrder K] [FloorRing K]

/-- `BUDGET::Budget` (Budget.h:16-28). -/
structure Budget (K : Type) where
  priority : Num K
  durability : Num K
  quality : Num K

/-- `Interpreter::interpret(Task&, bool)` (Interpreter.cpp:218-243).  The sentence is always printed
without colour.  `bg r g b` is the escape sequence of a background colour. -/
def task (R : Rnd K) (fix : Nat → K → Str) (bg : Fin 3 → K → Str) (time : Nat) (d : Map Key String)
    (colored : Bool) (b : Budget K) (s : Sentence K) : Res Str := do
  let p := b.priority.shown R
  let q := b.durability.shown R
  let r := b.quality.shown R
  let str ← sentence fix time d false s
  let box (i : Fin 3) (x : K) : Str := bg i x ++ [' '] ++ fix 2 x ++ [' '] ++ reset
  if colored then return box 0 p ++ box 1 q ++ box 2 r ++ [' '] ++ str
  else return ['$'] ++ fix 2 p ++ [';'] ++ fix 2 q ++ [';'] ++ fix 2 r ++ ['$', ' '] ++ str

end Print
end Cnars
