import Verif.Base.Hash

/-!
# `Narsese/include/Sentence.h`: stamps, sentences
-/

namespace Cnars.Stamp
open Cnars

/-- `TENSE::Tense` (Tense.h:10-16). -/
inductive Tense where
  | past | present | future | eternal
  deriving Repr, DecidableEq

/-- `TENSE::Repr` (Tense.h:17). -/
def Tense.symbol : Tense → String
  | past => ":\\:" | present => ":|:" | future => ":/:" | eternal => ":-:"

/-- Conversion of an `unsigned long` to `signed int`: reduction modulo 2^32. -/
def toInt32 (x : Nat) : Int := (BitVec.ofNat 32 x).toInt

/-- Subtraction of `unsigned long` values (modulo 2^64). -/
def subU64 (a b : Nat) : Nat := (a + 2^64 - b % 2^64) % 2^64

/-- `CONFIG::temporal_duration` (Config.cpp:56). -/
def temporalDuration : Nat := 5

/-- `SENTENCE::Stamp` (Sentence.h:42-49).  The evidential base is a `shared_ptr`, possibly null;
a base is represented by its set of ids. -/
structure Stamp where
  evidentialBase : Option (List Nat)
  tCreation : Int
  tOccurrence : Int
  tPut : Int
  isEternal : Bool
  deriving Repr, DecidableEq

/-- `Stamp::tense` (Sentence.h:84-94); `time` is `GLOBAL::time`, an `unsigned long`. -/
def Stamp.tense (s : Stamp) (time : Nat) : Tense :=
  if s.isEternal then .eternal
  else if s.tOccurrence ≥ toInt32 ((time + temporalDuration) % 2^64) then .future
  else if s.tOccurrence ≤ toInt32 (subU64 time temporalDuration) then .past
  else .present

/-- `Stamp::eternalize` (Sentence.h:96-99). -/
def Stamp.eternalize (s : Stamp) : Stamp := { s with isEternal := true }

/-- The globals of one translation unit (Global.h:6-7). -/
structure Globals where
  time : Nat
  inputId : Nat
  deriving Repr, DecidableEq

/-- `GLOBAL::get_input_id` (Global.h:9-14). -/
def Globals.getInputId (g : Globals) : Nat × Globals :=
  (g.inputId, { g with inputId := (g.inputId + 1) % 2^64 })

/-- `Stamp(t_occurrence, t_creation, t_put, evidential_base, is_eternal)` (Sentence.h:62-66).
When the given base is null, the body creates a base (using up an id) but assigns it to the
*parameter* `evidential_base`, so the member stays null. -/
def Stamp.make5 (g : Globals) (tOccurrence tCreation tPut : Int) (base : Option (List Nat))
    (isEternal : Bool) : Stamp × Globals :=
  let g := match base with
    | none => g.getInputId.2
    | some _ => g
  (⟨base, tCreation, tOccurrence, tPut, isEternal⟩, g)

/-- `Stamp(bool is_eternal)` (Sentence.h:58). -/
def Stamp.makeEternal (g : Globals) (isEternal : Bool) : Stamp × Globals :=
  let (id, g) := g.getInputId
  Stamp.make5 g (toInt32 g.time) (toInt32 g.time) (-1) (some [id]) isEternal

/-- `Stamp(signed int t_occurrence)` (Sentence.h:60). -/
def Stamp.makeAt (g : Globals) (tOccurrence : Int) : Stamp × Globals :=
  let (id, g) := g.getInputId
  Stamp.make5 g tOccurrence (toInt32 g.time) (-1) (some [id]) false

/-- How the semantic actions `judgement`, `question`, `goal`, `quest` choose the stamp
(NarseseParser.cpp:128-150, 177-196, 211-233, 261-280): `tense` is the occurrence time given by a
tense mark, if any. -/
def sentenceStamp (g : Globals) (tense : Option Int) : Stamp × Globals :=
  match tense with
  | some t => Stamp.make5 g t (toInt32 g.time) (-1) none false
  | none => Stamp.makeEternal g true

/-- The occurrence times produced by the tense marks (NarseseParser.cpp:773-791):
`:/:` is `temporal_duration`, `:|:` is 0, `:\:` is `-temporal_duration` (unsigned negation,
converted to `int`). -/
def tenseFuture : Int := toInt32 temporalDuration
def tensePresent : Int := 0
def tensePast : Int := toInt32 ((2^32 - temporalDuration) % 2^32)

/-- The constructor `Sentence(term, punct, truth, stamp)` (Sentence.h:127-131), as far as the stamp
is concerned: a missing stamp is replaced by an eternal one. -/
def ctorStamp (g : Globals) (stamp : Option Stamp) : Stamp × Globals :=
  match stamp with
  | some s => (s, g)
  | none => Stamp.makeEternal g true

/-- The ways a sentence comes into being. -/
inductive Creation where
  /-- parsed, without or with a tense mark -/
  | parsed (tense : Option Int)
  /-- constructed directly without a stamp -/
  | constructed
  /-- constructed directly with `Stamp(t)` -/
  | stamped (t : Int)
  deriving Repr, DecidableEq

/-- The stamp of a new sentence. -/
def create (g : Globals) : Creation → Stamp × Globals
  | .parsed t => let (s, g) := sentenceStamp g t; ctorStamp g (some s)
  | .constructed => ctorStamp g none
  | .stamped t => let (s, g) := Stamp.makeAt g t; ctorStamp g (some s)

/-- A history of creations in one translation unit; the resulting stamps in order. -/
def createAll (g : Globals) : List Creation → List Stamp × Globals
  | [] => ([], g)
  | c :: cs =>
    let (s, g) := create g c
    let (ss, g) := createAll g cs
    (s :: ss, g)

end Cnars.Stamp
