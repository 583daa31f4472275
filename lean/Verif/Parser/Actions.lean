import Mathlib.Data.List.Sort
import Mathlib.Data.Rat.Floor
import Verif.Interp.Sentences
import Verif.Interp.World
import Verif.Narsese.CompoundLemmas
import Verif.Parser.Types

/-!
# The semantic actions

`Narsese/Parser/NarseseParser.cpp` and `Parser::transform` (Narsese/Parser/Parser.cpp:66-110).

Arguments and results of actions are `void *`.  Here they are values with a tag for what the pointer
really points to; an action that reads an argument as something else, or reads an argument that is
not there, gives `none`.

Numbers are rational; the roundings are parameters.
-/

namespace Cnars.Parser
open Cnars

/-- `CONFIG::…` (Config.cpp:5-22): the values used by the actions, as `float`s. -/
structure Config where
  priority : ℚ
  durability : ℚ
  quality : ℚ
  f : ℚ
  c : ℚ
  c_judgement : ℚ
  c_goal : ℚ
  k : ℚ
  p_judgement : ℚ
  d_judgement : ℚ
  p_question : ℚ
  d_question : ℚ
  p_quest : ℚ
  d_quest : ℚ
  p_goal : ℚ
  d_goal : ℚ

/-- The values of Config.cpp:5-22.  Nothing in the code changes them. -/
def Config.ofRnd (R : Rnd ℚ) : Config where
  priority := R.s (8 / 10)
  durability := R.s (8 / 10)
  quality := R.s (5 / 10)
  f := R.s 1
  c := R.s (9 / 10)
  c_judgement := R.s (9 / 10)
  c_goal := R.s (9 / 10)
  k := R.s 1
  p_judgement := R.s (8 / 10)
  d_judgement := R.s (5 / 10)
  p_question := R.s (9 / 10)
  d_question := R.s (9 / 10)
  p_quest := R.s (9 / 10)
  d_quest := R.s (9 / 10)
  p_goal := R.s (9 / 10)
  d_goal := R.s (9 / 10)

/-- What the C++ text leaves open: roundings (Arith.lean), the numbers for which `std::stod` throws
`out_of_range`, the address of the next new atom, the enumeration order of a `std::unordered_map`
(Compound.lean); and the configuration. -/
structure Mach where
  R : Rnd ℚ
  erange : ℚ → Bool
  addr : World → Word
  ord : Order
  cfg : Config

/-- `BUDGET::Budget` (Budget.h:16-28). -/
structure Budget where
  priority : ℚ
  durability : ℚ
  quality : ℚ
  deriving DecidableEq

/-- `TASK::Task` (Task.h:18-30) as far as the actions set it. -/
structure Task where
  budget : Budget
  sentence : Sentence ℚ

/-- What a `void *` points to. -/
inductive Val where
  /-- `pTerm *` -/
  | term (t : Term)
  /-- `Copula *` -/
  | copula (c : Copula)
  /-- `Connector *` -/
  | conn (c : Connector)
  /-- `std::string *` -/
  | str (s : List Char)
  /-- `double *` -/
  | dbl (x : ℚ)
  /-- `std::tuple<int, signed int *> *` with first component 0 -/
  | tense (t : Int)
  /-- `std::tuple<int, Truth *> *` with first component 1 -/
  | truth (t : Truth ℚ)
  /-- `Budget *` -/
  | budget (b : Budget)
  /-- `Sentence *` -/
  | sentence (s : Sentence ℚ)
  /-- `Task *` -/
  | task (t : Task)
  /-- the token of a leaf, `char *` -/
  | cstr (s : List Char)
  /-- a null pointer -/
  | null

/-- The state that actions change: named atoms and their handles (World.lean), the variable names
seen in this parse, of each kind, in the order of insertion (`names_ivar`, `names_dvar`,
`names_qvar`, Parser.h:31-33; the number stored for a name is the size of the map before its
insertion), and the globals of Global.h. -/
structure Env where
  world : World
  names : VarKind → List String
  globals : Stamp.Globals

/-- A computation on that state.  The state remains when an exception is thrown. -/
def Act (α : Type) : Type := Env → Res α × Env

namespace Act

/-- Sequencing. -/
def bind {α β : Type} (x : Act α) (f : α → Act β) : Act β := fun e =>
  match x e with
  | (.ok a, e') => f a e'
  | (.throw m, e') => (.throw m, e')
  | (.ub, e') => (.ub, e')
  | (.outOfFuel, e') => (.outOfFuel, e')

instance : Monad Act where
  pure a := fun e => (.ok a, e)
  bind := bind

/-- A computation that does not depend on the state. -/
def lift {α : Type} (r : Res α) : Act α := fun e => (r, e)

/-- A step on named atoms. -/
def onWorld (f : World → Res World) : Act Unit := fun e =>
  match f e.world with
  | .ok w => (.ok (), { e with world := w })
  | .throw m => (.throw m, e)
  | .ub => (.ub, e)
  | .outOfFuel => (.outOfFuel, e)

/-- A step on the globals. -/
def onGlobals {α : Type} (f : Stamp.Globals → α × Stamp.Globals) : Act α := fun e =>
  (.ok (f e.globals).1, { e with globals := (f e.globals).2 })

end Act

/-! ## Handles -/

mutual
/-- The atoms of a term with repetitions, by address. -/
def addrs : Term → List Word
  | .atom a _ => [a]
  | .stmt s _ p _ => addrs s ++ addrs p
  | .comp _ ts _ => addrsAll ts
  | .interval .. => []
  | .var .. => []
/-- The same for a list. -/
def addrsAll : List Term → List Word
  | [] => []
  | t :: ts => addrs t ++ addrsAll ts
end

/-- `~pTerm` on one handle of the atom at an address. -/
def dropAddr (a : Word) (w : World) : Res World :=
  match w.handles.findIdx? fun t => (w.atoms[t]?).map (·.addr) == some a with
  | some i => w.drop i
  | none => .ok w

/-- The end of an action that turns the argument terms into the result term: the handles on atoms in
the arguments become those in the result, what is left over is destroyed.  Simplified: this happens
at the end of the action, in the order of the addresses; an action that throws keeps the handles. -/
def settle (args : List Term) (r : Term) : Act Unit :=
  Act.onWorld fun w =>
    (((addrsAll args).diff (addrs r)).insertionSort (· ≤ ·)).foldlM (fun w a => dropAddr a w) w

/-- A constructor of a term from terms. -/
def making (args : List Term) (r : Res Term) : Act Val := do
  let t ← Act.lift r
  settle args t
  pure (.term t)

/-- The atom of the handle made last. -/
def lastAtom (w : World) : Res Term :=
  match w.handles.getLast? with
  | none => .ub
  | some t =>
    match w.atoms[t]? with
    | none => .ub
    | some a => .ok (if a.isOp then Term.mkOperation a.addr else Term.mkAtom a.addr)

/-- The same. -/
def lastTerm : Act Term := fun e => (lastAtom e.world, e)

/-! ## The actions -/

namespace Action
variable (M : Mach)

/-- All of the arguments as terms. -/
def terms? : List Val → Option (List Term)
  | [] => some []
  | .term t :: vs => (terms? vs).map (t :: ·)
  | _ :: _ => none

/-- `budget.priority < -0.5` and so on: a missing value is replaced. -/
def orDefault (x dflt : ℚ) : ℚ := if x < -(1 / 2) then dflt else x

/-- NarseseParser.cpp:68-118.  Fields `priority` and `durability` are `double`, `quality` is a
`float`. -/
def finishBudget (b : Budget) (s : Sentence ℚ) : Res Budget :=
  match s.punct with
  | .judgement => do
    let q ← if b.quality < -(1 / 2) then
        (Res.ofOption s.truth).bind fun t => .ok (M.R.s (Nal.qualityFromTruth M.R t))
      else .ok b.quality
    return ⟨orDefault b.priority M.cfg.p_judgement, orDefault b.durability M.cfg.d_judgement, q⟩
  | .goal => do
    let q ← if b.quality < -(1 / 2) then
        (Res.ofOption s.truth).bind fun t => .ok (M.R.s (Nal.qualityFromTruth M.R t))
      else .ok b.quality
    return ⟨orDefault b.priority M.cfg.p_goal, orDefault b.durability M.cfg.d_goal, q⟩
  | .question =>
    return ⟨orDefault b.priority M.cfg.p_question, orDefault b.durability M.cfg.d_question,
      orDefault b.quality 1⟩
  | .quest =>
    return ⟨orDefault b.priority M.cfg.p_quest, orDefault b.durability M.cfg.d_quest,
      orDefault b.quality 1⟩

/-- NarseseParser.cpp:68-118. -/
def task : List Val → Option (Act Val)
  | [.sentence s] => some do
    let b ← Act.lift (finishBudget M ⟨M.cfg.priority, M.cfg.durability, M.cfg.quality⟩ s)
    pure (.task ⟨b, s⟩)
  | .budget b :: .sentence s :: _ => some do
    let b ← Act.lift (finishBudget M b s)
    pure (.task ⟨b, s⟩)
  | _ => none

/-- The arguments after the first are tuples. -/
def allMarks : List Val → Bool
  | [] => true
  | .tense _ :: vs => allMarks vs
  | .truth _ :: vs => allMarks vs
  | _ :: _ => false

/-- The loops over the arguments after the first (NarseseParser.cpp:128-145, 177-191, 212-229,
260-274): the last tense mark and the last truth value count; every tense mark makes a stamp. -/
def marks : List Val → Option Stamp.Stamp → Option (Truth ℚ) →
    Act (Option Stamp.Stamp × Option (Truth ℚ))
  | [], s, t => pure (s, t)
  | .tense n :: vs, _, t => do
    let s ← Act.onGlobals fun g => Stamp.sentenceStamp g (some n)
    marks vs (some s) t
  | .truth t :: vs, s, _ => marks vs s (some t)
  | _ :: vs, s, t => marks vs s t

/-- `new Stamp(true)` unless there is a stamp. -/
def stampOr : Option Stamp.Stamp → Act Stamp.Stamp
  | some s => pure s
  | none => Act.onGlobals fun g => Stamp.sentenceStamp g none

/-- NarseseParser.cpp:152-164, 235-247. -/
def truthOr (cDefault : ℚ) : Option (Truth ℚ) → Truth ℚ
  | none => ⟨M.R.s M.cfg.f, M.R.s M.cfg.c, M.R.s M.cfg.k⟩
  | some t => ⟨orDefault t.f M.cfg.f, orDefault t.c cDefault, orDefault t.k M.cfg.k⟩

/-- NarseseParser.cpp:120-169 and 203-252. -/
def believed (mk : Stamp.Globals → Term → Truth ℚ → Stamp.Stamp → Sentence ℚ) (cDefault : ℚ) :
    List Val → Option (Act Val)
  | .term t :: vs =>
    if allMarks vs then some do
      let (s, tr) ← marks vs none none
      let s ← stampOr s
      fun e => (.ok (.sentence (mk e.globals t (truthOr M cDefault tr) s)), e)
    else none
  | _ => none

/-- NarseseParser.cpp:171-201 and 254-285. -/
def asked (mk : Stamp.Globals → Term → Stamp.Stamp → Sentence ℚ) : List Val → Option (Act Val)
  | .term t :: vs =>
    if allMarks vs then some do
      let (s, _) ← marks vs none none
      let s ← stampOr s
      fun e => (.ok (.sentence (mk e.globals t s)), e)
    else none
  | _ => none

/-- The default of the constructors of `Judgement` and `Goal`, not used by the parser because it
always passes a truth value. -/
def dfltTruth (c : ℚ) : Truth ℚ := ⟨M.cfg.f, c, M.cfg.k⟩

/-- NarseseParser.cpp:120-169. -/
def judgement : List Val → Option (Act Val) :=
  believed M (fun g t tr s => Sentence.judgement g (dfltTruth M M.cfg.c_judgement) t (some tr) (some s))
    M.cfg.c_judgement
/-- NarseseParser.cpp:203-252. -/
def goal : List Val → Option (Act Val) :=
  believed M (fun g t tr s => Sentence.goal g (dfltTruth M M.cfg.c_goal) t (some tr) (some s))
    M.cfg.c_goal
/-- NarseseParser.cpp:171-201. -/
def question : List Val → Option (Act Val) := asked fun g t s => Sentence.question g t (some s)
/-- NarseseParser.cpp:254-285. -/
def quest : List Val → Option (Act Val) := asked fun g t s => Sentence.quest g t (some s)

/-- NarseseParser.cpp:287-316; `Compound::ExtensionalSet` and `IntensionalSet` are `create` with
`is_input = false` (Compound.h:69-76). -/
def newStatement (s : Term) (c : Copula) (p : Term) : Res Term :=
  match c with
  | .instance => do
    let s' ← mkComp M.ord .extensionalSet [s] false
    newStmt s' .inheritance p true
  | .property => do
    let p' ← mkComp M.ord .intensionalSet [p] false
    newStmt s .inheritance p' true
  | .instanceProperty => do
    let s' ← mkComp M.ord .extensionalSet [s] false
    let p' ← mkComp M.ord .intensionalSet [p] false
    newStmt s' .inheritance p' true
  | c => newStmt s c p true

/-- NarseseParser.cpp:287-316. -/
def statement : List Val → Option (Act Val)
  | .term s :: .copula c :: .term p :: _ => some (making [s, p] (newStatement M s c p))
  | _ => none

/-- NarseseParser.cpp:329. -/
def newOperation (op : Term) (ts : List Term) : Res Term := do
  let s ← mkComp M.ord .product ts true
  newStmt s .inheritance op true

/-- NarseseParser.cpp:318-332. -/
def statement_operation1 : List Val → Option (Act Val)
  | .term op :: vs => (terms? vs).map fun ts => making (op :: ts) (newOperation M op ts)
  | _ => none

/-- NarseseParser.cpp:455-475. -/
def theOperation (n : List Char) : Act Term := do
  Act.onWorld fun w => w.operation (String.ofList n) (M.addr w)
  lastTerm

/-- NarseseParser.cpp:455-475. -/
def operation : List Val → Option (Act Val)
  | .str n :: _ => some do
    let t ← theOperation M n
    pure (.term t)
  | _ => none

/-- NarseseParser.cpp:333-341. -/
def statement_operation2 : List Val → Option (Act Val)
  | .str n :: vs => (terms? vs).map fun ts => do
    let op ← theOperation M n
    making (op :: ts) (newOperation M op ts)
  | _ => none

/-- NarseseParser.cpp:421-440. -/
def atom_term : List Val → Option (Act Val)
  | .str n :: _ => some do
    Act.onWorld fun w => w.create (String.ofList n) (M.addr w)
    let t ← lastTerm
    pure (.term t)
  | _ => none

/-- NarseseParser.cpp:414-420, 441-454: the argument, taken for a term. -/
def passTerm : List Val → Option (Act Val)
  | .term t :: _ => some (pure (.term t))
  | _ => none

/-- NarseseParser.cpp:523-528. -/
def multi_infix : List Val → Option (Act Val)
  | v :: _ => some (pure v)
  | [] => none

/-- `(signed int)x`: undefined if the truncated value does not fit. -/
def toInt (x : ℚ) : Res Int :=
  let n := if 0 ≤ x then ⌊x⌋ else ⌈x⌉
  if -2147483648 ≤ n ∧ n ≤ 2147483647 then .ok n else .ub

/-- NarseseParser.cpp:476-484. -/
def interval : List Val → Option (Act Val)
  | .dbl x :: _ => some do
    let n ← Act.lift (toInt x)
    pure (.term (Term.mkInterval n))
  | _ => none

/-- NarseseParser.cpp:537-552; also 485-500, 510-522. -/
def multi_prefix : List Val → Option (Act Val)
  | .conn c :: vs => (terms? vs).map fun ts => making ts (mkComp M.ord c ts true)
  | _ => none

/-- NarseseParser.cpp:501-509; `Compound(connector, term, is_input)` is the constructor with a list
of one term (Compound.h:59). -/
def negation : List Val → Option (Act Val)
  | .conn c :: .term t :: _ => some (making [t] (mkComp M.ord c [t] true))
  | _ => none

/-- NarseseParser.cpp:553-562. -/
def single_prefix : List Val → Option (Act Val)
  | .conn c :: .term t :: .term u :: _ => some (making [t, u] (mkComp M.ord c [t, u] true))
  | _ => none

/-- NarseseParser.cpp:563-572. -/
def single_infix : List Val → Option (Act Val)
  | .term t :: .conn c :: .term u :: _ => some (making [t, u] (mkComp M.ord c [t, u] true))
  | _ => none

/-- `names_map.count(…)`, `names_map[…]` (NarseseParser.cpp:725-728, 741-744, 757-760): the number
of a name. -/
def number (k : VarKind) (n : String) : Act Int := fun e =>
  let old := e.names k
  let new := if n ∈ old then old else old ++ [n]
  (.ok (new.idxOf n), { e with names := fun k' => if k' = k then new else e.names k' })

/-- NarseseParser.cpp:717-764. -/
def aVar (k : VarKind) : List Val → Option (Act Val)
  | .str n :: _ => some do
    let name := k.symbol ++ String.ofList n
    let i ← number k name
    pure (.term (Term.mkVar k name i))
  | _ => none

/-- NarseseParser.cpp:765-772. -/
def tense_time : List Val → Option (Act Val)
  | .dbl x :: _ => some do
    let n ← Act.lift (toInt x)
    pure (.tense n)
  | _ => none

/-- NarseseParser.cpp:792-822. -/
def truth : List Val → Option (Act Val)
  | [] => some (pure (.truth ⟨M.R.s (-1), M.R.s (-1), M.R.s M.cfg.k⟩))
  | [.dbl f] => some (pure (.truth ⟨M.R.s f, M.R.s (-1), M.R.s M.cfg.k⟩))
  | [.dbl f, .dbl c] => some (pure (.truth ⟨M.R.s f, M.R.s c, M.R.s M.cfg.k⟩))
  | .dbl f :: .dbl c :: .dbl k :: _ => some (pure (.truth ⟨M.R.s f, M.R.s c, M.R.s k⟩))
  | _ => none

/-- NarseseParser.cpp:823-854. -/
def budget : List Val → Option (Act Val)
  | [] => some (pure (.budget ⟨M.R.s (-1), M.R.s (-1), M.R.s (-1)⟩))
  | [.dbl p] => some (pure (.budget ⟨M.R.s p, M.R.s (-1), M.R.s (-1)⟩))
  | [.dbl p, .dbl d] => some (pure (.budget ⟨M.R.s p, M.R.s d, M.R.s (-1)⟩))
  | .dbl p :: .dbl d :: .dbl q :: _ => some (pure (.budget ⟨M.R.s p, M.R.s d, M.R.s q⟩))
  | _ => none

/-- NarseseParser.cpp:855-868. -/
def aString : List Val → Option (Act Val)
  | .cstr s :: _ => some (pure (.str s))
  | _ => none

/-- The value of a string of digits. -/
def digits (s : List Char) : Nat := s.foldl (fun n c => 10 * n + (c.toNat - 48)) 0

/-- The number at the beginning of a text, `none` if there is none.  Only what the grammar lets
through: sign, digits, decimal point, digits. -/
def decimal (s : List Char) : Option ℚ :=
  let neg := s.head? = some '-'
  let s := if neg then s.drop 1 else s
  let a := s.takeWhile Char.isDigit
  let rest := s.dropWhile Char.isDigit
  let b := if rest.head? = some '.' then (rest.drop 1).takeWhile Char.isDigit else []
  if a = [] ∧ b = [] then none
  else
    let x : ℚ := digits a + digits b / 10 ^ b.length
    some (if neg then -x else x)

/-- `std::stod` (NarseseParser.cpp:869-910). -/
def stod (s : List Char) : Res ℚ :=
  match decimal s with
  | none => .throw "stod"
  | some x => if M.erange x then .throw "stod" else .ok (M.R.d x)

/-- NarseseParser.cpp:869-910. -/
def aNumber : List Val → Option (Act Val)
  | .cstr s :: _ => some do
    let x ← Act.lift (stod M s)
    pure (.dbl x)
  | _ => none

end Action

open Action in
/-- The functions registered for the names (NarseseParser.cpp:915-988, with the bodies 68-910), on the
arguments; arguments `none` are those of a node without children, for which `transform` passes a
reference to no object: the functions for copulas, connectors and fixed tenses do not use it. -/
def act (M : Mach) : Emit → Option (List Val) → Option (Act Val)
  -- 342-413
  | .inheritance, _ => some (pure (.copula .inheritance))
  | .similarity, _ => some (pure (.copula .similarity))
  | .instance, _ => some (pure (.copula .instance))
  | .property, _ => some (pure (.copula .property))
  | .instance_property, _ => some (pure (.copula .instanceProperty))
  | .implication, _ => some (pure (.copula .implication))
  | .predictive_implication, _ => some (pure (.copula .predictiveImplication))
  | .concurrent_implication, _ => some (pure (.copula .concurrentImplication))
  | .retrospective_implication, _ => some (pure (.copula .retrospectiveImplication))
  | .equivalence, _ => some (pure (.copula .equivalence))
  | .predictive_equivalence, _ => some (pure (.copula .predictiveEquivalence))
  | .concurrent_equivalence, _ => some (pure (.copula .concurrentEquivalence))
  -- 633-716
  | .con_conjunction, _ => some (pure (.conn .conjunction))
  | .con_disjunction, _ => some (pure (.conn .disjunction))
  | .con_parallel_events, _ => some (pure (.conn .parallelEvents))
  | .con_sequential_events, _ => some (pure (.conn .sequentialEvents))
  | .con_intensional_intersection, _ => some (pure (.conn .intensionalIntersection))
  | .con_extensional_intersection, _ => some (pure (.conn .extensionalIntersection))
  | .con_extensional_difference, _ => some (pure (.conn .extensionalDifference))
  | .con_intensional_difference, _ => some (pure (.conn .intensionalDifference))
  | .con_int_set, _ => some (pure (.conn .intensionalSet))
  | .con_ext_set, _ => some (pure (.conn .extensionalSet))
  | .con_negation, _ => some (pure (.conn .negation))
  | .con_int_image, _ => some (pure (.conn .intensionalImage))
  | .con_ext_image, _ => some (pure (.conn .extensionalImage))
  | .con_product, _ => some (pure (.conn .product))
  -- 773-791
  | .tense_future, _ => some (pure (.tense Stamp.tenseFuture))
  | .tense_present, _ => some (pure (.tense Stamp.tensePresent))
  | .tense_past, _ => some (pure (.tense Stamp.tensePast))
  | .task, some vs => task M vs
  | .judgement, some vs => judgement M vs
  | .question, some vs => question vs
  | .goal, some vs => goal M vs
  | .quest, some vs => quest vs
  | .statement, some vs => statement M vs
  | .statement_operation1, some vs => statement_operation1 M vs
  | .statement_operation2, some vs => statement_operation2 M vs
  | .variable_term, some vs => passTerm vs
  | .atom_term, some vs => atom_term M vs
  | .compound_term, some vs => passTerm vs
  | .statement_term, some vs => passTerm vs
  | .operation, some vs => operation M vs
  | .interval, some vs => interval vs
  | .set, some vs => multi_prefix M vs
  | .negation, some vs => negation M vs
  | .int_image, some vs => multi_prefix M vs
  | .ext_image, some vs => multi_prefix M vs
  | .multi_infix, some vs => multi_infix vs
  | .multi_prefix_product, some vs => multi_prefix M (.conn .product :: vs)
  | .multi_prefix, some vs => multi_prefix M vs
  | .single_prefix, some vs => single_prefix M vs
  | .single_infix, some vs => single_infix M vs
  | .multi_prod_expr, some vs => multi_prefix M (.conn .product :: vs)
  | .multi_disj_expr, some vs => multi_prefix M (.conn .disjunction :: vs)
  | .multi_conj_expr, some vs => multi_prefix M (.conn .conjunction :: vs)
  | .multi_sequential_expr, some vs => multi_prefix M (.conn .sequentialEvents :: vs)
  | .multi_parallel_expr, some vs => multi_prefix M (.conn .parallelEvents :: vs)
  | .multi_intint_expr, some vs => multi_prefix M (.conn .intensionalIntersection :: vs)
  | .multi_extint_expr, some vs => multi_prefix M (.conn .extensionalIntersection :: vs)
  | .independent_var, some vs => aVar .independent vs
  | .dependent_var, some vs => aVar .dependent vs
  | .query_var, some vs => aVar .query vs
  | .tense_time, some vs => tense_time vs
  | .truth, some vs => truth M vs
  | .budget, some vs => budget M vs
  | .string_raw, some vs => aString vs
  | .string, some vs => aString vs
  | .quality, some vs => aNumber M vs
  | .durability, some vs => aNumber M vs
  | .priority, some vs => aNumber M vs
  | .k_evidence, some vs => aNumber M vs
  | .confidence, some vs => aNumber M vs
  | .frequency, some vs => aNumber M vs
  | .integer, some vs => aNumber M vs
  | _, _ => none

/-- The names registered by the constructor (NarseseParser.cpp:915-988).  The map has `const char *`
keys; it is assumed that equal string literals have the same address (as they do when the compiler
merges them), otherwise nothing at all would be found. -/
def registered : List Emit :=
  [.task, .judgement, .question, .goal, .quest, .statement, .statement_operation1,
   .statement_operation2, .inheritance, .similarity, .instance, .property, .instance_property,
   .implication, .predictive_implication, .concurrent_implication, .retrospective_implication,
   .equivalence, .predictive_equivalence, .concurrent_equivalence, .variable_term, .atom_term,
   .compound_term, .statement_term, .operation, .interval, .set, .negation, .int_image, .ext_image,
   .multi_infix, .multi_prefix_product, .multi_prefix, .single_prefix, .single_infix,
   .multi_prod_expr, .multi_disj_expr, .multi_conj_expr, .multi_sequential_expr,
   .multi_parallel_expr, .multi_intint_expr, .multi_extint_expr, .con_conjunction,
   .con_disjunction, .con_parallel_events, .con_sequential_events, .con_product,
   .con_intensional_intersection, .con_extensional_intersection, .con_extensional_difference,
   .con_intensional_difference, .con_int_set, .con_ext_set, .con_negation, .con_int_image,
   .con_ext_image, .independent_var, .dependent_var, .query_var, .tense_time, .tense_future,
   .tense_present, .tense_past, .truth, .budget, .string_raw, .string, .quality, .durability,
   .priority, .k_evidence, .confidence, .frequency, .integer]

/-- The call of the function for a name (Parser.cpp:80-104); `bad` is what happens when an argument is
read as an object of another type. -/
def dispatch (M : Mach) (bad : Act Val) (e : Emit) (args : Option (List Val)) : Act Val :=
  if e ∈ registered then
    match act M e args with
    | some a => a
    | none => bad
  else pure .null

mutual
/-- One round of the loop of `transform` (Parser.cpp:76-108). -/
def evalNode (M : Mach) (bad : Act Val) : Ast → Act Val
  | .leaf e token => dispatch M bad e (some [.cstr token])
  | .node e children => do
    let vs ← evalAll M bad children
    dispatch M bad e (if children.isEmpty then none else some vs)
/-- `transform` (Parser.cpp:66-110) on a list of siblings. -/
def evalAll (M : Mach) (bad : Act Val) : List Ast → Act (List Val)
  | [] => pure []
  | a :: as => do
    let v ← evalNode M bad a
    let vs ← evalAll M bad as
    pure (v :: vs)
end

/-- Undefined behaviour. -/
def undefined {α : Type} : Act α := fun e => (.ub, e)

/-- `transform` and `(*rets)[0]`, read as a task (Parser.cpp:39-43, NarseseParser.h:21). -/
def evalTask (M : Mach) (bad : Act Val) (tree : List Ast) : Act Task := do
  match ← evalAll M bad tree with
  | .task t :: _ => pure t
  | _ => undefined

/-- `names_….clear()` (NarseseParser.h:18-20). -/
def Env.clearNames (e : Env) : Env := { e with names := fun _ => [] }

end Cnars.Parser
