import Verif.Parser.Built
import Verif.Props.Ranges
import Verif.Props.Caches
import Verif.Props.Cloning
import Verif.Props.TermEq

/-!
# C73: the terms the parser makes
-/

namespace Cnars.Props
open Cnars Cnars.Parser Cnars.Term

/-! ### C73 -/

/-- C73: the term of a parsed task is the result of a history of constructor calls, whatever order
the hash sets of the constructors iterate in.  So everything proved about constructed terms holds of
it. -/
theorem C73_constructed {b : Buf} (hb : Reached b) {d : Nat} (hd : d < 3) {strict : Bool}
    {fuel : Nat} {text : List WChar} {r : Parsed} (h : parseText strict fuel b text d = .ok r)
    {a : List Ast} (ha : r.ast = some a) {M : Mach} (hord : ∀ l, (M.ord l).Perm l)
    {bad : Act Val} {env env' : Env} {t : Task} (he : evalTask M bad a env = (.ok t, env')) :
    Constructed t.sentence.term := by
  obtain ⟨_, _, s, _, _, _, _, _, _, h2, _, h4, _⟩ := evalTask_ok (C43_tree hb hd h ha) he
  rw [h4]
  exact Syn.eval_constructed hord s h2

/-- C73, spelled out: the cached complexity and the cached variable flags are those of what the term
reads, and copying it makes the same term. -/
theorem C73_caches {b : Buf} (hb : Reached b) {d : Nat} (hd : d < 3) {strict : Bool}
    {fuel : Nat} {text : List WChar} {r : Parsed} (h : parseText strict fuel b text d = .ok r)
    {a : List Ast} (ha : r.ast = some a) {M : Mach} (hord : ∀ l, (M.ord l).Perm l)
    {bad : Act Val} {env env' : Env} {t : Task} (he : evalTask M bad a env = (.ok t, env')) :
    t.sentence.term.info.complexity =
      (shape t.sentence.term).leaves.length + statements (shape t.sentence.term) ∧
    (t.sentence.term.info.hasIvar = true ↔
      ∃ i, Shape.var .independent i ∈ (shape t.sentence.term).leaves) ∧
    (t.sentence.term.info.hasDvar = true ↔
      ∃ i, Shape.var .dependent i ∈ (shape t.sentence.term).leaves) ∧
    (t.sentence.term.info.hasQvar = true ↔
      ∃ i, Shape.var .query i ∈ (shape t.sentence.term).leaves) ∧
    clone t.sentence.term = .ok t.sentence.term := by
  have hc := C73_constructed hb hd h ha hord he
  exact ⟨C24_complexity hc, (C25_flags hc).2.1, (C25_flags hc).2.2.1, (C25_flags hc).2.2.2,
    C29_same_value hc⟩

/-- C73, comparison: the terms of two parsed tasks, from whatever sessions, can be put in order, and
no term is less than itself. -/
theorem C73_ordered {b b' : Buf} (hb : Reached b) (hb' : Reached b') {d d' : Nat} (hd : d < 3)
    (hd' : d' < 3) {strict strict' : Bool} {fuel fuel' : Nat} {text text' : List WChar}
    {r r' : Parsed} (h : parseText strict fuel b text d = .ok r)
    (h' : parseText strict' fuel' b' text' d' = .ok r') {a a' : List Ast} (ha : r.ast = some a)
    (ha' : r'.ast = some a') {M M' : Mach} (hord : ∀ l, (M.ord l).Perm l)
    (hord' : ∀ l, (M'.ord l).Perm l) {bad bad' : Act Val} {env env' env1 env1' : Env} {t u : Task}
    (he : evalTask M bad a env = (.ok t, env')) (he' : evalTask M' bad' a' env1 = (.ok u, env1')) :
    (∃ c, lt t.sentence.term u.sentence.term = .ok c) ∧
    lt t.sentence.term t.sentence.term = .ok false := by
  have hc := C73_constructed hb hd h ha hord he
  exact ⟨(C05_comparison_defined_partial hc (C73_constructed hb' hd' h' ha' hord' he')).1,
    C06_irreflexive_partial hc⟩

/-- `<(&, $x, A, A) --> #y>.` -/
def mixedText : List Char :=
  ['<', '(', '&', ',', ' ', '$', 'x', ',', ' ', 'A', ',', ' ', 'A', ')', ' ', '-', '-', '>', ' ',
   '#', 'y', '>', '.']

/-- The hypotheses are met by a term with two kinds of variables and a duplicate. -/
example : (∀ l, (mach.ord l).Perm l) ∧
    (taskOf mach mixedText).map (fun t => (t.sentence.term.info.complexity,
      t.sentence.term.info.hasIvar, t.sentence.term.info.hasDvar, t.sentence.term.info.hasQvar)) =
    some (4, true, true, false) :=
  ⟨fun _ => List.Perm.refl _, by decide +kernel⟩

end Cnars.Props
