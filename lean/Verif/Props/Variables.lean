import Verif.Parser.Renaming
import Verif.Props.Actions

/-!
# C50, C51: the numbers of variables
-/

namespace Cnars.Props
open Cnars Cnars.Parser

/-! ### C50 -/

/-- C50: in the term of a parsed task, every variable of kind `k` has the name of a variable of that
kind in the text (`Ast.varsAll`: the names in the order of the text), and its number is the position
of the name in the list of the names in the order of first occurrence. -/
theorem C50_numbers {b : Buf} (hb : Reached b) {d : Nat} (hd : d < 3) {strict : Bool} {fuel : Nat}
    {text : List WChar} {r : Parsed} (h : parseText strict fuel b text d = .ok r) {a : List Ast}
    (ha : r.ast = some a) {M : Mach} {bad : Act Val} {env env' : Env} {t : Task}
    (he : evalTask M bad a env.clearNames = (.ok t, env')) {k : VarKind} {n : String} {i : Info}
    (hv : .var k n i ∈ leafTerms t.sentence.term) :
    n ∈ Ast.varsAll k a ∧
      Term.var k n i = Term.mkVar k n ((Ast.varsAll k a).eraseDups.idxOf n) := by
  obtain ⟨bu, p, s, ms, x, e1, vs, xs, h1, h2, _, rfl, _⟩ := evalTask_ok (C43_tree hb hd h ha) he
  obtain ⟨_, h3, h4⟩ := Syn.eval_names M s h2
  have h5 := Ast.partAll_vars k h1
  simp only [List.flatMap_cons, List.flatMap_nil, List.append_nil, Part.vars] at h5
  have h6 : e1.names k = (Ast.varsAll k a).eraseDups := by
    rw [h3, h5]
    change seen [] _ = _
    rw [seen_eq]
    simp
  obtain ⟨h7, h8⟩ := h4 _ hv k n i rfl
  rw [h6] at h7 h8
  exact ⟨by simpa using h7, h8⟩

/-- C50: two variables of a kind in the term have the same number exactly when they have the same
name. -/
theorem C50_same {b : Buf} (hb : Reached b) {d : Nat} (hd : d < 3) {strict : Bool} {fuel : Nat}
    {text : List WChar} {r : Parsed} (h : parseText strict fuel b text d = .ok r) {a : List Ast}
    (ha : r.ast = some a) {M : Mach} {bad : Act Val} {env env' : Env} {t : Task}
    (he : evalTask M bad a env.clearNames = (.ok t, env')) {k : VarKind} {n n' : String}
    {i i' : Info} (hv : .var k n i ∈ leafTerms t.sentence.term)
    (hv' : .var k n' i' ∈ leafTerms t.sentence.term) :
    (i.own k).indices = (i'.own k).indices ↔ n = n' := by
  obtain ⟨h1, h2⟩ := C50_numbers hb hd h ha he hv
  obtain ⟨h3, h4⟩ := C50_numbers hb hd h ha he hv'
  have e : ∀ {n : String} {i : Info} {j : Int}, Term.var k n i = Term.mkVar k n j →
      (i.own k).indices = [j] := by
    intro n i j h
    simp only [Term.mkVar, Term.var.injEq, true_and] at h
    subst h
    cases k <;> simp [Info.own, IV.single]
  rw [e h2, e h4]
  constructor
  · intro h
    simp only [List.cons.injEq, and_true, Int.ofNat_inj] at h
    exact (List.idxOf_inj (by simpa using h1)).mp h
  · rintro rfl; rfl

/-- `<<$x-->$y>==><#y-->$x>>.`: numbers 0, 1, 0 and 0. -/
def varText : List Char :=
  ['<', '<', '$', 'x', '-', '-', '>', '$', 'y', '>', '=', '=', '>', '<', '#', 'y', '-', '-', '>',
   '$', 'x', '>', '>', '.']

/-- The variables of the term of the task that a text is parsed to, with their numbers. -/
def varsOf (text : List Char) : List (VarKind × String × List Int) :=
  match parseTask mach undefined true 1000 0 new (bytes text) with
  | (.ok (some t), _) => (leafTerms t.sentence.term).filterMap fun
    | .var k n i => some (k, n, (i.own k).indices)
    | _ => none
  | _ => []

example : varsOf varText = [(.independent, "$x", [0]), (.independent, "$y", [1]),
    (.dependent, "#y", [0]), (.independent, "$x", [0])] := by decide +kernel

example : Ast.varsAll .independent (treeOf varText) = ["$x", "$y", "$x"] := by decide +kernel

/-! ### C51 -/

/-- C51: two texts are accepted with syntax trees that differ only by the names of variables
(`Ast.renameAll ρ`: those of kind `k` are changed by `ρ k`), and different variables of the first
text have different names in the second.  From the same state, the outcome of the evaluation is the
same: a task for a task, the same exception for an exception; so are the atoms and the globals.  The
tasks have the same budget, punctuation, truth value and stamp, and their terms are the same tree
with the same caches. -/
theorem C51_renaming {b b' : Buf} (hb : Reached b) (hb' : Reached b') {d d' : Nat} (hd : d < 3)
    (hd' : d' < 3) {strict strict' : Bool} {fuel fuel' : Nat} {text text' : List WChar}
    {r r' : Parsed} (h : parseText strict fuel b text d = .ok r)
    (h' : parseText strict' fuel' b' text' d' = .ok r') {a : List Ast} (ha : r.ast = some a)
    (ρ : VarKind → List Char → List Char) (ha' : r'.ast = some (Ast.renameAll ρ a))
    (hρ : ∀ k, ∀ m ∈ Ast.varsAll k a, ∀ n ∈ Ast.varsAll k a, nameMap ρ k m = nameMap ρ k n → m = n)
    (M : Mach) (bad bad' : Act Val) (env : Env) :
    let x := evalTask M bad a env.clearNames
    let y := evalTask M bad' (Ast.renameAll ρ a) env.clearNames
    y.2.world = x.2.world ∧ y.2.globals = x.2.globals ∧
    (∀ m, x.1 = .throw m ↔ y.1 = .throw m) ∧ (x.1 = .ub ↔ y.1 = .ub) ∧
    ((∃ t, x.1 = .ok t) ↔ ∃ t, y.1 = .ok t) ∧
    ∀ t t', x.1 = .ok t → y.1 = .ok t' →
      t'.budget = t.budget ∧ t'.sentence.punct = t.sentence.punct ∧
      t'.sentence.truth = t.sentence.truth ∧ t'.sentence.stamp = t.sentence.stamp ∧
      shape t'.sentence.term = shape t.sentence.term ∧
      t'.sentence.term.info = t.sentence.term.info ∧
      Term.eq t.sentence.term t'.sentence.term = Term.eq t.sentence.term t.sentence.term := by
  have key := evalTask_rename ρ (C43_tree hb hd h ha) (C43_tree hb' hd' h' ha') M bad bad' hρ
    (e := env.clearNames) (fun k => rfl)
  have e0 : env.clearNames.relabel (nameMap ρ) = env.clearNames := rfl
  unfold Mirrors at key
  rw [e0] at key
  intro x y
  have hx : y = (Task.relabel (nameMap ρ) <$> x.1, x.2.relabel (nameMap ρ)) := key
  rw [hx]
  refine ⟨rfl, rfl, ?_, ?_, ?_, ?_⟩
  · intro m; cases x.1 <;> simp
  · cases x.1 <;> simp
  · cases x.1 <;> simp
  · intro t t' h1 h2
    simp only [h1, Res.map_ok, Res.ok.injEq] at h2
    subst h2
    refine ⟨rfl, rfl, rfl, rfl, ?_, ?_, ?_⟩
    · simp [Task.relabel, relabelSentence]
    · simp [Task.relabel, relabelSentence]
    · have h3 := eq_relabel (fun _ n => n) (nameMap ρ) t.sentence.term t.sentence.term
      rw [relabel_id] at h3
      exact h3

/-- `<<$a-->$b>==><#y-->$a>>.` -/
def varText' : List Char :=
  ['<', '<', '$', 'a', '-', '-', '>', '$', 'b', '>', '=', '=', '>', '<', '#', 'y', '-', '-', '>',
   '$', 'a', '>', '>', '.']

/-- `$x` to `$a` and `$y` to `$b`. -/
def toAB : VarKind → List Char → List Char
  | .independent, ['x'] => ['a']
  | .independent, ['y'] => ['b']
  | _, s => s

example : treeOf varText' = Ast.renameAll toAB (treeOf varText) := by decide +kernel

example : ∀ k, ∀ m ∈ Ast.varsAll k (treeOf varText), ∀ n ∈ Ast.varsAll k (treeOf varText),
    nameMap toAB k m = nameMap toAB k n → m = n := by
  intro k; cases k <;> decide +kernel

example : varsOf varText' = [(.independent, "$a", [0]), (.independent, "$b", [1]),
    (.dependent, "#y", [0]), (.independent, "$a", [0])] := by decide +kernel

end Cnars.Props
