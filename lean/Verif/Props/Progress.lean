import Verif.Parser.Simple

/-!
# C84: how the reading of an accepted line can fail
-/

namespace Cnars.Props
open Cnars Cnars.Parser Cnars.Term

/-- C84: in every state, if evaluating the tree of an accepted line throws, then it is `std::stod` that
throws, and a numeral of the line denotes a number out of the range of `double`. -/
theorem C84_throw {b : Buf} (hb : Reached b) {d : Nat} (hd : d < 3) {strict : Bool}
    {fuel : Nat} {text : List WChar} {r : Parsed} (h : parseText strict fuel b text d = .ok r)
    {a : List Ast} (ha : r.ast = some a) {M : Mach} (hord : ∀ l, (M.ord l).Perm l)
    {bad : Act Val} {env env' : Env} {m : String} (he : evalTask M bad a env = (.throw m, env')) :
    m = "stod" ∧ ∃ s x, Written (firstLine text) s ∧ Denotes s x ∧ M.erange x = true := by
  have hn := C43_tree hb hd h ha
  obtain ⟨bs, p, t, ms, hp, _⟩ := evalTask_part hn
  have := evalTask_ends hn hp (M := M) (bad := bad) (P := Unread M (taskNums bs t ms))
    (Q := fun _ => True) (F := True)
    ((Syn.eval_throws hord t env).imp (·.mono (by simp +contextual [taskNums])) (fun _ h => h) id)
    id (fun _ _ => trivial)
  rw [he] at this
  exact ⟨this.1, unread_range hn hp this.2⟩

/-- `+1000…0.` is accepted, and its evaluation throws. -/
example : accepted? (parseText true 6000 freshBuf throwText 0) = true ∧
    (match (parseTask mach undefined true 6000 0 new throwText).1 with
    | .throw m => m == "stod"
    | _ => false) = true := by decide +kernel

/-- C84: evaluating the tree of an accepted line ends, in one of four ways: there is a task; `std::stod`
throws for a numeral of the line out of the range of `double`; a numeral of the line is no `int`; or
the state is undefined right after the components of a compound or the two sides of a statement of
the line have been evaluated, and `Stuck` says what is the matter with them.

Missing from the full statement: allocators that return addresses equal in the low 32 bits to those
of living terms, and operations of which only one name is known, as in C79. -/
theorem C84_outcomes_partial {b : Buf} (hb : Reached b) {d : Nat} (hd : d < 3) {strict : Bool}
    {fuel : Nat} {text : List WChar} {r : Parsed} (h : parseText strict fuel b text d = .ok r)
    {a : List Ast} (ha : r.ast = some a) {M : Mach} (hord : ∀ l, (M.ord l).Perm l)
    (hR : M.R.Sound) (hi : IntExact M.R) {N : Nat} (hM : FreshBelow M N) {bad : Act Val} {env : Env}
    (hw : Reach false env.world) (hN : env.world.dictH.length + (Ast.mentionsAll a).length ≤ N)
    (hops : Paired env.world [] (Ast.mentionsAll a)) :
    (∃ t env', evalTask M bad a env = (.ok t, env')) ∨
    (∃ env', evalTask M bad a env = (.throw "stod", env') ∧
      ∃ s x, Written (firstLine text) s ∧ Denotes s x ∧ M.erange x = true) ∨
    ∃ env', evalTask M bad a env = (.ub, env') ∧
      ((∃ s x, Written (firstLine text) s ∧ Denotes s x ∧ (x < -2 ^ 31 ∨ 2 ^ 31 - 1 < x)) ∨
        ∃ bs p t ms, partAll a = some [.task bs p t ms] ∧ ∃ u ∈ t.subs, Stuck M env' u) := by
  have hn := C43_tree hb hd h ha
  obtain ⟨bs, p, t, ms, hp, _⟩ := evalTask_part hn
  have hms : t.mentions = Ast.mentionsAll a := by
    rw [Ast.partAll_mentions hp]; simp [Part.mentions]
  have hf : t.Filled := by
    obtain ⟨a, rfl, ht, _⟩ := narsese_typed hn
    exact Ast.partAll_filled (by simpa using ht) hp _ List.mem_cons_self
  rw [← hms] at hN hops
  have := evalTask_ends hn hp (M := M) (bad := bad) (e := env) (P := Unread M (taskNums bs t ms))
    (Q := fun e => Beyond M (taskNums bs t ms) ∨ ∃ u ∈ t.subs, Stuck M e u) (F := False)
    ((Syn.eval_ends hord hM hw t (live := []) (seen := []) hf (Acct.start hw) hops hN).imp
      (·.mono (by simp +contextual [taskNums]))
      (fun e h => h.mono (by simp +contextual [taskNums]) (fun _ h => h)) id)
    id (fun _ h => .inl h)
  rcases he : evalTask M bad a env with ⟨x, env'⟩
  rw [he] at this
  cases x with
  | ok t => exact .inl ⟨t, env', rfl⟩
  | throw m =>
    obtain ⟨rfl, hu⟩ := this
    exact .inr (.inl ⟨env', rfl, unread_range hn hp hu⟩)
  | ub =>
    refine .inr (.inr ⟨env', rfl, ?_⟩)
    rcases this with hu | ⟨u, hu, hs⟩
    · exact .inl (beyond_range hn hp hR hi hu)
    · exact .inr ⟨bs, p, t, ms, hp, u, hu, hs⟩
  | outOfFuel => exact this.elim

/-- C84: there is a task if the numerals of the line are in range and the terms in it are simple: a
component of a commutative compound is none, or has no variables, and the compounds with another commutative connector that are
reached from it through the connector have no commutative compounds in them, are sets or have two names in them, and,
where the reading intersects them, consist of names and have one name in common; at
most one component has variables, or those that have are variables, statements that differ in one place, and compounds
that differ in one place, and the same holds of what is in these places, where the rest is without reducible compounds
and abbreviations; and the same for the sets that abbreviated copulas stand for.

Missing from the full statement: as in `C84_outcomes_partial`; other commutative compounds inside commutative
compounds, of which some cannot be read (`C84_undefined_counterexample`), and other components with variables, which fail only
for some addresses. -/
theorem C84_progress_partial {b : Buf} (hb : Reached b) {d : Nat} (hd : d < 3) {strict : Bool}
    {fuel : Nat} {text : List WChar} {r : Parsed} (h : parseText strict fuel b text d = .ok r)
    {a : List Ast} (ha : r.ast = some a) {M : Mach} (hord : ∀ l, (M.ord l).Perm l)
    (hR : M.R.Sound) (hi : IntExact M.R) {N : Nat} (hM : FreshBelow M N) {bad : Act Val} {env : Env}
    (hw : Reach false env.world) (hN : env.world.dictH.length + (Ast.mentionsAll a).length ≤ N)
    (hops : Paired env.world [] (Ast.mentionsAll a))
    (hx : ∀ s x, Written (firstLine text) s → Denotes s x →
      M.erange x = false ∧ -2 ^ 31 ≤ x ∧ x ≤ 2 ^ 31 - 1)
    (hs : ∀ bs p t ms, partAll a = some [.task bs p t ms] → ∀ u ∈ t.subs, u.Simple) :
    ∃ t env', evalTask M bad a env = (.ok t, env') := by
  rcases C84_outcomes_partial hb hd h ha hord hR hi hM (bad := bad) hw hN hops with
    h | ⟨_, _, s, x, h1, h2, h3⟩ | ⟨_, _, ⟨s, x, h1, h2, h3⟩ | ⟨bs, p, t, ms, hp, u, hu, hst⟩⟩
  · exact h
  · rw [(hx s x h1 h2).1] at h3; cases h3
  · obtain ⟨_, h4, h5⟩ := hx s x h1 h2
    rcases h3 with h3 | h3
    · exact absurd h3 (not_lt.mpr h4)
    · exact absurd h3 (not_lt.mpr h5)
  · exact (not_stuck hord (hs bs p t ms hp u hu) hst).elim

/-- `<(&&,<$x-->A>,B)==>C>.` -/
def simpleText : List Char := ['<', '(', '&', '&', ',', '<', '$', 'x', '-', '-', '>', 'A', '>', ',', 'B', ')',
  '=', '=', '>', 'C', '>', '.']

/-- What the line stands for … -/
def simpleSyn (x a b c : List Char) : Syn :=
  .stmt (.comp .conjunction [.stmt (.var .independent x) .inheritance (.name a), .name b]) .implication (.name c)

example : (match partAll (treeOf simpleText) with
    | some [.task none .judgement (.stmt (.comp .conjunction [.stmt (.var .independent x) .inheritance (.name a),
        .name b]) .implication (.name c)) []] => (x, a, b, c) = (['x'], ['A'], ['B'], ['C'])
    | _ => false) = true := by decide +kernel

/-- … the terms in it are simple … -/
example {x a b c : List Char} : ∀ u ∈ (simpleSyn x a b c).subs, u.Simple := by
  intro u hu
  simp only [simpleSyn, Syn.subs, Syn.subsAll, List.mem_cons, List.mem_append, List.not_mem_nil, or_false] at hu
  rcases hu with (rfl | (rfl | (rfl | rfl | rfl) | rfl) | rfl) <;>
    simp [Syn.Simple, Syn.commutes]
  exact fun _ => .lone (by simp [Syn.bare, Syn.vars])

/-- `{{{A},B},{C}}` is simple. -/
example {a b c : List Char} : ∀ u ∈ (Syn.comp .extensionalSet [.comp .extensionalSet [.comp .extensionalSet [.name a], .name b],
    .comp .extensionalSet [.name c]]).subs, u.Simple := by
  have n : ∀ s, (Syn.name s).Mingled .extensionalSet [] := fun s => .other rfl
  have wa : (Syn.comp .extensionalSet [.name a]).Mingled .extensionalSet [] := .comp (by simp) (by simpa using n a)
  have wb : (Syn.comp .extensionalSet [.comp .extensionalSet [.name a], .name b]).Mingled .extensionalSet [] :=
    .comp (by simp) (by simpa using ⟨wa, n b⟩)
  have wc : (Syn.comp .extensionalSet [.name c]).Mingled .extensionalSet [] := .comp (by simp) (by simpa using n c)
  intro u hu
  simp only [Syn.subs, Syn.subsAll, List.mem_cons, List.mem_append, List.not_mem_nil, or_false] at hu
  rcases hu with (rfl | (rfl | (rfl | rfl) | rfl) | (rfl | rfl))
  · exact fun _ => ⟨⟨[], by simp [Syn.commutes, Syn.bare, Syn.vars, Syn.varsAll, wb, wc]⟩,
      .lone (by simp [Syn.bare, Syn.vars, Syn.varsAll])⟩
  · exact fun _ => ⟨⟨[], by simp [Syn.commutes, Syn.bare, Syn.vars, Syn.varsAll, wa]⟩,
      .lone (by simp [Syn.bare, Syn.vars, Syn.varsAll])⟩
  all_goals simp [Syn.Simple, Syn.commutes]
  all_goals exact fun _ => .lone (by simp)

/-- `(|,{A},{B},[A,B],(|,[B,C],{B,C}))` is simple: of the sets that are intersected, all have `B` in them. -/
def mingledSyn (a b c : List Char) : Syn := .comp .intensionalIntersection [.comp .extensionalSet [.name a],
  .comp .extensionalSet [.name b], .comp .intensionalSet [.name a, .name b],
  .comp .intensionalIntersection [.comp .intensionalSet [.name b, .name c], .comp .extensionalSet [.name b, .name c]]]

example {a b c : List Char} : (mingledSyn a b c).Simple := by
  have x : ∀ ts, ts ≠ [] → (∀ t ∈ ts, ∃ s, t = .name s) →
      (Syn.comp .extensionalSet ts).Mingled .intensionalIntersection b := fun ts h0 h =>
    .shallow (by decide) (by decide) h0 (fun t ht => by obtain ⟨s, rfl⟩ := h t ht; rfl)
      (fun h => absurd h (by decide)) fun h => absurd h (by decide)
  have y : ∀ ts, .name b ∈ ts → (∀ t ∈ ts, ∃ s, t = .name s) →
      (Syn.comp .intensionalSet ts).Mingled .intensionalIntersection b := fun ts h0 h =>
    .shallow (by decide) (by decide) (List.ne_nil_of_mem h0) (fun t ht => by obtain ⟨s, rfl⟩ := h t ht; rfl)
      (fun h => absurd h (by decide)) fun _ => ⟨h0, h⟩
  have z : (Syn.comp .intensionalIntersection [.comp .intensionalSet [.name b, .name c],
      .comp .extensionalSet [.name b, .name c]]).Mingled .intensionalIntersection b := by
    refine .comp (by simp) fun t ht => ?_
    rcases List.mem_pair.mp ht with rfl | rfl
    · exact y _ (by simp) (by simp)
    · exact x _ (by simp) (by simp)
  refine fun _ => ⟨⟨b, fun t ht => .inr ⟨?_, ?_⟩⟩, .lone ?_⟩
  · simp only [List.mem_cons, List.not_mem_nil, or_false] at ht
    rcases ht with rfl | rfl | rfl | rfl <;> simp [Syn.bare, Syn.vars, Syn.varsAll]
  · simp only [List.mem_cons, List.not_mem_nil, or_false] at ht
    rcases ht with rfl | rfl | rfl | rfl
    · exact x _ (by simp) (by simp)
    · exact x _ (by simp) (by simp)
    · exact y _ (by simp) (by simp)
    · exact z
  · simp [Syn.bare, Syn.vars, Syn.varsAll]

/-- `(&&,<$x-->A>,<$x-->B>)` is simple, … -/
example {x a b : List Char} : (Syn.comp .conjunction [.stmt (.var .independent x) .inheritance (.name a),
    .stmt (.var .independent x) .inheritance (.name b)]).Simple :=
  fun _ => ⟨⟨[], by simp [Syn.commutes]⟩, .parted (F := .subject (.var .independent x) .inheritance)
    (G := .comp .product [] []) (by rfl) (by rfl) rfl rfl (.left (.left .nil))
    (.lone (by simp [Syn.bare, Syn.vars])) (.lone .nil)⟩

/-- … and so are `(&&,<$x-->A>,<$y-->A>,$z)`, … -/
example {x y z a : List Char} : (Syn.comp .conjunction [.stmt (.var .independent x) .inheritance (.name a),
    .stmt (.var .independent y) .inheritance (.name a), .var .independent z]).Simple :=
  fun _ => ⟨⟨[], by simp [Syn.commutes]⟩, .parted (F := .predicate .inheritance (.name a))
    (G := .comp .product [] []) (by rfl) (by rfl) rfl rfl (.left (.left (.flat (.inr ⟨_, _, rfl⟩) .nil)))
    (.parted (F := .predicate .inheritance (.name a)) (G := .comp .product [] []) (by rfl) (by rfl) rfl rfl
      (.flat (.inr ⟨_, _, rfl⟩) (.flat (.inr ⟨_, _, rfl⟩) .nil)) (.lone .nil) (.lone .nil)) (.lone .nil)⟩

/-- … `(&&,<#x-->A>,<#x-->(/,B,$y,_)>)`. -/
example {x y a b u : List Char} : (Syn.comp .conjunction [.stmt (.var .dependent x) .inheritance (.name a),
    .stmt (.var .dependent x) .inheritance (.comp .extensionalImage [.name b, .var .independent y, .name u])]).Simple :=
  fun _ => ⟨⟨[], by simp [Syn.commutes]⟩, .parted (F := .subject (.var .dependent x) .inheritance)
    (G := .comp .product [] []) (by rfl) (by rfl) rfl rfl (.left (.left .nil))
    (.lone (by simp [Syn.bare, Syn.vars])) (.lone .nil)⟩

/-- … and there is a task. -/
example : (match (parseTask roomy undefined true 1000 0 new (bytes simpleText)).1 with
    | .ok (some _) => true
    | _ => false) = true := by decide +kernel

/-- `(&&,<$x-->$y>,<$y-->$x>).`: components with the same hash. -/
def clashText : List Char := ['(', '&', '&', ',', '<', '$', 'x', '-', '-', '>', '$', 'y', '>', ',',
  '<', '$', 'y', '-', '-', '>', '$', 'x', '>', ')', '.']

/-- `(||,(&&,A,A),(&&,B,B)).`: nested commutative compounds. -/
def nestText : List Char := ['(', '|', '|', ',', '(', '&', '&', ',', 'A', ',', 'A', ')', ',',
  '(', '&', '&', ',', 'B', ',', 'B', ')', ')', '.']

/-- `<{(&,{A},{B})}{--C>.`: an abbreviation with an empty set. -/
def hollowText : List Char := ['<', '{', '(', '&', ',', '{', 'A', '}', ',', '{', 'B', '}', ')', '}', '{', '-', '-',
  'C', '>', '.']

/-- `<C--][(|,[A],[B])]>.`: likewise on the other side. -/
def hollowText' : List Char := ['<', 'C', '-', '-', ']', '[', '(', '|', ',', '[', 'A', ']', ',', '[', 'B', ']',
  ')', ']', '>', '.']

/-- `+3000000000.`: an interval that is no `int`. -/
def farText : List Char := ['+', '3', '0', '0', '0', '0', '0', '0', '0', '0', '0', '.']

/-- Every cause in `C84_outcomes_partial` is real: these lines are accepted, and reading them is
undefined. -/
theorem C84_undefined_counterexample : ∀ l ∈ [clashText, nestText, hollowText, hollowText', farText],
    accepted? (parseText true 1000 freshBuf (bytes l) 0) = true ∧
    (match (parseTask roomy undefined true 1000 0 new (bytes l)).1 with
      | .ub => true
      | _ => false) = true := by decide +kernel

end Cnars.Props
