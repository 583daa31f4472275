import Verif.Parser.ActionTypes

/-!
# Syntax trees as terms

Typed syntax trees (ActionTypes.lean) are read as trees of eight kinds of term, with marks, budget and
punctuation, and the semantic actions are shown to amount to a recursion on these.
-/

namespace Cnars.Parser
open Cnars

instance : LawfulMonad Act := LawfulMonad.mk'
  (id_map := by
    intro α x
    funext e
    change Act.bind x (fun a => fun e => (.ok a, e)) e = x e
    unfold Act.bind
    split <;> rename_i h <;> rw [h])
  (pure_bind := by intros; rfl)
  (bind_assoc := by
    intro α β γ x f g
    funext e
    change Act.bind (Act.bind x f) g e = Act.bind x (fun a => Act.bind (f a) g) e
    unfold Act.bind
    split
    · rename_i h
      split at h <;> rename_i h' <;> simp_all
    all_goals
      rename_i h
      split at h <;> rename_i h' <;> simp_all)

/-- The kinds of term that can be written. -/
inductive Syn where
  /-- `A`, `"A"` -/
  | name (s : List Char)
  /-- `^A` -/
  | op (s : List Char)
  /-- `+1` -/
  | interval (s : List Char)
  /-- `$x`, `#x`, `?x` -/
  | var (k : VarKind) (s : List Char)
  /-- `<A --> B>` -/
  | stmt (s : Syn) (c : Copula) (p : Syn)
  /-- `(&,A,B)`, `(A & B)`, `{A,B}`, `(A,B)`, … -/
  | comp (c : Connector) (ts : List Syn)
  /-- `(^go,A)` -/
  | call (f : Syn) (ts : List Syn)
  /-- `go(A)` -/
  | callName (s : List Char) (ts : List Syn)

/-- Tense marks and truth values. -/
inductive Mark where
  | tense (n : Int)
  | time (s : List Char)
  | truth (ss : List (List Char))

/-- What a node of the syntax tree stands for. -/
inductive Part where
  | syn (t : Syn)
  | copula (c : Copula)
  | conn (c : Connector)
  | str (s : List Char)
  | num (s : List Char)
  | mark (m : Mark)
  | budget (ss : List (List Char))
  | sentence (p : Punct) (t : Syn) (ms : List Mark)
  | task (b : Option (List (List Char))) (p : Punct) (t : Syn) (ms : List Mark)

/-- The kind of tuple. -/
def Mark.ty : Mark → Ty
  | .truth _ => .truth
  | _ => .tense

namespace Part

/-- Its type. -/
def ty : Part → Ty
  | .syn _ => .term
  | .copula _ => .copula
  | .conn _ => .conn
  | .str _ => .str
  | .num _ => .dbl
  | .mark m => m.ty
  | .budget _ => .budget
  | .sentence .. => .sentence
  | .task .. => .task

/-- All as terms. -/
def syns? : List Part → Option (List Syn)
  | [] => some []
  | .syn t :: ps => (syns? ps).map (t :: ·)
  | _ :: _ => none

/-- All as marks. -/
def marks? : List Part → Option (List Mark)
  | [] => some []
  | .mark m :: ps => (marks? ps).map (m :: ·)
  | _ :: _ => none

/-- All as numbers. -/
def nums? : List Part → Option (List (List Char))
  | [] => some []
  | .num s :: ps => (nums? ps).map (s :: ·)
  | _ :: _ => none

/-- The copula a name stands for. -/
def copula? : Emit → Option Copula
  | .inheritance => some .inheritance
  | .similarity => some .similarity
  | .instance => some .instance
  | .property => some .property
  | .instance_property => some .instanceProperty
  | .implication => some .implication
  | .predictive_implication => some .predictiveImplication
  | .concurrent_implication => some .concurrentImplication
  | .retrospective_implication => some .retrospectiveImplication
  | .equivalence => some .equivalence
  | .predictive_equivalence => some .predictiveEquivalence
  | .concurrent_equivalence => some .concurrentEquivalence
  | _ => none

/-- The connector a name stands for. -/
def conn? : Emit → Option Connector
  | .con_conjunction => some .conjunction
  | .con_disjunction => some .disjunction
  | .con_parallel_events => some .parallelEvents
  | .con_sequential_events => some .sequentialEvents
  | .con_intensional_intersection => some .intensionalIntersection
  | .con_extensional_intersection => some .extensionalIntersection
  | .con_extensional_difference => some .extensionalDifference
  | .con_intensional_difference => some .intensionalDifference
  | .con_int_set => some .intensionalSet
  | .con_ext_set => some .extensionalSet
  | .con_negation => some .negation
  | .con_int_image => some .intensionalImage
  | .con_ext_image => some .extensionalImage
  | .con_product => some .product
  | _ => none

/-- The node `e` around parts. -/
def build (e : Emit) (ps : List Part) : Option Part :=
  match e, ps with
  | .task, [.sentence p t ms] => some (.task none p t ms)
  | .task, [.budget b, .sentence p t ms] => some (.task (some b) p t ms)
  | .judgement, .syn t :: ps => (marks? ps).map (.sentence .judgement t ·)
  | .question, .syn t :: ps => (marks? ps).map (.sentence .question t ·)
  | .goal, .syn t :: ps => (marks? ps).map (.sentence .goal t ·)
  | .quest, .syn t :: ps => (marks? ps).map (.sentence .quest t ·)
  | .statement, [.syn s, .copula c, .syn p] => some (.syn (.stmt s c p))
  | .statement_operation1, .syn t :: ps => (syns? ps).map fun ts => .syn (.call t ts)
  | .statement_operation2, .str s :: ps => (syns? ps).map fun ts => .syn (.callName s ts)
  | .variable_term, [.syn t] => some (.syn t)
  | .compound_term, [.syn t] => some (.syn t)
  | .statement_term, [.syn t] => some (.syn t)
  | .multi_infix, [.syn t] => some (.syn t)
  | .atom_term, [.str s] => some (.syn (.name s))
  | .operation, [.str s] => some (.syn (.op s))
  | .interval, [.num s] => some (.syn (.interval s))
  | .set, .conn c :: ps => (syns? ps).map fun ts => .syn (.comp c ts)
  | .int_image, .conn c :: ps => (syns? ps).map fun ts => .syn (.comp c ts)
  | .ext_image, .conn c :: ps => (syns? ps).map fun ts => .syn (.comp c ts)
  | .negation, .conn c :: ps => (syns? ps).map fun ts => .syn (.comp c ts)
  | .multi_prefix, .conn c :: ps => (syns? ps).map fun ts => .syn (.comp c ts)
  | .single_prefix, .conn c :: ps => (syns? ps).map fun ts => .syn (.comp c ts)
  | .single_infix, [.syn t, .conn c, .syn u] => some (.syn (.comp c [t, u]))
  | .multi_prefix_product, ps => (syns? ps).map fun ts => .syn (.comp .product ts)
  | .multi_prod_expr, ps => (syns? ps).map fun ts => .syn (.comp .product ts)
  | .multi_disj_expr, ps => (syns? ps).map fun ts => .syn (.comp .disjunction ts)
  | .multi_conj_expr, ps => (syns? ps).map fun ts => .syn (.comp .conjunction ts)
  | .multi_sequential_expr, ps => (syns? ps).map fun ts => .syn (.comp .sequentialEvents ts)
  | .multi_parallel_expr, ps => (syns? ps).map fun ts => .syn (.comp .parallelEvents ts)
  | .multi_intint_expr, ps => (syns? ps).map fun ts => .syn (.comp .intensionalIntersection ts)
  | .multi_extint_expr, ps => (syns? ps).map fun ts => .syn (.comp .extensionalIntersection ts)
  | .independent_var, [.str s] => some (.syn (.var .independent s))
  | .dependent_var, [.str s] => some (.syn (.var .dependent s))
  | .query_var, [.str s] => some (.syn (.var .query s))
  | .tense_time, [.num s] => some (.mark (.time s))
  | .tense_future, [] => some (.mark (.tense Stamp.tenseFuture))
  | .tense_present, [] => some (.mark (.tense Stamp.tensePresent))
  | .tense_past, [] => some (.mark (.tense Stamp.tensePast))
  | .truth, ps => (nums? ps).map fun ss => .mark (.truth ss)
  | .budget, ps => (nums? ps).map .budget
  | e, [] => ((copula? e).map .copula).or ((conn? e).map .conn)
  | _, _ => none

/-- The leaf `e` with a token. -/
def ofLeaf (e : Emit) (s : List Char) : Part :=
  match e with
  | .string | .string_raw => .str s
  | _ => .num s

end Part

mutual
/-- What a tree stands for. -/
def Ast.part : Ast → Option Part
  | .leaf e s => some (Part.ofLeaf e s)
  | .node e cs => (partAll cs).bind (Part.build e)
/-- The same for siblings. -/
def partAll : List Ast → Option (List Part)
  | [] => some []
  | a :: as => (Ast.part a).bind fun p => (partAll as).map (p :: ·)
end

/-! ## Evaluation -/

/-- `making`, as a term. -/
def makingTerm (args : List Term) (r : Res Term) : Act Term := do
  let t ← Act.lift r
  settle args t
  pure t

mutual
/-- The term. -/
def Syn.eval (M : Mach) : Syn → Act Term
  | .name s => do
    Act.onWorld fun w => w.create (String.ofList s) (M.addr w)
    lastTerm
  | .op s => Action.theOperation M s
  | .interval s => do
    let x ← Act.lift (Action.stod M s)
    let n ← Act.lift (Action.toInt x)
    pure (Term.mkInterval n)
  | .var k s => do
    let i ← Action.number k (k.symbol ++ String.ofList s)
    pure (Term.mkVar k (k.symbol ++ String.ofList s) i)
  | .stmt s c p => do
    let s ← Syn.eval M s
    let p ← Syn.eval M p
    makingTerm [s, p] (Action.newStatement M s c p)
  | .comp c ts => do
    let ts ← Syn.evalAll M ts
    makingTerm ts (mkComp M.ord c ts true)
  | .call f ts => do
    let f ← Syn.eval M f
    let ts ← Syn.evalAll M ts
    makingTerm (f :: ts) (Action.newOperation M f ts)
  | .callName s ts => do
    let ts ← Syn.evalAll M ts
    let f ← Action.theOperation M s
    makingTerm (f :: ts) (Action.newOperation M f ts)
/-- A list of terms, from left to right. -/
def Syn.evalAll (M : Mach) : List Syn → Act (List Term)
  | [] => pure []
  | t :: ts => do
    let t ← Syn.eval M t
    let ts ← Syn.evalAll M ts
    pure (t :: ts)
end

/-- Numbers, from left to right. -/
def numbers (M : Mach) : List (List Char) → Act (List ℚ)
  | [] => pure []
  | s :: ss => do
    let x ← Act.lift (Action.stod M s)
    let xs ← numbers M ss
    pure (x :: xs)

/-- The value of a mark. -/
def Mark.eval (M : Mach) : Mark → Act Val
  | .tense n => pure (.tense n)
  | .time s => do
    let x ← Act.lift (Action.stod M s)
    let n ← Act.lift (Action.toInt x)
    pure (.tense n)
  | .truth ss => do
    let xs ← numbers M ss
    (Action.truth M (xs.map .dbl)).getD undefined

/-- Marks, from left to right. -/
def evalMarks (M : Mach) : List Mark → Act (List Val)
  | [] => pure []
  | m :: ms => do
    let v ← m.eval M
    let vs ← evalMarks M ms
    pure (v :: vs)

/-- The action for a punctuation. -/
def sentenceAction (M : Mach) : Punct → List Val → Option (Act Val)
  | .judgement => Action.judgement M
  | .question => Action.question
  | .goal => Action.goal M
  | .quest => Action.quest

/-- The sentence. -/
def evalSentence (M : Mach) (p : Punct) (t : Syn) (ms : List Mark) : Act Val := do
  let t ← t.eval M
  let vs ← evalMarks M ms
  (sentenceAction M p (.term t :: vs)).getD undefined

/-- The task. -/
def evalTaskPart (M : Mach) (b : Option (List (List Char))) (p : Punct) (t : Syn) (ms : List Mark) :
    Act Val :=
  match b with
  | none => do
    let s ← evalSentence M p t ms
    (Action.task M [s]).getD undefined
  | some ss => do
    let xs ← numbers M ss
    let b ← (Action.budget M (xs.map .dbl)).getD undefined
    let s ← evalSentence M p t ms
    (Action.task M [b, s]).getD undefined

/-- The value of a part. -/
def Part.eval (M : Mach) : Part → Act Val
  | .syn t => do
    let t ← t.eval M
    pure (.term t)
  | .copula c => pure (.copula c)
  | .conn c => pure (.conn c)
  | .str s => pure (.str s)
  | .num s => do
    let x ← Act.lift (Action.stod M s)
    pure (.dbl x)
  | .mark m => m.eval M
  | .budget ss => do
    let xs ← numbers M ss
    (Action.budget M (xs.map .dbl)).getD undefined
  | .sentence p t ms => evalSentence M p t ms
  | .task b p t ms => evalTaskPart M b p t ms

/-- The values of parts, from left to right. -/
def Part.evalAll (M : Mach) : List Part → Act (List Val)
  | [] => pure []
  | p :: ps => do
    let v ← p.eval M
    let vs ← Part.evalAll M ps
    pure (v :: vs)

/-! ## The actions evaluate parts -/

theorem making_eq (args : List Term) (r : Res Term) :
    making args r = (do let t ← makingTerm args r; pure (.term t)) := by
  simp only [making, makingTerm, bind_assoc, pure_bind]

theorem evalAll_syns (M : Mach) : ∀ ts : List Syn,
    Part.evalAll M (ts.map .syn) = (do let ts ← Syn.evalAll M ts; pure (ts.map .term))
  | [] => by simp [Part.evalAll, Syn.evalAll]
  | t :: ts => by
    simp only [List.map_cons, Part.evalAll, Part.eval, Syn.evalAll, evalAll_syns M ts, bind_assoc,
      pure_bind, List.map_cons]

theorem evalAll_nums (M : Mach) : ∀ ss : List (List Char),
    Part.evalAll M (ss.map .num) = (do let xs ← numbers M ss; pure (xs.map .dbl))
  | [] => by simp [Part.evalAll, numbers]
  | t :: ts => by
    simp only [List.map_cons, Part.evalAll, Part.eval, numbers, evalAll_nums M ts, bind_assoc,
      pure_bind, List.map_cons]

theorem evalAll_marks (M : Mach) : ∀ ms : List Mark,
    Part.evalAll M (ms.map .mark) = evalMarks M ms
  | [] => rfl
  | m :: ms => by
    simp only [List.map_cons, Part.evalAll, Part.eval, evalMarks, evalAll_marks M ms]

theorem Part.syns?_map : ∀ ts : List Syn, Part.syns? (ts.map .syn) = some ts
  | [] => rfl
  | t :: ts => by simp [Part.syns?, Part.syns?_map ts]

theorem Part.marks?_map : ∀ ts : List Mark, Part.marks? (ts.map .mark) = some ts
  | [] => rfl
  | t :: ts => by simp [Part.marks?, Part.marks?_map ts]

theorem Part.nums?_map : ∀ ts : List (List Char), Part.nums? (ts.map .num) = some ts
  | [] => rfl
  | t :: ts => by simp [Part.nums?, Part.nums?_map ts]

/-- Parts of given types. -/
def Are (ts : List Ty) (ps : List Part) : Prop := ps.map Part.ty = ts

theorem Are.nil_iff {ps : List Part} : Are [] ps ↔ ps = [] := by simp [Are]

theorem Are.cons_iff {t : Ty} {ts : List Ty} {ps : List Part} :
    Are (t :: ts) ps ↔ ∃ p qs, ps = p :: qs ∧ p.ty = t ∧ Are ts qs := by
  cases ps <;> simp [Are]

theorem mark_ty {m : Mark} {t : Ty} (h : t ≠ .tense) (h' : t ≠ .truth) : ¬ m.ty = t := by
  cases m <;> simp [Mark.ty, h.symm, h'.symm]

section
variable {p : Part}
theorem part_term : p.ty = .term ↔ ∃ t, p = .syn t := by cases p <;> simp [Part.ty, mark_ty]
theorem part_copula : p.ty = .copula ↔ ∃ c, p = .copula c := by cases p <;> simp [Part.ty, mark_ty]
theorem part_conn : p.ty = .conn ↔ ∃ c, p = .conn c := by cases p <;> simp [Part.ty, mark_ty]
theorem part_str : p.ty = .str ↔ ∃ s, p = .str s := by cases p <;> simp [Part.ty, mark_ty]
theorem part_dbl : p.ty = .dbl ↔ ∃ s, p = .num s := by cases p <;> simp [Part.ty, mark_ty]
theorem part_mark (h : p.ty = .tense ∨ p.ty = .truth) : ∃ m, p = .mark m := by
  cases p <;> simp [Part.ty] at h ⊢
theorem part_budget : p.ty = .budget ↔ ∃ b, p = .budget b := by cases p <;> simp [Part.ty, mark_ty]
theorem part_sentence : p.ty = .sentence ↔ ∃ q t ms, p = .sentence q t ms := by
  cases p <;> simp [Part.ty, mark_ty]
theorem part_task : p.ty = .task ↔ ∃ b q t ms, p = .task b q t ms := by
  cases p <;> simp [Part.ty, mark_ty]
end

theorem are_syns : ∀ {n : Nat} {ps : List Part}, Are (List.replicate n .term) ps →
    ∃ ts : List Syn, ps = ts.map Part.syn
  | 0, ps, h => ⟨[], by simpa [Are] using h⟩
  | n + 1, ps, h => by
    rw [List.replicate_succ, Are.cons_iff] at h
    obtain ⟨p, qs, rfl, hp, hq⟩ := h
    obtain ⟨t, rfl⟩ := part_term.mp hp
    obtain ⟨ts, rfl⟩ := are_syns hq
    exact ⟨t :: ts, rfl⟩

/-- `build` succeeds on the parts, with the right type, and evaluates as the action does. -/
def Builds (M : Mach) (e : Emit) (ps : List Part) : Prop :=
  ∃ q, Part.build e ps = some q ∧ q.ty = e.res ∧
    ∀ bad, (do
      let vs ← Part.evalAll M ps
      dispatch M bad e (if ps.isEmpty then none else some vs)) = q.eval M

theorem are_only {ts : List Ty} {us : List Ty} {ps : List Part} (hf : (Pat.only ts).Fits us)
    (h : Are us ps) : Are ts ps := by
  have : us = ts := hf
  exact this ▸ h

theorem dispatch_multi (M : Mach) (bad : Act Val) {e : Emit} (he : e ∈ registered) (c : Connector)
    (ts : List Term) (args : List Val)
    (ha : act M e (some args) = Action.multi_prefix M (.conn c :: ts.map Val.term)) :
    dispatch M bad e (some args) =
      (do let t ← makingTerm ts (mkComp M.ord c ts true); pure (.term t)) := by
  rw [dispatch_works he (a := making ts (mkComp M.ord c ts true)) (by
    rw [ha, Action.multi_prefix, terms?_map]; rfl), making_eq]

theorem builds_multi (M : Mach) {e : Emit} (he : e ∈ registered) (c : Connector) (ts : List Syn)
    (hb : Part.build e (.conn c :: ts.map .syn) = some (.syn (.comp c ts))) (hr : e.res = .term)
    (ha : ∀ vs, act M e (some (.conn c :: vs)) = Action.multi_prefix M (.conn c :: vs)) :
    Builds M e (.conn c :: ts.map .syn) := by
  refine ⟨_, hb, hr.symm, fun bad => ?_⟩
  simp only [Part.evalAll, Part.eval, evalAll_syns, bind_assoc, pure_bind, List.isEmpty_cons,
    Bool.false_eq_true, if_false, Syn.eval]
  congr 1
  funext us
  exact dispatch_multi M bad he c us _ (ha _)

theorem builds_own (M : Mach) {e : Emit} (he : e ∈ registered) (c : Connector) (ts : List Syn)
    (hn : ts ≠ [])
    (hb : Part.build e (ts.map .syn) = some (.syn (.comp c ts))) (hr : e.res = .term)
    (ha : ∀ vs, act M e (some vs) = Action.multi_prefix M (.conn c :: vs)) :
    Builds M e (ts.map .syn) := by
  refine ⟨_, hb, hr.symm, fun bad => ?_⟩
  have : (ts.map Part.syn).isEmpty = false := by cases ts <;> simp_all
  simp only [evalAll_syns, bind_assoc, pure_bind, this,
    Bool.false_eq_true, if_false, Syn.eval, Part.eval]
  congr 1
  funext us
  exact dispatch_multi M bad he c us _ (ha _)

theorem truth_some (M : Mach) : ∀ xs : List ℚ,
    ∃ t, Action.truth M (xs.map .dbl) = some (pure (.truth t))
  | [] => ⟨_, rfl⟩
  | [_] => ⟨_, rfl⟩
  | [_, _] => ⟨_, rfl⟩
  | _ :: _ :: _ :: _ => ⟨_, rfl⟩

theorem budget_some (M : Mach) : ∀ xs : List ℚ,
    ∃ b, Action.budget M (xs.map .dbl) = some (pure (.budget b))
  | [] => ⟨_, rfl⟩
  | [_] => ⟨_, rfl⟩
  | [_, _] => ⟨_, rfl⟩
  | _ :: _ :: _ :: _ => ⟨_, rfl⟩

theorem Mark.eval_yields (M : Mach) (m : Mark) : (m.eval M).Yields m.ty := by
  cases m with
  | tense n => exact Act.yields_pure rfl
  | time s => exact Act.yields_bind fun _ => Act.yields_bind fun _ => Act.yields_pure rfl
  | truth ss =>
    refine Act.yields_bind fun xs => ?_
    obtain ⟨t, h⟩ := truth_some M xs
    rw [h]
    exact Act.yields_pure rfl

theorem evalMarks_all (M : Mach) : ∀ {ms : List Mark} {e e' : Env} {vs : List Val},
    evalMarks M ms e = (.ok vs, e') → Action.allMarks vs = true
  | [], e, e', vs, h => by
    change (Res.ok [], e) = _ at h
    simp only [Prod.mk.injEq, Res.ok.injEq] at h
    rw [← h.1]
    rfl
  | m :: ms, e, e', vs, h => by
    simp only [evalMarks] at h
    obtain ⟨v, e1, h1, h⟩ := Act.bind_ok h
    obtain ⟨us, e2, h2, h⟩ := Act.bind_ok h
    change (Res.ok (v :: us), e2) = _ at h
    simp only [Prod.mk.injEq, Res.ok.injEq] at h
    rw [← h.1]
    have := evalMarks_all M h2
    have hy := m.eval_yields M _ _ _ h1
    cases m with
    | truth => obtain ⟨_, rfl⟩ := ty_truth.mp hy; simpa [Action.allMarks] using this
    | tense => obtain ⟨_, rfl⟩ := ty_tense.mp hy; simpa [Action.allMarks] using this
    | time => obtain ⟨_, rfl⟩ := ty_tense.mp hy; simpa [Action.allMarks] using this

theorem sentenceAction_some (M : Mach) (p : Punct) (t : Term) {vs : List Val}
    (h : Action.allMarks vs = true) :
    ∃ a, sentenceAction M p (.term t :: vs) = some a ∧ a.Yields .sentence := by
  cases p
  · unfold sentenceAction Action.judgement; exact works_believed M _ _ h
  · unfold sentenceAction Action.question; exact works_asked _ h
  · unfold sentenceAction Action.goal; exact works_believed M _ _ h
  · unfold sentenceAction Action.quest; exact works_asked _ h

theorem evalSentence_yields (M : Mach) (p : Punct) (t : Syn) (ms : List Mark) :
    (evalSentence M p t ms).Yields .sentence := by
  intro e v e' h
  obtain ⟨t', e1, _, h⟩ := Act.bind_ok h
  obtain ⟨vs, e2, h2, h⟩ := Act.bind_ok h
  obtain ⟨a, ha, hy⟩ := sentenceAction_some M p t' (evalMarks_all M h2)
  rw [ha] at h
  exact hy _ _ _ h

theorem are_marks : ∀ {ts : List Ty} {ps : List Part}, (∀ t ∈ ts, t = .tense ∨ t = .truth) → Are ts ps →
    ∃ ms : List Mark, ps = ms.map Part.mark
  | [], ps, _, h => ⟨[], by simpa [Are] using h⟩
  | t :: ts, ps, ht, h => by
    rw [Are.cons_iff] at h
    obtain ⟨p, qs, rfl, hp, hq⟩ := h
    obtain ⟨m, rfl⟩ := part_mark (hp ▸ ht t (by simp))
    obtain ⟨ms, rfl⟩ := are_marks (fun x hx => ht x (by simp [hx])) hq
    exact ⟨m :: ms, rfl⟩

theorem are_nums : ∀ {ts : List Ty} {ps : List Part}, (∀ t ∈ ts, t = .dbl) → Are ts ps →
    ∃ ss : List (List Char), ps = ss.map Part.num
  | [], ps, _, h => ⟨[], by simpa [Are] using h⟩
  | t :: ts, ps, ht, h => by
    rw [Are.cons_iff] at h
    obtain ⟨p, qs, rfl, hp, hq⟩ := h
    obtain rfl := ht t (by simp)
    obtain ⟨m, rfl⟩ := part_dbl.mp hp
    obtain ⟨ms, rfl⟩ := are_nums (fun x hx => ht x (by simp [hx])) hq
    exact ⟨m :: ms, rfl⟩

theorem builds_sentence (M : Mach) {e : Emit} {p : Punct} (he : e ∈ registered) (t : Syn)
    (ms : List Mark) (hr : e.res = .sentence)
    (hb : Part.build e (.syn t :: ms.map .mark) = some (.sentence p t ms))
    (ha : ∀ vs, act M e (some vs) = sentenceAction M p vs) :
    Builds M e (.syn t :: ms.map .mark) := by
  refine ⟨_, hb, hr.symm, fun bad => ?_⟩
  simp only [Part.evalAll, Part.eval, evalAll_marks, bind_assoc, pure_bind, List.isEmpty_cons,
    Bool.false_eq_true, if_false, evalSentence]
  congr 1
  funext t'
  refine Act.bind_congr fun e' vs e'' hv => ?_
  obtain ⟨a, h, _⟩ := sentenceAction_some M p t' (evalMarks_all M hv)
  rw [dispatch_works he (a := a) (by rw [ha, h]), h]
  rfl

theorem builds_nums (M : Mach) {e : Emit} (he : e ∈ registered) {q : Part} (ss : List (List Char))
    (hn : ss ≠ []) (hb : Part.build e (ss.map .num) = some q) (hq : q.ty = e.res)
    (f : List Val → Option (Act Val)) (ha : ∀ vs, act M e (some vs) = f vs)
    (hf : ∀ xs : List ℚ, ∃ a, f (xs.map .dbl) = some a)
    (hv : q.eval M = do let xs ← numbers M ss; (f (xs.map .dbl)).getD undefined) :
    Builds M e (ss.map .num) := by
  refine ⟨_, hb, hq, fun bad => ?_⟩
  have : (ss.map Part.num).isEmpty = false := by cases ss <;> simp_all
  simp only [evalAll_nums, bind_assoc, pure_bind, this, Bool.false_eq_true, if_false, hv]
  congr 1
  funext xs
  obtain ⟨a, h⟩ := hf xs
  rw [dispatch_works he (a := a) (by rw [ha, h]), h]
  rfl

theorem builds_task (M : Mach) {ps : List Part}
    (h : (∃ p t ms, ps = [.sentence p t ms]) ∨ ∃ b p t ms, ps = [.budget b, .sentence p t ms]) :
    Builds M .task ps := by
  rcases h with ⟨p, t, ms, rfl⟩ | ⟨b, p, t, ms, rfl⟩
  · refine ⟨_, rfl, rfl, fun bad => ?_⟩
    simp only [Part.evalAll, Part.eval, bind_assoc, pure_bind, List.isEmpty_cons,
      Bool.false_eq_true, if_false, evalTaskPart]
    refine Act.bind_congr fun e' v e'' hv => ?_
    obtain ⟨s, rfl⟩ := ty_sentence.mp (evalSentence_yields M p t ms _ _ _ hv)
    rfl
  · refine ⟨_, rfl, rfl, fun bad => ?_⟩
    simp only [Part.evalAll, Part.eval, bind_assoc, pure_bind, List.isEmpty_cons,
      Bool.false_eq_true, if_false, evalTaskPart]
    congr 1
    funext xs
    obtain ⟨b', hb⟩ := budget_some M xs
    simp only [hb, Option.getD_some, pure_bind]
    refine Act.bind_congr fun e' v e'' hv => ?_
    obtain ⟨s, rfl⟩ := ty_sentence.mp (evalSentence_yields M p t ms _ _ _ hv)
    rfl

theorem builds_node (M : Mach) {e : Emit} {p : Pat} (hp : p ∈ e.args) {ts : List Ty}
    (hf : p.Fits ts) {ps : List Part} (hv : Are ts ps) : Builds M e ps := by
  have hr := node_registered hp
  cases e <;> simp only [Emit.args, List.mem_cons, List.not_mem_nil, or_false, Emit.res,
    reduceCtorEq, or_self, or_true, if_true, if_false] at hp
  case task =>
    refine builds_task M ?_
    rcases hp with rfl | rfl <;> have hv := are_only hf hv
    · simp only [Are.cons_iff, Are.nil_iff, part_sentence] at hv
      obtain ⟨_, _, rfl, ⟨p, t, ms, rfl⟩, rfl⟩ := hv
      exact .inl ⟨p, t, ms, rfl⟩
    · simp only [Are.cons_iff, Are.nil_iff, part_sentence, part_budget] at hv
      obtain ⟨_, _, rfl, ⟨b, rfl⟩, _, _, rfl, ⟨p, t, ms, rfl⟩, rfl⟩ := hv
      exact .inr ⟨b, p, t, ms, rfl⟩
  case judgement =>
    rcases hp with rfl | rfl | rfl | rfl <;> have hv := are_only hf hv <;>
    · rw [Are.cons_iff] at hv
      obtain ⟨_, us, rfl, h1, h2⟩ := hv
      obtain ⟨t, rfl⟩ := part_term.mp h1
      obtain ⟨ms, rfl⟩ := are_marks (by simp) h2
      exact builds_sentence M (p := .judgement) hr t ms rfl (by simp [Part.build, Part.marks?_map])
        fun _ => rfl
  case goal =>
    rcases hp with rfl | rfl | rfl | rfl <;> have hv := are_only hf hv <;>
    · rw [Are.cons_iff] at hv
      obtain ⟨_, us, rfl, h1, h2⟩ := hv
      obtain ⟨t, rfl⟩ := part_term.mp h1
      obtain ⟨ms, rfl⟩ := are_marks (by simp) h2
      exact builds_sentence M (p := .goal) hr t ms rfl (by simp [Part.build, Part.marks?_map])
        fun _ => rfl
  case question =>
    rcases hp with rfl | rfl <;> have hv := are_only hf hv <;>
    · rw [Are.cons_iff] at hv
      obtain ⟨_, us, rfl, h1, h2⟩ := hv
      obtain ⟨t, rfl⟩ := part_term.mp h1
      obtain ⟨ms, rfl⟩ := are_marks (by simp) h2
      exact builds_sentence M (p := .question) hr t ms rfl (by simp [Part.build, Part.marks?_map])
        fun _ => rfl
  case quest =>
    rcases hp with rfl | rfl <;> have hv := are_only hf hv <;>
    · rw [Are.cons_iff] at hv
      obtain ⟨_, us, rfl, h1, h2⟩ := hv
      obtain ⟨t, rfl⟩ := part_term.mp h1
      obtain ⟨ms, rfl⟩ := are_marks (by simp) h2
      exact builds_sentence M (p := .quest) hr t ms rfl (by simp [Part.build, Part.marks?_map])
        fun _ => rfl
  case truth =>
    rcases hp with rfl | rfl | rfl <;> have hv := are_only hf hv <;>
    · obtain ⟨ss, rfl⟩ := are_nums (by simp) hv
      exact builds_nums M hr (q := .mark (.truth ss)) ss (by rintro rfl; simp [Are] at hv)
        (by simp only [Part.build, Part.nums?_map, Option.map_some]) rfl
        (Action.truth M) (fun _ => rfl) (fun xs => let ⟨_, h⟩ := truth_some M xs; ⟨_, h⟩) rfl
  case budget =>
    rcases hp with rfl | rfl | rfl <;> have hv := are_only hf hv <;>
    · obtain ⟨ss, rfl⟩ := are_nums (by simp) hv
      exact builds_nums M hr (q := .budget ss) ss (by rintro rfl; simp [Are] at hv)
        (by simp only [Part.build, Part.nums?_map, Option.map_some]) rfl
        (Action.budget M) (fun _ => rfl) (fun xs => let ⟨_, h⟩ := budget_some M xs; ⟨_, h⟩) rfl
  case statement =>
    subst hp
    have hv := are_only hf hv
    simp only [Are.cons_iff, Are.nil_iff, part_term, part_copula] at hv
    obtain ⟨_, _, rfl, ⟨a, rfl⟩, _, _, rfl, ⟨b, rfl⟩, _, _, rfl, ⟨c, rfl⟩, rfl⟩ := hv
    refine ⟨_, rfl, rfl, fun bad => ?_⟩
    simp only [Part.evalAll, Part.eval, bind_assoc, pure_bind, List.isEmpty_cons,
      Bool.false_eq_true, if_false, Syn.eval]
    congr 1
    funext s
    congr 1
    funext q
    rw [dispatch_works hr rfl, making_eq]
  case statement_operation1 =>
    subst hp
    obtain ⟨n, rfl⟩ := hf
    simp only [List.cons_append, List.nil_append, Are.cons_iff, part_term] at hv
    obtain ⟨_, us, rfl, ⟨t, rfl⟩, hv⟩ := hv
    obtain ⟨ts, rfl⟩ := are_syns hv
    refine ⟨.syn (.call t ts), by simp only [Part.build, Part.syns?_map, Option.map_some], rfl,
      fun bad => ?_⟩
    simp only [Part.evalAll, Part.eval, bind_assoc, pure_bind, List.isEmpty_cons, evalAll_syns,
      Bool.false_eq_true, if_false, Syn.eval]
    congr 1
    funext s
    congr 1
    funext q
    rw [dispatch_works hr (a := making (s :: q) (Action.newOperation M s q))
      (by simp only [act, Action.statement_operation1, terms?_map, Option.map_some]), making_eq]
  case statement_operation2 =>
    subst hp
    obtain ⟨n, rfl⟩ := hf
    simp only [List.cons_append, List.nil_append, Are.cons_iff, part_term, part_str] at hv
    obtain ⟨_, us, rfl, ⟨s, rfl⟩, _, us, rfl, ⟨t, rfl⟩, hv⟩ := hv
    obtain ⟨ts, rfl⟩ := are_syns hv
    refine ⟨.syn (.callName s (t :: ts)), by simp only [Part.build, Part.syns?, Part.syns?_map,
      Option.map_some], rfl, fun bad => ?_⟩
    simp only [Part.evalAll, Part.eval, bind_assoc, pure_bind, List.isEmpty_cons, evalAll_syns,
      Bool.false_eq_true, if_false, Syn.eval, Syn.evalAll]
    congr 1
    funext x
    congr 1
    funext xs
    rw [dispatch_works hr (a := do
        let op ← Action.theOperation M s
        making (op :: x :: xs) (Action.newOperation M op (x :: xs)))
      (by simp only [act, Action.statement_operation2, Action.terms?, terms?_map,
        Option.map_some])]
    simp only [making_eq]
  case multi_prefix =>
    rcases hp with rfl | rfl <;> obtain ⟨n, rfl⟩ := hf <;>
      simp only [List.cons_append, List.nil_append, Are.cons_iff, part_term, part_conn] at hv
    · obtain ⟨_, us, rfl, ⟨c, rfl⟩, _, us, rfl, ⟨t, rfl⟩, _, us, rfl, ⟨u, rfl⟩, hv⟩ := hv
      obtain ⟨ts, rfl⟩ := are_syns hv
      exact builds_multi M hr c (t :: u :: ts) (by simp [Part.build, Part.syns?, Part.syns?_map]) rfl
        fun _ => rfl
    · obtain ⟨_, us, rfl, ⟨c, rfl⟩, _, us, rfl, ⟨t, rfl⟩, hv⟩ := hv
      obtain ⟨ts, rfl⟩ := are_syns hv
      exact builds_multi M hr c (t :: ts) (by simp [Part.build, Part.syns?, Part.syns?_map]) rfl
        fun _ => rfl
  all_goals subst hp
  all_goals first
    | (have hv := are_only hf hv
       simp only [Are.nil_iff] at hv
       subst hv
       refine ⟨_, rfl, rfl, fun bad => ?_⟩
       exact dispatch_works (M := M) (args := none) hr rfl bad)
    | (have hv := are_only hf hv
       simp only [Are.cons_iff, Are.nil_iff, part_term, part_str, part_dbl] at hv
       obtain ⟨_, _, rfl, ⟨a, rfl⟩, rfl⟩ := hv
       refine ⟨_, rfl, rfl, fun bad => ?_⟩
       simp only [Part.evalAll, Part.eval, bind_assoc, pure_bind, List.isEmpty_cons,
         Bool.false_eq_true, if_false, Syn.eval, Mark.eval]
       congr 1)
    | (have hv := are_only hf hv
       simp only [Are.cons_iff, Are.nil_iff, part_term, part_conn] at hv
       obtain ⟨_, _, rfl, ⟨c, rfl⟩, _, _, rfl, ⟨b, rfl⟩, rfl⟩ := hv
       refine ⟨_, rfl, rfl, fun bad => ?_⟩
       simp only [Part.evalAll, Part.eval, bind_assoc, pure_bind, List.isEmpty_cons,
         Bool.false_eq_true, if_false, Syn.eval, Syn.evalAll]
       congr 1
       funext s
       rw [dispatch_works hr rfl, making_eq])
    | (have hv := are_only hf hv
       simp only [Are.cons_iff, Are.nil_iff, part_term, part_conn] at hv
       obtain ⟨_, _, rfl, ⟨a, rfl⟩, _, _, rfl, ⟨b, rfl⟩, _, _, rfl, ⟨c, rfl⟩, rfl⟩ := hv
       refine ⟨_, rfl, rfl, fun bad => ?_⟩
       simp only [Part.evalAll, Part.eval, bind_assoc, pure_bind, List.isEmpty_cons,
         Bool.false_eq_true, if_false, Syn.eval, Syn.evalAll]
       congr 1
       funext s
       congr 1
       funext t
       rw [dispatch_works hr rfl, making_eq])
    | (obtain ⟨n, rfl⟩ := hf
       simp only [List.cons_append, List.nil_append, Are.cons_iff, part_term, part_conn] at hv
       obtain ⟨_, us, rfl, ⟨c, rfl⟩, _, us, rfl, ⟨t, rfl⟩, hv⟩ := hv
       obtain ⟨ts, rfl⟩ := are_syns hv
       first
       | exact builds_multi M hr c (t :: ts) (by simp [Part.build, Part.syns?, Part.syns?_map]) rfl
          fun _ => rfl
       | exact builds_own M hr _ (c :: t :: ts) (by simp)
          (by simp only [Part.build, Part.syns?_map, Option.map_some]) rfl fun _ => rfl)

theorem leaf_eval (M : Mach) (bad : Act Val) {e : Emit} (h : e.isLeaf = true) (s : List Char) :
    (Part.ofLeaf e s).ty = e.res ∧ evalNode M bad (.leaf e s) = (Part.ofLeaf e s).eval M := by
  have hr := leaf_registered h
  cases e <;> simp only [Emit.isLeaf, Bool.false_eq_true] at h <;>
    exact ⟨rfl, by simp only [evalNode]; rw [dispatch_works hr rfl]; rfl⟩

theorem partAll_eval {M : Mach} {bad : Act Val} : ∀ {as : List Ast},
    (∀ a ∈ as, ∃ p, a.part = some p ∧ p.ty = a.ty ∧ evalNode M bad a = p.eval M) →
    ∃ ps, partAll as = some ps ∧ Are (as.map Ast.ty) ps ∧ evalAll M bad as = Part.evalAll M ps
  | [], _ => ⟨[], rfl, rfl, rfl⟩
  | a :: as, h => by
    obtain ⟨p, h1, h2, h3⟩ := h a (by simp)
    obtain ⟨ps, h4, h5, h6⟩ := partAll_eval (as := as) fun x hx => h x (by simp [hx])
    refine ⟨p :: ps, by simp [partAll, h1, h4], ?_, by simp only [evalAll, Part.evalAll, h3, h6]⟩
    simp only [Are, List.map_cons] at h5 ⊢
    rw [h2, h5]

/-- A typed tree stands for something, and the actions evaluate it. -/
theorem evalNode_part (M : Mach) (bad : Act Val) {a : Ast} (h : a.Typed) :
    ∃ p, a.part = some p ∧ p.ty = a.ty ∧ evalNode M bad a = p.eval M := by
  induction h with
  | @leaf e s h =>
    obtain ⟨h1, h2⟩ := leaf_eval M bad h s
    exact ⟨_, rfl, h1, h2⟩
  | @node e cs p _ hp hf ih =>
    obtain ⟨ps, h1, h2, h3⟩ := partAll_eval ih
    obtain ⟨q, h4, h5, h6⟩ := builds_node M hp hf h2
    refine ⟨q, by simp [Ast.part, h1, h4], h5, ?_⟩
    rw [← h6 bad, evalNode, h3]
    have : cs.isEmpty = ps.isEmpty := by
      have := congrArg List.length h2
      simp only [List.length_map] at this
      cases cs <;> cases ps <;> simp_all
    rw [this]

/-- The value of a list that is one task. -/
def theTask (vs : List Val) : Act Task :=
  match vs with
  | .task t :: _ => pure t
  | _ => undefined

/-- The tree of a line of Narsese stands for a task, which the actions evaluate. -/
theorem evalTask_part {line : List WChar} {as : List Ast} (h : IsNarsese line as) :
    ∃ b p t ms, partAll as = some [.task b p t ms] ∧ ∀ M bad,
      evalTask M bad as = (do
        let v ← evalTaskPart M b p t ms
        theTask [v]) := by
  obtain ⟨a, rfl, ht, hty⟩ := narsese_typed h
  obtain ⟨q, h1, h2, _⟩ := evalNode_part ⟨Rnd.exact ℚ, fun _ => false, fun _ => 0, id,
    Config.ofRnd (Rnd.exact ℚ)⟩ undefined ht
  rw [hty, part_task] at h2
  obtain ⟨b, p, t, ms, rfl⟩ := h2
  refine ⟨b, p, t, ms, by simp [partAll, h1], fun M bad => ?_⟩
  obtain ⟨q, h3, _, h4⟩ := evalNode_part M bad ht
  rw [h1] at h3
  cases h3
  simp only [evalTask, evalAll, h4, Part.eval, bind_assoc, pure_bind]
  rfl

end Cnars.Parser
