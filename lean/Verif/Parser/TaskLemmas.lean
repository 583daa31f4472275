import Verif.Parser.Numbering

/-!
# What the actions for sentences and tasks make
-/

namespace Cnars.Parser
open Cnars

/-- The last truth value. -/
def lastTruth : List Val → Option (Truth ℚ) → Option (Truth ℚ)
  | [], t => t
  | .truth t :: vs, _ => lastTruth vs (some t)
  | _ :: vs, t => lastTruth vs t

theorem Act.pure_ok {α : Type} {a b : α} {e e' : Env} (h : (pure a : Act α) e = (.ok b, e')) :
    a = b ∧ e = e' := by
  change (Res.ok a, e) = _ at h
  simpa using h

theorem Act.lift_ok {α : Type} {r : Res α} {b : α} {e e' : Env}
    (h : Act.lift r e = (.ok b, e')) : r = .ok b ∧ e = e' := by
  simpa [Act.lift] using h

theorem marks_ok : ∀ {vs : List Val} {s s' : Option Stamp.Stamp} {t t' : Option (Truth ℚ)}
    {e e' : Env}, Action.marks vs s t e = (.ok (s', t'), e') →
    t' = lastTruth vs t ∧ e'.world = e.world ∧ e'.names = e.names ∧
      e'.globals.time = e.globals.time
  | [], s, s', t, t', e, e', h => by
    rw [Action.marks] at h
    obtain ⟨h, rfl⟩ := Act.pure_ok h
    cases h
    exact ⟨rfl, rfl, rfl, rfl⟩
  | v :: vs, s, s', t, t', e, e', h => by
    cases v with
    | tense n =>
      rw [Action.marks] at h
      obtain ⟨st, e1, h1, h⟩ := Act.bind_ok h
      obtain ⟨h2, h3, h4, h5⟩ := marks_ok h
      simp only [Act.onGlobals, Prod.mk.injEq] at h1
      obtain ⟨_, rfl⟩ := h1
      exact ⟨h2, h3, h4, h5⟩
    | truth x =>
      rw [Action.marks] at h
      obtain ⟨h2, h3, h4, h5⟩ := marks_ok h
      exact ⟨h2, h3, h4, h5⟩
    | _ =>
      rw [Action.marks] at h
      · obtain ⟨h2, h3, h4, h5⟩ := marks_ok h
        exact ⟨h2, h3, h4, h5⟩
      all_goals simp

theorem stampOr_ok {s : Option Stamp.Stamp} {s' : Stamp.Stamp} {e e' : Env}
    (h : Action.stampOr s e = (.ok s', e')) :
    e'.world = e.world ∧ e'.names = e.names ∧ e'.globals.time = e.globals.time := by
  cases s with
  | some x =>
    rw [Action.stampOr] at h
    obtain ⟨_, rfl⟩ := Act.pure_ok h
    exact ⟨rfl, rfl, rfl⟩
  | none =>
    simp only [Action.stampOr, Act.onGlobals, Prod.mk.injEq] at h
    rw [← h.2]
    exact ⟨rfl, rfl, rfl⟩

/-- The truth value of a sentence. -/
def truthFor (M : Mach) (p : Punct) (vs : List Val) : Option (Truth ℚ) :=
  match p with
  | .judgement => some (Action.truthOr M M.cfg.c_judgement (lastTruth vs none))
  | .goal => some (Action.truthOr M M.cfg.c_goal (lastTruth vs none))
  | _ => none

theorem believed_ok {M : Mach} {mk : Stamp.Globals → Term → Truth ℚ → Stamp.Stamp → Sentence ℚ}
    {c : ℚ} {t : Term} {vs : List Val} (hv : Action.allMarks vs = true) {e e' : Env} {v : Val}
    (h : (Action.believed M mk c (.term t :: vs)).getD undefined e = (.ok v, e')) :
    ∃ g s, v = .sentence (mk g t (Action.truthOr M c (lastTruth vs none)) s) ∧
      e'.world = e.world ∧ e'.names = e.names ∧ e'.globals.time = e.globals.time := by
  simp only [Action.believed, if_pos hv, Option.getD_some] at h
  obtain ⟨⟨s, tr⟩, e1, h1, h⟩ := Act.bind_ok h
  obtain ⟨s', e2, h2, h⟩ := Act.bind_ok h
  simp only [Prod.mk.injEq, Res.ok.injEq] at h
  obtain ⟨rfl, rfl⟩ := h
  obtain ⟨rfl, a, b, c⟩ := marks_ok h1
  obtain ⟨a', b', c'⟩ := stampOr_ok h2
  exact ⟨_, _, rfl, by rw [a', a], by rw [b', b], by rw [c', c]⟩

theorem asked_ok {mk : Stamp.Globals → Term → Stamp.Stamp → Sentence ℚ}
    {t : Term} {vs : List Val} (hv : Action.allMarks vs = true) {e e' : Env} {v : Val}
    (h : (Action.asked mk (.term t :: vs)).getD undefined e = (.ok v, e')) :
    ∃ g s, v = .sentence (mk g t s) ∧
      e'.world = e.world ∧ e'.names = e.names ∧ e'.globals.time = e.globals.time := by
  simp only [Action.asked, if_pos hv, Option.getD_some] at h
  obtain ⟨⟨s, tr⟩, e1, h1, h⟩ := Act.bind_ok h
  obtain ⟨s', e2, h2, h⟩ := Act.bind_ok h
  simp only [Prod.mk.injEq, Res.ok.injEq] at h
  obtain ⟨rfl, rfl⟩ := h
  obtain ⟨_, a, b, c⟩ := marks_ok h1
  obtain ⟨a', b', c'⟩ := stampOr_ok h2
  exact ⟨_, _, rfl, by rw [a', a], by rw [b', b], by rw [c', c]⟩

theorem sentenceAction_ok {M : Mach} {p : Punct} {t : Term} {vs : List Val}
    (hv : Action.allMarks vs = true) {e e' : Env} {v : Val}
    (h : (sentenceAction M p (.term t :: vs)).getD undefined e = (.ok v, e')) :
    ∃ s : Sentence ℚ, v = .sentence s ∧ s.term = t ∧ s.punct = p ∧ s.truth = truthFor M p vs ∧
      e'.world = e.world ∧ e'.names = e.names ∧ e'.globals.time = e.globals.time := by
  cases p
  · unfold sentenceAction Action.judgement at h
    obtain ⟨g, s, rfl, h'⟩ := believed_ok hv h
    exact ⟨_, rfl, rfl, rfl, rfl, h'⟩
  · unfold sentenceAction Action.question at h
    obtain ⟨g, s, rfl, h'⟩ := asked_ok hv h
    exact ⟨_, rfl, rfl, rfl, rfl, h'⟩
  · unfold sentenceAction Action.goal at h
    obtain ⟨g, s, rfl, h'⟩ := believed_ok hv h
    exact ⟨_, rfl, rfl, rfl, rfl, h'⟩
  · unfold sentenceAction Action.quest at h
    obtain ⟨g, s, rfl, h'⟩ := asked_ok hv h
    exact ⟨_, rfl, rfl, rfl, rfl, h'⟩

theorem numbers_env (M : Mach) : ∀ {ss : List (List Char)} {e e' : Env} {xs : List ℚ},
    numbers M ss e = (.ok xs, e') → e' = e ∧ ss.map (Action.stod M) = xs.map .ok
  | [], e, e', xs, h => by
    obtain ⟨rfl, rfl⟩ := Act.pure_ok h
    exact ⟨rfl, rfl⟩
  | s :: ss, e, e', xs, h => by
    rw [numbers] at h
    obtain ⟨x, e1, h1, h3⟩ := Act.bind_ok h
    obtain ⟨ys, e2, h2, h4⟩ := Act.bind_ok h3
    obtain ⟨rfl, rfl⟩ := Act.pure_ok h4
    obtain ⟨h5, rfl⟩ := Act.lift_ok h1
    obtain ⟨rfl, h6⟩ := numbers_env M h2
    exact ⟨rfl, by simp [h5, h6]⟩

theorem Mark.eval_env (M : Mach) {m : Mark} {e e' : Env} {v : Val}
    (h : m.eval M e = (.ok v, e')) : e' = e := by
  cases m with
  | tense n => exact (Act.pure_ok h).2.symm
  | time s =>
    rw [Mark.eval] at h
    obtain ⟨x, e1, h1, h⟩ := Act.bind_ok h
    obtain ⟨y, e2, h2, h⟩ := Act.bind_ok h
    rw [← (Act.pure_ok h).2, ← (Act.lift_ok h2).2, ← (Act.lift_ok h1).2]
  | truth ss =>
    rw [Mark.eval] at h
    obtain ⟨xs, e1, h1, h⟩ := Act.bind_ok h
    obtain ⟨t, ht⟩ := truth_some M xs
    rw [ht] at h
    rw [← (Act.pure_ok h).2, (numbers_env M h1).1]

theorem evalMarks_env (M : Mach) : ∀ {ms : List Mark} {e e' : Env} {vs : List Val},
    evalMarks M ms e = (.ok vs, e') → e' = e
  | [], e, e', vs, h => (Act.pure_ok h).2.symm
  | m :: ms, e, e', vs, h => by
    rw [evalMarks] at h
    obtain ⟨v, e1, h1, h⟩ := Act.bind_ok h
    obtain ⟨us, e2, h2, h⟩ := Act.bind_ok h
    rw [← (Act.pure_ok h).2, evalMarks_env M h2, Mark.eval_env M h1]

theorem evalSentence_ok {M : Mach} {p : Punct} {t : Syn} {ms : List Mark} {e e' : Env} {v : Val}
    (h : evalSentence M p t ms e = (.ok v, e')) :
    ∃ (r : Term) (e1 : Env) (vs : List Val) (s : Sentence ℚ),
      t.eval M e = (.ok r, e1) ∧ evalMarks M ms e1 = (.ok vs, e1) ∧ v = .sentence s ∧ s.term = r ∧
      s.punct = p ∧ s.truth = truthFor M p vs ∧ e'.world = e1.world ∧ e'.names = e1.names ∧
      e'.globals.time = e1.globals.time := by
  obtain ⟨r, e1, h1, h4⟩ := Act.bind_ok h
  obtain ⟨vs, e2, h2, h5⟩ := Act.bind_ok h4
  obtain rfl := evalMarks_env M h2
  obtain ⟨s, h3⟩ := sentenceAction_ok (evalMarks_all M h2) h5
  exact ⟨r, _, vs, s, h1, h2, h3⟩

/-- The budget before missing values are filled in (NarseseParser.cpp:70-78). -/
def budgetFor (M : Mach) : Option (List ℚ) → Budget
  | none => ⟨M.cfg.priority, M.cfg.durability, M.cfg.quality⟩
  | some [] => ⟨M.R.s (-1), M.R.s (-1), M.R.s (-1)⟩
  | some [p] => ⟨M.R.s p, M.R.s (-1), M.R.s (-1)⟩
  | some [p, d] => ⟨M.R.s p, M.R.s d, M.R.s (-1)⟩
  | some (p :: d :: q :: _) => ⟨M.R.s p, M.R.s d, M.R.s q⟩

theorem budget_eq (M : Mach) : ∀ xs : List ℚ,
    Action.budget M (xs.map .dbl) = some (pure (.budget (budgetFor M (some xs))))
  | [] => rfl
  | [_] => rfl
  | [_, _] => rfl
  | _ :: _ :: _ :: _ => rfl

/-- The truth value before missing values are filled in (NarseseParser.cpp:792-822). -/
def truthOfNumbers (M : Mach) : List ℚ → Truth ℚ
  | [] => ⟨M.R.s (-1), M.R.s (-1), M.R.s M.cfg.k⟩
  | [f] => ⟨M.R.s f, M.R.s (-1), M.R.s M.cfg.k⟩
  | [f, c] => ⟨M.R.s f, M.R.s c, M.R.s M.cfg.k⟩
  | f :: c :: k :: _ => ⟨M.R.s f, M.R.s c, M.R.s k⟩

theorem truth_eq (M : Mach) : ∀ xs : List ℚ,
    Action.truth M (xs.map .dbl) = some (pure (.truth (truthOfNumbers M xs)))
  | [] => rfl
  | [_] => rfl
  | [_, _] => rfl
  | _ :: _ :: _ :: _ => rfl

theorem evalTaskPart_ok {M : Mach} {b : Option (List (List Char))} {p : Punct} {t : Syn}
    {ms : List Mark} {e e' : Env} {v : Val} (h : evalTaskPart M b p t ms e = (.ok v, e')) :
    ∃ (r : Term) (e1 : Env) (vs : List Val) (k : Task) (xs : Option (List ℚ)),
      t.eval M e = (.ok r, e1) ∧ evalMarks M ms e1 = (.ok vs, e1) ∧ v = .task k ∧
      k.sentence.term = r ∧ k.sentence.punct = p ∧ k.sentence.truth = truthFor M p vs ∧
      b.map (fun ss => ss.map (Action.stod M)) = xs.map (fun xs => xs.map .ok) ∧
      Action.finishBudget M (budgetFor M xs) k.sentence = .ok k.budget ∧
      e'.world = e1.world ∧ e'.names = e1.names ∧ e'.globals.time = e1.globals.time := by
  cases b with
  | none =>
    obtain ⟨s, e1, h1, h9⟩ := Act.bind_ok h
    obtain ⟨r, e2, vs, s, h2, h3, rfl, h4, h5, h6, h7⟩ := evalSentence_ok h1
    simp only [Action.task, Option.getD_some] at h9
    obtain ⟨k, e3, h8, h10⟩ := Act.bind_ok h9
    obtain ⟨rfl, rfl⟩ := Act.pure_ok h10
    obtain ⟨h11, rfl⟩ := Act.lift_ok h8
    exact ⟨r, e2, vs, ⟨k, s⟩, none, h2, h3, rfl, h4, h5, h6, rfl, h11, h7⟩
  | some ss =>
    obtain ⟨xs, e0, h0, ha⟩ := Act.bind_ok h
    obtain ⟨rfl, hx⟩ := numbers_env M h0
    simp only [budget_eq, Option.getD_some, pure_bind] at ha
    obtain ⟨s, e1, h1, h9⟩ := Act.bind_ok ha
    obtain ⟨r, e2, vs, s, h2, h3, rfl, h4, h5, h6, h7⟩ := evalSentence_ok h1
    simp only [Action.task, Option.getD_some] at h9
    obtain ⟨k, e3, h8, h10⟩ := Act.bind_ok h9
    obtain ⟨rfl, rfl⟩ := Act.pure_ok h10
    obtain ⟨h11, rfl⟩ := Act.lift_ok h8
    exact ⟨r, e2, vs, ⟨k, s⟩, some xs, h2, h3, rfl, h4, h5, h6, by simp [hx], h11, h7⟩

/-- The task an accepted line evaluates to. -/
theorem evalTask_ok {line : List WChar} {as : List Ast} (hn : IsNarsese line as) {M : Mach}
    {bad : Act Val} {e e' : Env} {k : Task} (h : evalTask M bad as e = (.ok k, e')) :
    ∃ (b : Option (List (List Char))) (p : Punct) (t : Syn) (ms : List Mark) (r : Term) (e1 : Env)
      (vs : List Val) (xs : Option (List ℚ)),
      partAll as = some [.task b p t ms] ∧
      t.eval M e = (.ok r, e1) ∧ evalMarks M ms e1 = (.ok vs, e1) ∧
      k.sentence.term = r ∧ k.sentence.punct = p ∧ k.sentence.truth = truthFor M p vs ∧
      b.map (fun ss => ss.map (Action.stod M)) = xs.map (fun xs => xs.map .ok) ∧
      Action.finishBudget M (budgetFor M xs) k.sentence = .ok k.budget ∧
      e'.world = e1.world ∧ e'.names = e1.names ∧ e'.globals.time = e1.globals.time := by
  obtain ⟨b, p, t, ms, h1, h2⟩ := evalTask_part hn
  rw [h2] at h
  obtain ⟨v, e1, h3, h4⟩ := Act.bind_ok h
  obtain ⟨r, e2, vs, k', xs, h5, h6, rfl, h7⟩ := evalTaskPart_ok h3
  obtain ⟨rfl, rfl⟩ := Act.pure_ok h4
  exact ⟨b, p, t, ms, r, e2, vs, xs, h1, h5, h6, h7⟩

/-! ## Variables in syntax trees -/

/-- The node name of a kind of variable. -/
def varEmit : VarKind → Emit
  | .independent => .independent_var
  | .dependent => .dependent_var
  | .query => .query_var

/-- The text of a leaf. -/
def Ast.token : Ast → List Char
  | .leaf _ s => s
  | .node .. => []

mutual
/-- The names, with their sign, of the variables of a kind in a syntax tree, in the order of the
text. -/
def Ast.vars (k : VarKind) : Ast → List String
  | .leaf .. => []
  | .node e cs =>
    if e = varEmit k then cs.map fun c => k.symbol ++ String.ofList c.token
    else Ast.varsAll k cs
/-- Of siblings. -/
def Ast.varsAll (k : VarKind) : List Ast → List String
  | [] => []
  | a :: as => Ast.vars k a ++ Ast.varsAll k as
end

/-- The names of variables in a part. -/
def Part.vars (k : VarKind) : Part → List String
  | .syn t => t.vars k
  | .sentence _ t _ => t.vars k
  | .task _ _ t _ => t.vars k
  | _ => []

theorem Part.syns?_vars {k : VarKind} : ∀ {ps : List Part} {ts : List Syn},
    Part.syns? ps = some ts → Syn.varsAll k ts = ps.flatMap (Part.vars k)
  | [], ts, h => by cases h; rfl
  | .syn t :: ps, ts, h => by
    simp only [Part.syns?, Option.map_eq_some_iff] at h
    obtain ⟨us, h, rfl⟩ := h
    simp [Syn.varsAll, Part.syns?_vars h, Part.vars]
  | .copula _ :: _, _, h => by simp [Part.syns?] at h
  | .conn _ :: _, _, h => by simp [Part.syns?] at h
  | .str _ :: _, _, h => by simp [Part.syns?] at h
  | .num _ :: _, _, h => by simp [Part.syns?] at h
  | .mark _ :: _, _, h => by simp [Part.syns?] at h
  | .budget _ :: _, _, h => by simp [Part.syns?] at h
  | .sentence .. :: _, _, h => by simp [Part.syns?] at h
  | .task .. :: _, _, h => by simp [Part.syns?] at h

theorem Part.marks?_vars {k : VarKind} : ∀ {ps : List Part} {ts : List Mark},
    Part.marks? ps = some ts → ps.flatMap (Part.vars k) = []
  | [], ts, h => rfl
  | .mark t :: ps, ts, h => by
    simp only [Part.marks?, Option.map_eq_some_iff] at h
    obtain ⟨us, h, rfl⟩ := h
    simp [Part.marks?_vars h, Part.vars]
  | .copula _ :: _, _, h => by simp [Part.marks?] at h
  | .conn _ :: _, _, h => by simp [Part.marks?] at h
  | .str _ :: _, _, h => by simp [Part.marks?] at h
  | .num _ :: _, _, h => by simp [Part.marks?] at h
  | .syn _ :: _, _, h => by simp [Part.marks?] at h
  | .budget _ :: _, _, h => by simp [Part.marks?] at h
  | .sentence .. :: _, _, h => by simp [Part.marks?] at h
  | .task .. :: _, _, h => by simp [Part.marks?] at h

theorem Part.nums?_vars {k : VarKind} : ∀ {ps : List Part} {ts : List (List Char)},
    Part.nums? ps = some ts → ps.flatMap (Part.vars k) = []
  | [], ts, h => rfl
  | .num t :: ps, ts, h => by
    simp only [Part.nums?, Option.map_eq_some_iff] at h
    obtain ⟨us, h, rfl⟩ := h
    simp [Part.nums?_vars h, Part.vars]
  | .copula _ :: _, _, h => by simp [Part.nums?] at h
  | .conn _ :: _, _, h => by simp [Part.nums?] at h
  | .str _ :: _, _, h => by simp [Part.nums?] at h
  | .mark _ :: _, _, h => by simp [Part.nums?] at h
  | .syn _ :: _, _, h => by simp [Part.nums?] at h
  | .budget _ :: _, _, h => by simp [Part.nums?] at h
  | .sentence .. :: _, _, h => by simp [Part.nums?] at h
  | .task .. :: _, _, h => by simp [Part.nums?] at h

/-- The node around parts has the variables of its parts, unless it is itself a variable. -/
theorem Part.build_vars {e : Emit} {ps : List Part} {q : Part} (h : Part.build e ps = some q)
    (k : VarKind) : (e ≠ varEmit k → q.vars k = ps.flatMap (Part.vars k)) ∧
      (e = varEmit k → ∃ s, ps = [.str s] ∧ q.vars k = [k.symbol ++ String.ofList s]) := by
  unfold Part.build at h
  split at h
  all_goals first
    | (simp only [Option.some.injEq] at h
       subst h
       refine ⟨fun hn => ?_, fun he => ?_⟩
       · simp [Part.vars, Syn.vars, Syn.varsAll]
       · cases k <;> cases he)
    | (simp only [Option.map_eq_some_iff] at h
       obtain ⟨ts, h1, rfl⟩ := h
       refine ⟨fun _ => ?_, fun he => ?_⟩
       · first
         | simp [Part.vars, Syn.vars, Part.syns?_vars h1]
         | simp [Part.vars, Part.marks?_vars h1]
         | simp [Part.vars, Part.nums?_vars h1]
       · cases k <;> cases he)
    | (cases k <;> simp only [Option.some.injEq] at h <;> subst h <;>
        simp [Part.vars, Syn.vars, varEmit])
    | (simp only [Option.or_eq_some_iff, Option.map_eq_some_iff] at h
       rcases h with ⟨c, hc, rfl⟩ | ⟨_, c, hc, rfl⟩
       all_goals
         refine ⟨fun _ => rfl, fun he => ?_⟩
         subst he
         cases k <;> simp [Part.copula?, Part.conn?, varEmit] at hc)
    | simp at h

theorem Part.build_str {e : Emit} {ps : List Part} {s : List Char} :
    Part.build e ps ≠ some (.str s) := by
  intro h
  unfold Part.build at h
  split at h <;>
    simp only [Option.some.injEq, Option.map_eq_some_iff, reduceCtorEq, and_false, exists_false,
      Option.or_eq_some_iff, or_self] at h

theorem Ast.part_str {a : Ast} {s : List Char} (h : a.part = some (.str s)) : a.token = s := by
  cases a with
  | leaf e t =>
    simp only [Ast.part, Option.some.injEq, Part.ofLeaf] at h
    split at h <;> simp_all [Ast.token]
  | node e cs =>
    simp only [Ast.part, Option.bind_eq_some_iff] at h
    obtain ⟨ps, _, h⟩ := h
    exact absurd h Part.build_str

mutual
theorem Ast.part_vars (k : VarKind) : ∀ {a : Ast} {p : Part}, a.part = some p → a.vars k = p.vars k
  | .leaf e s, p, h => by
    simp only [Ast.part, Option.some.injEq, Part.ofLeaf] at h
    split at h <;> subst h <;> rfl
  | .node e cs, p, h => by
    simp only [Ast.part, Option.bind_eq_some_iff] at h
    obtain ⟨ps, h1, h2⟩ := h
    obtain ⟨h3, h4⟩ := Part.build_vars h2 k
    rw [Ast.vars]
    split
    · rename_i he
      obtain ⟨s, rfl, hq⟩ := h4 he
      rw [hq]
      cases cs with
      | nil => simp [partAll] at h1
      | cons c cs =>
        cases cs with
        | nil =>
          simp only [partAll, Option.map_some, Option.bind_eq_some_iff, Option.some.injEq,
            List.cons.injEq, and_true] at h1
          obtain ⟨p, h1, rfl⟩ := h1
          simp [Ast.part_str h1]
        | cons c' cs =>
          simp only [partAll, Option.bind_eq_some_iff, Option.map_eq_some_iff] at h1
          obtain ⟨p, _, qs, ⟨q, _, us, _, rfl⟩, h1⟩ := h1
          simp at h1
    · rename_i he
      rw [h3 he, Ast.partAll_vars k h1]
theorem Ast.partAll_vars (k : VarKind) : ∀ {as : List Ast} {ps : List Part}, partAll as = some ps →
    Ast.varsAll k as = ps.flatMap (Part.vars k)
  | [], ps, h => by cases h; rfl
  | a :: as, ps, h => by
    simp only [partAll, Option.bind_eq_some_iff, Option.map_eq_some_iff] at h
    obtain ⟨p, h1, qs, h2, rfl⟩ := h
    rw [Ast.varsAll, Ast.part_vars k h1, Ast.partAll_vars k h2, List.flatMap_cons]
end

end Cnars.Parser
