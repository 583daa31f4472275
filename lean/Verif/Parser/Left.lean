import Verif.Parser.Shown
import Verif.Props.Handles

/-!
# What an action that throws leaves behind
-/

namespace Cnars.Parser
open Cnars Cnars.Props

theorem Act.bind_throw {α β : Type} {x : Act α} {f : α → Act β} {e e' : Env} {m : String}
    (h : (x >>= f) e = (.throw m, e')) :
    x e = (.throw m, e') ∨ ∃ a e1, x e = (.ok a, e1) ∧ f a e1 = (.throw m, e') := by
  change Act.bind x f e = _ at h
  unfold Act.bind at h
  split at h
  · rename_i a e1 hx; exact .inr ⟨a, e1, hx, h⟩
  · rename_i hx
    simp only [Prod.mk.injEq, Res.throw.injEq] at h
    obtain ⟨rfl, rfl⟩ := h
    exact .inl hx
  all_goals simp at h

theorem Ends.not_throw {α : Type} {Q : Env → Prop} {F : Prop} {r : Res α × Env} (h : Ends False Q F r)
    {m : String} {e : Env} (hr : r = (.throw m, e)) : False := by
  rw [hr] at h
  exact h.2

theorem Still.not_throw {α : Type} {x : Act α} (h : Still x) {e e' : Env} {m : String}
    (hx : x e = (.throw m, e')) : False := (h e).not_throw hx

theorem lift_throw {α : Type} {r : Res α} {e e' : Env} {m : String}
    (h : Act.lift r e = (.throw m, e')) : e' = e := by
  simp only [Act.lift, Prod.mk.injEq] at h
  exact h.2.symm

theorem toInt_quiet (x : ℚ) : Quiet (Action.toInt x) := by
  intro m h
  unfold Action.toInt at h
  simp only at h
  repeat' split at h
  all_goals cases h

mutual
/-- A term whose evaluation throws: some parts of it were evaluated, from left to right, and nothing
else was done. -/
theorem Syn.eval_left {M : Mach} (hord : ∀ l, (M.ord l).Perm l) : ∀ (t : Syn) {e e' : Env} {m : String},
    t.eval M e = (.throw m, e') →
    ∃ us rs, Syn.evalAll M us e = (.ok rs, e') ∧ Syn.mentionsAll us <+: t.mentions
  | .name s, e, e', m, h => by
    rw [Syn.eval] at h
    rcases Act.bind_throw h with h | ⟨_, _, _, h⟩
    · exact ((still_world fun _ => quiet_create _ _ _).not_throw h).elim
    · exact (still_lastTerm.not_throw h).elim
  | .op s, e, e', m, h => by
    rw [Syn.eval] at h
    exact ((still_theOperation M s).not_throw h).elim
  | .interval s, e, e', m, h => by
    rw [Syn.eval] at h
    refine ⟨[], [], ?_, by simp [Syn.mentionsAll]⟩
    rw [Syn.evalAll]
    rcases Act.bind_throw h with h | ⟨x, e1, h1, h⟩
    · rw [lift_throw h]; rfl
    · rcases Act.bind_throw h with h | ⟨x, e2, _, h⟩
      · exact ((still_lift (toInt_quiet _)).not_throw h).elim
      · cases h
  | .var k s, e, e', m, h => by
    rw [Syn.eval] at h
    rcases Act.bind_throw h with h | ⟨x, e1, h1, h⟩
    · cases h
    · cases h
  | .stmt s c p, e, e', m, h => by
    rw [Syn.eval] at h
    rw [Syn.mentions]
    rcases Act.bind_throw h with h | ⟨s', e1, h1, h⟩
    · obtain ⟨us, rs, k1, k2⟩ := Syn.eval_left hord s h
      exact ⟨us, rs, k1, k2.trans (List.prefix_append _ _)⟩
    · rcases Act.bind_throw h with h | ⟨p', e2, h2, h⟩
      · obtain ⟨us, rs, k1, k2⟩ := Syn.eval_left hord p h
        exact ⟨s :: us, s' :: rs, evalAll_cons h1 k1, by
          rw [Syn.mentionsAll]; exact (List.prefix_append_right_inj _).mpr k2⟩
      · exact ((still_makingTerm (quiet_nf (nf_newStatement hord (Syn.eval_names M s h1).1
          (Syn.eval_names M p h2).1))).not_throw h).elim
  | .comp c ts, e, e', m, h => by
    rw [Syn.eval] at h
    rw [Syn.mentions]
    rcases Act.bind_throw h with h | ⟨ts', e1, h1, h⟩
    · exact Syn.evalAll_left hord ts h
    · exact ((still_makingTerm (quiet_nf (nf_mkComp hord (Syn.evalAll_names M ts h1).1))).not_throw h).elim
  | .call f ts, e, e', m, h => by
    rw [Syn.eval] at h
    rw [Syn.mentions]
    rcases Act.bind_throw h with h | ⟨f', e1, h1, h⟩
    · obtain ⟨us, rs, k1, k2⟩ := Syn.eval_left hord f h
      exact ⟨us, rs, k1, k2.trans (List.prefix_append _ _)⟩
    · rcases Act.bind_throw h with h | ⟨ts', e2, h2, h⟩
      · obtain ⟨us, rs, k1, k2⟩ := Syn.evalAll_left hord ts h
        exact ⟨f :: us, f' :: rs, evalAll_cons h1 k1, by
          rw [Syn.mentionsAll]; exact (List.prefix_append_right_inj _).mpr k2⟩
      · obtain ⟨r, hr⟩ := newOperation_ok (M := M) (f := f') (Syn.evalAll_names M ts h2).1
        exact ((still_makingTerm (by rw [hr]; exact quiet_ok r)).not_throw h).elim
  | .callName s ts, e, e', m, h => by
    rw [Syn.eval] at h
    rw [Syn.mentions]
    rcases Act.bind_throw h with h | ⟨ts', e1, h1, h⟩
    · obtain ⟨us, rs, k1, k2⟩ := Syn.evalAll_left hord ts h
      exact ⟨us, rs, k1, k2.trans (List.prefix_append _ _)⟩
    · rcases Act.bind_throw h with h | ⟨f', e2, h2, h⟩
      · exact ((still_theOperation M s).not_throw h).elim
      · obtain ⟨r, hr⟩ := newOperation_ok (M := M) (f := f') (Syn.evalAll_names M ts h1).1
        exact ((still_makingTerm (by rw [hr]; exact quiet_ok r)).not_throw h).elim
/-- The same for lists. -/
theorem Syn.evalAll_left {M : Mach} (hord : ∀ l, (M.ord l).Perm l) :
    ∀ (ts : List Syn) {e e' : Env} {m : String}, Syn.evalAll M ts e = (.throw m, e') →
    ∃ us rs, Syn.evalAll M us e = (.ok rs, e') ∧ Syn.mentionsAll us <+: Syn.mentionsAll ts
  | [], e, e', m, h => by rw [Syn.evalAll] at h; cases h
  | t :: ts, e, e', m, h => by
    rw [Syn.evalAll] at h
    rw [Syn.mentionsAll]
    rcases Act.bind_throw h with h | ⟨r, e1, h1, h⟩
    · obtain ⟨us, rs, k1, k2⟩ := Syn.eval_left hord t h
      exact ⟨us, rs, k1, k2.trans (List.prefix_append _ _)⟩
    · rcases Act.bind_throw h with h | ⟨rs', e2, h2, h⟩
      · obtain ⟨us, rs, k1, k2⟩ := Syn.evalAll_left hord ts h
        exact ⟨t :: us, r :: rs, evalAll_cons h1 k1, by
          rw [Syn.mentionsAll]; exact (List.prefix_append_right_inj _).mpr k2⟩
      · cases h
end

theorem numbers_left (M : Mach) : ∀ (ss : List (List Char)) {e e' : Env} {m : String},
    numbers M ss e = (.throw m, e') → e' = e
  | [], e, e', m, h => by rw [numbers] at h; cases h
  | s :: ss, e, e', m, h => by
    rw [numbers] at h
    rcases Act.bind_throw h with h | ⟨x, e1, h1, h⟩
    · exact lift_throw h
    · obtain ⟨_, rfl⟩ := Act.lift_ok h1
      rcases Act.bind_throw h with h | ⟨xs, e2, _, h⟩
      · exact numbers_left M ss h
      · cases h

theorem Mark.eval_left (M : Mach) (k : Mark) {e e' : Env} {m : String} (h : k.eval M e = (.throw m, e')) :
    e' = e := by
  cases k with
  | tense n => rw [Mark.eval] at h; cases h
  | time s =>
    rw [Mark.eval] at h
    rcases Act.bind_throw h with h | ⟨x, e1, h1, h⟩
    · exact lift_throw h
    · rcases Act.bind_throw h with h | ⟨x, e2, _, h⟩
      · exact ((still_lift (toInt_quiet _)).not_throw h).elim
      · cases h
  | truth ss =>
    rw [Mark.eval] at h
    rcases Act.bind_throw h with h | ⟨xs, e1, h1, h⟩
    · exact numbers_left M ss h
    · rw [truth_eq] at h
      cases h

theorem evalMarks_left (M : Mach) : ∀ (ms : List Mark) {e e' : Env} {m : String},
    evalMarks M ms e = (.throw m, e') → e' = e
  | [], e, e', m, h => by rw [evalMarks] at h; cases h
  | k :: ms, e, e', m, h => by
    rw [evalMarks] at h
    rcases Act.bind_throw h with h2 | ⟨v, e1, h1, h2⟩
    · exact k.eval_left M h2
    · obtain rfl := Mark.eval_env M h1
      rcases Act.bind_throw h2 with h3 | ⟨vs, e2, _, h3⟩
      · exact evalMarks_left M ms h3
      · cases h3

theorem evalSentence_left {M : Mach} (hord : ∀ l, (M.ord l).Perm l) {p : Punct} {t : Syn} {ms : List Mark}
    {e e' : Env} {m : String} (h : evalSentence M p t ms e = (.throw m, e')) :
    ∃ us rs, Syn.evalAll M us e = (.ok rs, e') ∧ Syn.mentionsAll us <+: t.mentions := by
  unfold evalSentence at h
  rcases Act.bind_throw h with h | ⟨r, e1, h1, h⟩
  · exact Syn.eval_left hord t h
  · rcases Act.bind_throw h with h | ⟨vs, e2, h2, h⟩
    · obtain rfl := evalMarks_left M ms h
      exact ⟨[t], [r], evalAll_cons h1 (show Syn.evalAll M [] e' = _ from rfl), by
        simp [Syn.mentionsAll]⟩
    · exact ((sentenceAction_ends (P := False) (Q := fun _ => True) (F := True) M p r
        (evalMarks_all M h2) e2).not_throw h).elim

theorem evalTaskPart_left {M : Mach} (hord : ∀ l, (M.ord l).Perm l) {b : Option (List (List Char))} {p : Punct}
    {t : Syn} {ms : List Mark} {e e' : Env} {m : String} (h : evalTaskPart M b p t ms e = (.throw m, e')) :
    ∃ us rs, Syn.evalAll M us e = (.ok rs, e') ∧ Syn.mentionsAll us <+: t.mentions := by
  cases b with
  | none =>
    rw [evalTaskPart] at h
    rcases Act.bind_throw h with h9 | ⟨v, e1, h1, h9⟩
    · exact evalSentence_left hord h9
    · obtain ⟨r, e2, vs, s, _, _, rfl, _, rfl, h6, _⟩ := evalSentence_ok h1
      simp only [Action.task, Option.getD_some] at h9
      obtain ⟨b', hb⟩ := finishBudget_some M ⟨M.cfg.priority, M.cfg.durability, M.cfg.quality⟩ h6
      rw [hb] at h9
      cases h9
  | some ss =>
    rw [evalTaskPart] at h
    rcases Act.bind_throw h with h8 | ⟨xs, e0, h0, h8⟩
    · obtain rfl := numbers_left M ss h8
      exact ⟨[], [], rfl, by simp [Syn.mentionsAll]⟩
    · obtain ⟨rfl, _⟩ := numbers_env M h0
      simp only [budget_eq, Option.getD_some, pure_bind] at h8
      rcases Act.bind_throw h8 with h9 | ⟨v, e1, h1, h9⟩
      · exact evalSentence_left hord h9
      · obtain ⟨r, e2, vs, s, _, _, rfl, _, rfl, h6, _⟩ := evalSentence_ok h1
        simp only [Action.task, Option.getD_some] at h9
        obtain ⟨b', hb⟩ := finishBudget_some M (budgetFor M (some xs)) h6
        rw [hb] at h9
        cases h9

/-- A tree whose evaluation throws: some of its terms were made, from left to right, and nothing else was
done. -/
theorem evalTask_left {line : List WChar} {as : List Ast} (hn : IsNarsese line as) {M : Mach}
    (hord : ∀ l, (M.ord l).Perm l) {bad : Act Val} {e e' : Env} {m : String}
    (h : evalTask M bad as e = (.throw m, e')) :
    ∃ us rs, Syn.evalAll M us e = (.ok rs, e') ∧ Syn.mentionsAll us <+: Ast.mentionsAll as := by
  obtain ⟨b, p, t, ms, h1, h2⟩ := evalTask_part hn
  rw [h2] at h
  have hms : t.mentions = Ast.mentionsAll as := by
    rw [Ast.partAll_mentions h1]; simp [Part.mentions]
  rw [← hms]
  rcases Act.bind_throw h with h | ⟨v, e1, h3, h⟩
  · exact evalTaskPart_left hord h
  · obtain ⟨r, e2, vs, k, xs, _, _, rfl, _⟩ := evalTaskPart_ok h3
    cases h

end Cnars.Parser
