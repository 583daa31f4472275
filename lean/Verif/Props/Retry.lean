import Verif.Parser.Retry
import Verif.Props.Actions

/-!
# C49: after a line whose semantic actions threw
-/

namespace Cnars.Props
open Cnars.Parser

/-- How a parser object gets from one state to another while every line is rejected: by calls of `parse_task` that end with
an exception, and by whatever the rest of the program does to terms, dictionaries and time. -/
inductive OnlyRejected (M : Mach) (strict : Bool) : Session → Session → Prop where
  | here (s : Session) : OnlyRejected M strict s s
  | other {s s' : Session} (env : Env) : OnlyRejected M strict s s' → OnlyRejected M strict s { s' with env := env }
  | threw {fuel d : Nat} {s s' s'' : Session} {text : List WChar} {r : Parsed} {e : String} {bad : Act Val} :
      OnlyRejected M strict s s' → d < 3 → parseText strict fuel s'.buf text d = .ok r → r.ast = none →
      parseTask M bad strict fuel d s' text = (.throw e, s'') → OnlyRejected M strict s s''

theorem parseTask_threw {M : Mach} {bad : Act Val} {strict : Bool} {fuel d : Nat} {s s' : Session} {text : List WChar}
    {r : Parsed} {e : String} (h : parseText strict fuel s.buf text d = .ok r)
    (ht : parseTask M bad strict fuel d s text = (.throw e, s')) :
    ∃ a, s.ast.after r.ast = .tree a ∧ s'.ast = .tree a ∧ ∃ e1 e2, evalTask M bad a e1 = (.throw e, e2) := by
  unfold parseTask at ht
  rw [h] at ht
  simp only at ht
  split at ht
  · cases ht
  · cases ht
  · rename_i a ha
    split at ht <;> simp only [Prod.mk.injEq, reduceCtorEq, false_and] at ht
    rename_i e' env' he
    obtain ⟨h1, rfl⟩ := ht
    cases h1
    exact ⟨a, ha, ha, _, _, he⟩

theorem OnlyRejected.ast {M : Mach} {strict : Bool} {s s' : Session} (h : OnlyRejected M strict s s') {a : List Ast}
    (ha : s.ast = .tree a) : s'.ast = .tree a := by
  induction h with
  | here => exact ha
  | other env _ ih => exact ih ha
  | threw _ _ hp hr ht ih =>
    obtain ⟨a', h1, h2, _⟩ := parseTask_threw hp ht
    rw [hr] at h1
    rw [h2, ← h1]
    exact ih ha

/-- **C49 (partial).**  A line that was accepted and whose actions threw blocks the parser: however many lines are rejected
afterwards, and whatever the rest of the program does meanwhile, a call of `parse_task` with a line that is rejected never
returns, not even the null pointer; if it ends with an exception, that is the one of `std::stod`, about a numeral of the old
line.  Only an accepted line ends this (`C49_accepted_partial`).  Missing: that the state cannot be undefined instead (the
terms of the old line are made again, in another state). -/
theorem C49_blocked_partial {M : Mach} (hord : ∀ l, (M.ord l).Perm l) {bad0 bad : Act Val} {strict : Bool}
    {s0 s1 s : Session} (hs0 : Between M strict s0) {text0 text : List WChar} {d0 d fuel0 fuel : Nat} {e : String}
    {r0 r : Parsed} (hd0 : d0 < 3) (h0 : parseText strict fuel0 s0.buf text0 d0 = .ok r0) (ha0 : r0.ast ≠ none)
    (ht : parseTask M bad0 strict fuel0 d0 s0 text0 = (.throw e, s1)) (hs : OnlyRejected M strict s1 s)
    (h : parseText strict fuel s.buf text d = .ok r) (ha : r.ast = none) :
    (∀ t s', parseTask M bad strict fuel d s text ≠ (.ok t, s')) ∧
    ∀ e' s', parseTask M bad strict fuel d s text = (.throw e', s') → e' = "stod" ∧ s'.ast = s.ast ∧
      ∃ n x, Written (firstLine text0) n ∧ Denotes n x ∧ M.erange x = true := by
  obtain ⟨a, h1, h2, e1, e2, he⟩ := parseTask_threw h0 ht
  obtain ⟨a', ha'⟩ := Option.ne_none_iff_exists'.mp ha0
  rw [ha'] at h1
  simp only [Member.after, Member.tree.injEq] at h1
  subst h1
  have hn := C43_tree hs0.reached hd0 h0 ha'
  have hst := hs.ast h2
  have key := evalTask_retry hn hord he bad s.env.clearNames
  constructor
  · intro t s' hr
    unfold parseTask at hr
    simp only [h, ha, Member.after, hst] at hr
    split at hr <;> simp only [Prod.mk.injEq, reduceCtorEq, false_and] at hr
    rename_i t' env' hk
    exact key.1 _ _ hk
  · intro e' s' hr
    obtain ⟨b, h3, h4, -⟩ := parseTask_threw h hr
    unfold parseTask at hr
    simp only [h, ha, Member.after, hst] at hr
    split at hr <;> simp only [Prod.mk.injEq, reduceCtorEq, false_and] at hr
    rename_i m env' hk
    obtain ⟨h5, rfl⟩ := hr
    cases h5
    refine ⟨key.2 _ _ hk, hst.symm, ?_⟩
    obtain ⟨b, p, t, ms, hp, _⟩ := evalTask_part hn
    have := evalTask_ends hn hp (M := M) (bad := bad) (e := s.env.clearNames) (P := Unread M (taskNums b t ms))
      (Q := fun _ => True) (F := True)
      ((Syn.eval_throws hord t _).imp (·.mono (by simp +contextual [taskNums])) (fun _ h => h) id) id (fun _ _ => trivial)
    rw [hk] at this
    exact unread_range hn hp this.2

theorem thrown_at {α β : Type} {x : Res α × β} {e : String} (h : x.1 = .throw e) : x = (.throw e, x.2) := by
  rw [← h]

/-- The parser after `+1000…0.`, and after one more line, which is rejected. -/
def blocked : Session := (parseTask mach undefined true 6000 0 new throwText).2
/-- See above. -/
def blockedLong : Session := (parseTask mach undefined true 6000 0 blocked badText).2

theorem throwText_throws : (match (parseTask mach undefined true 6000 0 new throwText).1 with
    | .throw _ => true
    | _ => false) = true := by decide +kernel

theorem blocked_rejects : rejected? (parseText true 6000 blocked.buf badText 0) = true := by decide +kernel

theorem blocked_throws : (match (parseTask mach undefined true 6000 0 blocked badText).1 with
    | .throw _ => true
    | _ => false) = true := by decide +kernel

theorem blockedLong_rejects : rejected? (parseText true 6000 blockedLong.buf badText 0) = true := by decide +kernel

/-- They meet the hypotheses. -/
example : accepted? (parseText true 6000 new.buf throwText 0) = true ∧
    (∃ e, parseTask mach undefined true 6000 0 new throwText = (.throw e, blocked)) ∧
    OnlyRejected mach true blocked blockedLong ∧ rejected? (parseText true 6000 blockedLong.buf badText 0) = true := by
  refine ⟨by decide +kernel, ?_, ?_, blockedLong_rejects⟩
  · have h1 := throwText_throws
    split at h1
    · rename_i e he
      exact ⟨e, thrown_at he⟩
    · cases h1
  · have h2 := blocked_rejects
    have h3 := blocked_throws
    split at h3
    · rename_i e he
      unfold rejected? at h2
      split at h2
      · rename_i r hr
        exact .threw (.here _) (by omega) hr (Option.isNone_iff_eq_none.mp h2) (thrown_at he)
      · cases h2
    · cases h3

end Cnars.Props
