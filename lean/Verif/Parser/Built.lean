import Verif.Parser.TaskLemmas

/-!
# Terms made by the actions are made by constructors
-/

namespace Cnars.Parser
open Cnars

theorem lastTerm_constructed {e e' : Env} {t : Term} (h : lastTerm e = (.ok t, e')) :
    Constructed t := by
  simp only [lastTerm, Prod.mk.injEq] at h
  have h := h.1
  unfold lastAtom at h
  split at h
  · cases h
  · split at h
    · cases h
    · rename_i a _
      simp only [Res.ok.injEq] at h
      subst h
      split
      · exact .operation _
      · exact .atom _

theorem theOperation_constructed {M : Mach} {s : List Char} {e e' : Env} {t : Term}
    (h : Action.theOperation M s e = (.ok t, e')) : Constructed t := by
  obtain ⟨_, e1, _, h2⟩ := Act.bind_ok h
  exact lastTerm_constructed h2

theorem newStatement_constructed {M : Mach} (hord : ∀ l, (M.ord l).Perm l) {s p r : Term}
    {c : Copula} (hs : Constructed s) (hp : Constructed p)
    (h : Action.newStatement M s c p = .ok r) : Constructed r := by
  have set : ∀ {c : Connector} {t u : Term}, Constructed t → mkComp M.ord c [t] false = .ok u →
      Constructed u := by
    intro c t u ht hu
    refine .comp c false hord ?_ hu
    intro x hx
    simp only [List.mem_singleton] at hx
    exact hx ▸ ht
  unfold Action.newStatement at h
  split at h
  · obtain ⟨s', h1, h2⟩ := Res.bind_eq_ok.mp h
    exact .stmt _ _ (set hs h1) hp h2
  · obtain ⟨s', h1, h2⟩ := Res.bind_eq_ok.mp h
    exact .stmt _ _ hs (set hp h1) h2
  · obtain ⟨s', h1, h3⟩ := Res.bind_eq_ok.mp h
    obtain ⟨p', h2, h4⟩ := Res.bind_eq_ok.mp h3
    exact .stmt _ _ (set hs h1) (set hp h2) h4
  · exact .stmt _ _ hs hp h

theorem newOperation_constructed {M : Mach} (hord : ∀ l, (M.ord l).Perm l) {f r : Term}
    {ts : List Term} (hf : Constructed f) (ht : ∀ t ∈ ts, Constructed t)
    (h : Action.newOperation M f ts = .ok r) : Constructed r := by
  obtain ⟨s, h1, h2⟩ := Res.bind_eq_ok.mp h
  exact .stmt _ _ (.comp _ _ hord ht h1) hf h2

mutual
/-- Evaluation makes constructed terms. -/
theorem Syn.eval_constructed {M : Mach} (hord : ∀ l, (M.ord l).Perm l) :
    ∀ (s : Syn) {e e' : Env} {t : Term}, s.eval M e = (.ok t, e') → Constructed t
  | .name s, e, e', t, h => by
    rw [Syn.eval] at h
    obtain ⟨_, e1, _, h2⟩ := Act.bind_ok h
    exact lastTerm_constructed h2
  | .op s, e, e', t, h => by
    rw [Syn.eval] at h
    exact theOperation_constructed h
  | .interval s, e, e', t, h => by
    rw [Syn.eval] at h
    obtain ⟨_, e1, _, h2⟩ := Act.bind_ok h
    obtain ⟨n, e2, _, h3⟩ := Act.bind_ok h2
    rw [← (Act.pure_ok h3).1]
    exact .interval _
  | .var k s, e, e', t, h => by
    rw [Syn.eval] at h
    obtain ⟨_, e1, _, h2⟩ := Act.bind_ok h
    rw [← (Act.pure_ok h2).1]
    exact .var ..
  | .stmt s c p, e, e', t, h => by
    rw [Syn.eval] at h
    obtain ⟨s', e1, h1, h2⟩ := Act.bind_ok h
    obtain ⟨p', e2, h3, h4⟩ := Act.bind_ok h2
    exact newStatement_constructed hord (Syn.eval_constructed hord s h1)
      (Syn.eval_constructed hord p h3) (makingTerm_ok h4).1
  | .comp c ts, e, e', t, h => by
    rw [Syn.eval] at h
    obtain ⟨ts', e1, h1, h2⟩ := Act.bind_ok h
    exact .comp c true hord (Syn.evalAll_constructed hord ts h1) (makingTerm_ok h2).1
  | .call f ts, e, e', t, h => by
    rw [Syn.eval] at h
    obtain ⟨f', e1, h1, h2⟩ := Act.bind_ok h
    obtain ⟨ts', e2, h3, h4⟩ := Act.bind_ok h2
    exact newOperation_constructed hord (Syn.eval_constructed hord f h1)
      (Syn.evalAll_constructed hord ts h3) (makingTerm_ok h4).1
  | .callName s ts, e, e', t, h => by
    rw [Syn.eval] at h
    obtain ⟨ts', e1, h1, h2⟩ := Act.bind_ok h
    obtain ⟨f', e2, h3, h4⟩ := Act.bind_ok h2
    exact newOperation_constructed hord (theOperation_constructed h3)
      (Syn.evalAll_constructed hord ts h1) (makingTerm_ok h4).1
theorem Syn.evalAll_constructed {M : Mach} (hord : ∀ l, (M.ord l).Perm l) :
    ∀ (ss : List Syn) {e e' : Env} {ts : List Term}, Syn.evalAll M ss e = (.ok ts, e') →
      ∀ t ∈ ts, Constructed t
  | [], e, e', ts, h => by
    rw [Syn.evalAll] at h
    rw [← (Act.pure_ok h).1]
    intro t ht
    cases ht
  | s :: ss, e, e', ts, h => by
    rw [Syn.evalAll] at h
    obtain ⟨t, e1, h1, h2⟩ := Act.bind_ok h
    obtain ⟨us, e2, h3, h4⟩ := Act.bind_ok h2
    rw [← (Act.pure_ok h4).1]
    intro x hx
    rcases List.mem_cons.mp hx with rfl | hx
    · exact Syn.eval_constructed hord s h1
    · exact Syn.evalAll_constructed hord ss h3 x hx
end

end Cnars.Parser
