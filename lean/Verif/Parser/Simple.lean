import Verif.Parser.Akin

/-!
# Terms that are never stuck
-/

namespace Cnars.Parser
open Cnars Cnars.Props

/-! ## Simple terms -/

/-- A component of a commutative compound is none, or has no variables and nothing in it that is not `Mingled`;
the components are ordered by the comparator on every machine; the abbreviated copulas are between terms that are such components of the sets
they stand for. -/
def Syn.Simple : Syn → Prop
  | .comp c ts => c.isCommutative = true →
    (∃ n, ∀ x ∈ ts, x.commutes = false ∨ x.bare ∧ x.Mingled c n) ∧ Syn.Akin ts
  | .stmt s c p =>
    (c = .instance ∨ c = .instanceProperty → s.commutes = false ∨ s.bare ∧ ∃ n, s.Mingled .extensionalSet n) ∧
    (c = .property ∨ c = .instanceProperty → p.commutes = false ∨ p.bare ∧ ∃ n, p.Mingled .intensionalSet n)
  | _ => True

/-- What `Simple` asks of a component. -/
theorem simple_hasVar {M : Mach} {k : Connector} (hk : k.isCommutative = true) {x : Syn} (hx : x.commutes = false ∨ x.bare)
    {e e' : Env} {us : List Term} {i : Info} (h : x.eval M e = (.ok (.comp k us i), e')) : i.hasVar = false := by
  rcases hx with hx | hb
  · have := Syn.eval_category hx h
    simp [category, hk] at this
  · exact bare_hasVar (Syn.eval_names M x h).1 (Syn.eval_bare M x hb h)

theorem evalAll_mingled {M : Mach} (hord : ∀ l, (M.ord l).Perm l) {c : Connector} (hc : c.isCommutative = true)
    {n : List Char} {ts : List Syn} (h : ∀ x ∈ ts, x.commutes = false ∨ x.bare ∧ x.Mingled c n) {e e' : Env}
    {rs : List Term} (hp : Poised M e (Syn.mentionsAll ts)) (he : Syn.evalAll M ts e = (.ok rs, e')) :
    ∃ a, ∀ r ∈ rs, Cnars.Mingled c a r := by
  have hj : Joined c (String.ofList n) e.world e'.world rs := evalAll_joined hord (fun t ht e e' r hp he =>
    Syn.eval_mingled hord hc (t := t) ((h t ht).elim .other fun h => h.2) ((h t ht).imp_right fun h => h.1) hp he) hp he
  rcases hj.2 with h | ⟨a, h, _⟩
  · exact ⟨Term.mkAtom 0, h _⟩
  · exact ⟨a, h⟩

theorem eval_simple {M : Mach} (hord : ∀ l, (M.ord l).Perm l) {c : Connector} (hc : c.isCommutative = true)
    {x : Syn} (h : x.commutes = false ∨ x.bare ∧ ∃ n, x.Mingled c n) {e e' : Env} {r : Term}
    (hp : Poised M e x.mentions) (he : x.eval M e = (.ok r, e')) : ∃ a, Cnars.Mingled c a r := by
  have : ∃ n, x.Mingled c n := h.elim (fun h => ⟨[], .other h⟩) fun h => h.2
  obtain ⟨n, hn⟩ := this
  rcases (Syn.eval_mingled hord hc hn (h.imp_right fun h => h.1) hp he).2 with h | ⟨a, h, _⟩
  · exact ⟨Term.mkAtom 0, h _ r (by simp)⟩
  · exact ⟨a, h r (by simp)⟩

theorem not_stuck {M : Mach} (hord : ∀ l, (M.ord l).Perm l) {e' : Env} {u : Syn} (hu : u.Simple)
    (h : Stuck M e' u) : False := by
  cases h with
  | nested h1 hp h2 h3 =>
    obtain ⟨n, hn⟩ := (hu h1).1
    exact h3 (evalAll_mingled hord h1 hn hp h2)
  | «variable» h1 h2 h3 h4 h5 =>
    obtain ⟨t, ht, e, e'', he⟩ := forall₂_mem_right (evalAll_forall M _ h2) h3
    obtain ⟨n, hn⟩ := (hu h1).1
    rw [simple_hasVar h4 ((hn t ht).imp_right fun h => h.1) he] at h5
    cases h5
  | hash h1 hp h2 h3 h4 h5 h6 h7 h8 h9 =>
    obtain ⟨W, ha⟩ := hp.all hord h2
    exact h9 (akin_keyed ha.reach (hu h1).2 (YieldsAll.forall₂.mp (Syn.evalAll_seen hord _ hp h2)))
  | «instance» h1 hp h2 h3 =>
    rcases h3 with h3 | h3
    · rw [Syn.evalAll] at h2
      obtain ⟨r, e1, k1, h2⟩ := Act.bind_ok h2
      obtain ⟨rs, e2, k2, h2⟩ := Act.bind_ok h2
      obtain ⟨h4, rfl⟩ := Act.pure_ok h2
      obtain ⟨rfl, _⟩ := List.cons_eq_cons.mp h4
      rw [Syn.mentionsAll] at hp
      exact h3 (eval_simple hord (by decide) (hu.1 h1) (hp.acct hord k1).1 k1)
    · rcases evalAll_forall M _ h2 with _ | ⟨⟨e, e'', he⟩, _⟩
      rw [simple_hasVar (by decide) ((hu.1 h1).imp_right fun h => h.1) he] at h3
      cases h3
  | property h1 hp h2 h3 =>
    rcases h3 with h3 | h3
    · rw [Syn.evalAll] at h2
      obtain ⟨r, e1, k1, h2⟩ := Act.bind_ok h2
      obtain ⟨rs, e2, k2, h2⟩ := Act.bind_ok h2
      obtain ⟨h4, rfl⟩ := Act.pure_ok h2
      obtain ⟨_, rfl⟩ := List.cons_eq_cons.mp h4
      rw [Syn.mentionsAll] at hp
      obtain ⟨_, _, hp⟩ := hp.acct hord k1
      rw [Syn.evalAll] at k2
      obtain ⟨r', e3, k3, k2⟩ := Act.bind_ok k2
      obtain ⟨rs', e4, k4, k2⟩ := Act.bind_ok k2
      obtain ⟨h5, rfl⟩ := Act.pure_ok k2
      obtain ⟨rfl, _⟩ := List.cons_eq_cons.mp h5
      rw [Syn.mentionsAll] at hp
      exact h3 (eval_simple hord (by decide) (hu.2 h1) (hp.acct hord k3).1 k3)
    · rcases evalAll_forall M _ h2 with _ | ⟨_, _ | ⟨⟨e, e'', he⟩, _⟩⟩
      rw [simple_hasVar (by decide) ((hu.2 h1).imp_right fun h => h.1) he] at h3
      cases h3

end Cnars.Parser
