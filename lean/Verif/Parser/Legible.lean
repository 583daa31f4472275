import Verif.Narsese.Nearly
import Verif.Parser.Shown
import Verif.Parser.Simple

/-!
# Simple terms can be printed
-/

namespace Cnars.Parser
open Cnars Cnars.Props Cnars.Print

/-- An operation, a call of one, or a statement with such a predicate. -/
def Syn.operating : Syn → Bool
  | .op _ | .call .. | .callName .. => true
  | .stmt _ c p => (c = .instance || usual c) && p.operating
  | _ => false

/-- A compound. -/
def Syn.compound : Syn → Bool
  | .comp .. => true
  | _ => false

/-- A statement with such a predicate has a compound as its subject. -/
def Syn.printed : Syn → Bool
  | .stmt s c p => !usual c || !p.operating || s.compound
  | _ => true

theorem finishComp_comp (c : Connector) (ts : List Term) : ∃ i, Term.finishComp c ts = .comp c ts i := ⟨_, rfl⟩

theorem mkComp_comp {ord : Order} {c : Connector} {args : List Term} {b : Bool} {r : Term} (g : ∀ t ∈ args, Good t)
    (h : mkComp ord c args b = .ok r) : ∃ k us i, r = .comp k us i := by
  obtain ⟨ts, _, hm, h2⟩ := mkComp_inv h
  obtain ⟨_, c', us, _, _, _, _, _, rfl⟩ := mkCompF_inv (fun t ht => g t (hm t ht)) h2
  exact ⟨c', us, _, rfl⟩

/-- A list of terms, compounds with an ordered connector. -/
theorem ordered_printable {ord : Order} {c : Connector} (hc : c.isCommutative = false) {args : List Term} {b : Bool} {r : Term}
    (g : ∀ t ∈ args, Good t) (hp : ∀ t ∈ args, Printable t) (hne : args ≠ []) (h : mkComp ord c args b = .ok r) :
    Printable r := by
  rw [mkComp_ordered g hc, Res.ok.injEq] at h
  subst h
  refine .comp _ _ ?_ fun t ht => ?_
  · split
    · obtain ⟨t, ts, rfl⟩ := List.exists_cons_of_ne_nil hne
      have ht := hp t List.mem_cons_self
      unfold Cnars.unfold
      rw [List.flatMap_cons]
      refine List.append_ne_nil_of_left_ne_nil ?_ _
      split
      · split
        · cases ht; assumption
        · simp
      · simp
    · exact hne
  · split at ht
    · rcases Cnars.unfold_mem ht with h | ⟨u, hu, h⟩
      · exact hp t h
      · exact (hp u hu).comps t h
    · exact hp t ht

/-- The set of one term. -/
theorem set_printable {M : Mach} (hord : ∀ l, (M.ord l).Perm l) {k : Connector} (hk : k.isCommutative = true) {x : Syn}
    (hx : x.commutes = false ∨ x.bare ∧ ∃ n, x.Mingled k n) {e e' : Env} {r r' : Term} (hp : Poised M e x.mentions)
    (he : x.eval M e = (.ok r, e')) (hr : Printable r) (h : mkComp M.ord k [r] false = .ok r') : Printable r' := by
  have g : ∀ t ∈ [r], Good t := by simpa using (Syn.eval_names M x he).1
  obtain ⟨a, hm⟩ := eval_simple hord hk hx hp he
  obtain ⟨r'', h1, h2⟩ := mkComp_mingled (b := false) hord hk (args := [r]) (S := Mixed [r])
    (mixed_keyed g fun a b ha hb _ _ _ => by rw [List.mem_singleton.mp ha, List.mem_singleton.mp hb])
    (mixed_calm g fun k us i h hk' => by
      rw [List.mem_singleton] at h
      exact simple_hasVar hk' (hx.imp_right fun h => h.1) (h ▸ he))
    (by simp) (fun t ht => ⟨by rw [List.mem_singleton.mp ht]; exact hm, .inl ht⟩)
  rw [h1, Res.ok.injEq] at h
  subst h
  exact Nearly.printable h2 (mkComp_nearly hord hk g (by simpa using hr) h1)

/-- A compound of terms. -/
theorem comp_printable {M : Mach} (hord : ∀ l, (M.ord l).Perm l) {c : Connector} {ts : List Syn} {e e' : Env}
    {rs : List Term} {r : Term} (hs : (Syn.comp c ts).Simple) (hne : ts ≠ []) (hp : Poised M e (Syn.mentionsAll ts))
    (he : Syn.evalAll M ts e = (.ok rs, e')) (hr : ∀ t ∈ rs, Printable t) (h : mkComp M.ord c rs true = .ok r) :
    Printable r := by
  have g := (Syn.evalAll_names M ts he).1
  have hne' : rs ≠ [] := by
    have := (evalAll_forall M _ he).length_eq
    intro e
    rw [e] at this
    exact hne (List.eq_nil_of_length_eq_zero this)
  cases hc : c.isCommutative with
  | false => exact ordered_printable hc g hr hne' h
  | true =>
    obtain ⟨⟨n, hn⟩, ha⟩ := hs hc
    obtain ⟨a, hm⟩ := evalAll_mingled hord hc hn hp he
    obtain ⟨W, hacc⟩ := hp.all hord he
    obtain ⟨r', h1, h2⟩ := mkComp_mingled (b := true) hord hc (args := rs) (S := Mixed rs)
      (akin_keyed hacc.reach ha (YieldsAll.forall₂.mp (Syn.evalAll_seen hord _ hp he)))
      (mixed_calm g fun k us i h hk' => by
        obtain ⟨t, ht, e, e'', he⟩ := forall₂_mem_right (evalAll_forall M _ he) h
        exact simple_hasVar hk' ((hn t ht).imp_right fun h => h.1) he)
      hne' (fun t ht => ⟨hm t ht, .inl ht⟩)
    rw [h1, Res.ok.injEq] at h
    subst h
    exact Nearly.printable h2 (mkComp_nearly hord hc g hr h1)

/-- A statement of two terms. -/
theorem stmt_printable {s p : Term} {c : Copula} (hs : Printable s) (hp : Printable p)
    (ho : operational p = true → ∃ k us i, s = .comp k us i) : Printable (Term.mkStmt s c p) := by
  cases h : operational p with
  | false => exact .stmt _ _ h hs hp
  | true =>
    obtain ⟨k, us, i, rfl⟩ := ho h
    exact .opStmt _ _ _ _ h (fun t ht => hs.comps t ht) hp

theorem call_printable {M : Mach} {f r : Term} {ts : List Term} (hf : IsNamed f) (ho : operational f = true)
    (g : ∀ t ∈ ts, Good t) (hp : ∀ t ∈ ts, Printable t) (h : Action.newOperation M f ts = .ok r) : Printable r := by
  unfold Action.newOperation at h
  rw [mkComp_ordered g rfl] at h
  cases h
  refine .opStmt _ _ _ _ ho hp ?_
  obtain ⟨a, rfl | rfl⟩ := hf <;> exact .atom _ _

theorem named_operational {M : Mach} {s : List Char} {e e' : Env} {r : Term} (hp : Poised M e [.name s])
    (h : (Syn.name s).eval M e = (.ok r, e')) (hm : NoCaret s) (ho : OpNames e.world.atoms) : operational r = false := by
  obtain ⟨j, _, x, h1, h2, rfl⟩ := eval_taken hp h
  have ho' := Syn.eval_opNames (.name s) h (by simpa [Syn.mentions, Mention.text] using hm) ho
  have := ho' x (List.mem_of_getElem? h1)
  rw [h2, String.toList_ofList] at this
  have hx : x.isOp = false := by
    cases hx : x.isOp with
    | false => rfl
    | true => exact absurd (this.mp hx) hm
  rw [Named.term, hx]
  rfl

theorem operation_operational {M : Mach} {s : List Char} {e e' : Env} {r : Term} (hp : Poised M e [.op s])
    (h : Action.theOperation M s e = (.ok r, e')) (ho : OpNames e.world.atoms) : operational r = true := by
  obtain ⟨N, hM, hw, hok, hN⟩ := hp
  obtain ⟨_, _, _, h1, h2⟩ := named_ok h
  obtain ⟨w1, h3, _, _, j, h4, h5, _⟩ := step_operation hw.tidy.1 (n := String.ofList s)
    (hM _ hw (by simp only [List.length_singleton] at hN; omega)) (by
      rcases hok.1 s rfl with ⟨k1, k2⟩ | k
      · rw [k1, k2]
      · rw [(k _ (by simp)).1, (k _ (List.mem_cons_of_mem _ (List.mem_singleton_self _))).1])
  rw [h1, Res.ok.injEq] at h3
  subst h3
  obtain ⟨x, hx, hn⟩ := nameOf_some h5
  have hx' := (opNames_operation h1 ho x (List.mem_of_getElem? hx)).mpr (by rw [hn]; exact caret_head _)
  unfold lastAtom at h2
  simp only [h4, List.getLast?_append, List.getLast?_singleton, Option.some_or, hx, Res.ok.injEq, hx', if_true] at h2
  rw [← h2]
  rfl

theorem Poised.accts {M : Mach} (hord : ∀ l, (M.ord l).Perm l) {ts : List Syn} {ms : List Mention} {e e' : Env}
    {rs : List Term} (hp : Poised M e (Syn.mentionsAll ts ++ ms)) (h : Syn.evalAll M ts e = (.ok rs, e')) :
    Poised M e (Syn.mentionsAll ts) ∧ Poised M e' ms := by
  obtain ⟨N, hM, hw, hok, hN⟩ := hp
  obtain ⟨h1, h2⟩ := hok.append
  rw [List.length_append] at hN
  obtain ⟨ha, hd⟩ := Syn.evalAll_acct hord hM hw ts (live := []) (seen := []) h (Acct.start hw) h1 (by omega)
  exact ⟨⟨N, hM, hw, h1, by omega⟩, poised hM hw ha h2 (by omega)⟩

/-- Only operations are called. -/
def Syn.callsOp : Syn → Prop
  | .call f _ => ∃ s, f = .op s
  | _ => True

mutual
/-- What is made of a simple term can be printed, if the term is one that can. -/
theorem Syn.eval_printable {M : Mach} (hord : ∀ l, (M.ord l).Perm l) : ∀ (t : Syn) {e e' : Env} {r : Term},
    (∀ u ∈ t.subs, u.Simple) → (∀ u ∈ t.subs, u.printed = true) → t.Filled → (∀ u ∈ t.subs, u.callsOp) →
    (∀ m ∈ t.mentions, NoCaret m.text) → OpNames e.world.atoms → Poised M e t.mentions →
    t.eval M e = (.ok r, e') → Printable r ∧ (operational r = true → t.operating = true) ∧
      (t.compound = true → ∃ k us i, r = .comp k us i)
  | .name s, e, e', r, hs, hq, hf, hc, hm, ho, hp, h => by
    have := named_operational (by simpa [Syn.mentions] using hp) h (hm (.name s) (by simp [Syn.mentions])) ho
    refine ⟨?_, fun k => ?_, fun k => by cases k⟩
    · obtain ⟨a, rfl | rfl⟩ := (named_ok h).1 <;> exact .atom _ _
    · rw [this] at k; cases k
  | .op s, e, e', r, hs, hq, hf, hc, hm, ho, hp, h => by
    refine ⟨?_, fun k => rfl, fun k => by cases k⟩
    obtain ⟨a, rfl | rfl⟩ := (named_ok h).1 <;> exact .atom _ _
  | .interval s, e, e', r, hs, hq, hf, hc, hm, ho, hp, h => by
    rw [Syn.eval] at h
    obtain ⟨x, e1, h1, h⟩ := Act.bind_ok h
    obtain ⟨n, e2, h2, h⟩ := Act.bind_ok h
    obtain ⟨rfl, rfl⟩ := Act.pure_ok h
    exact ⟨.interval _ _, (fun h => by cases h), fun h => by cases h⟩
  | .var k s, e, e', r, hs, hq, hf, hc, hm, ho, hp, h => by
    rw [Syn.eval] at h
    obtain ⟨x, e1, h1, h⟩ := Act.bind_ok h
    obtain ⟨rfl, rfl⟩ := Act.pure_ok h
    exact ⟨.var _ _ _, (fun h => by cases h), fun h => by cases h⟩
  | .stmt s c p, e, e', r, hs, hq, hf, hc, hm, ho, hp, h => by
    rw [Syn.mentions] at hm hp
    rw [Syn.subs] at hs hq hc
    rw [Syn.Filled] at hf
    obtain ⟨hm1, hm2⟩ := List.forall_mem_append.mp hm
    obtain ⟨hs0, hs⟩ := List.forall_mem_cons.mp hs
    obtain ⟨hs1, hs2⟩ := List.forall_mem_append.mp hs
    obtain ⟨hq0, hq⟩ := List.forall_mem_cons.mp hq
    obtain ⟨_, hc⟩ := List.forall_mem_cons.mp hc
    obtain ⟨hq1, hq2⟩ := List.forall_mem_append.mp hq
    obtain ⟨hc1, hc2⟩ := List.forall_mem_append.mp hc
    rw [Syn.eval] at h
    obtain ⟨s', e1, h1, h⟩ := Act.bind_ok h
    obtain ⟨p', e2, h2, h⟩ := Act.bind_ok h
    obtain ⟨h3, _⟩ := makingTerm_ok h
    obtain ⟨hp1, _, hp2⟩ := hp.acct hord h1
    obtain ⟨a1, a2, a3⟩ := Syn.eval_printable hord s hs1 hq1 hf.1 hc1 hm1 ho hp1 h1
    obtain ⟨b1, b2, b3⟩ := Syn.eval_printable hord p hs2 hq2 hf.2 hc2 hm2 (Syn.eval_opNames s h1 hm1 ho) hp2 h2
    have g1 := (Syn.eval_names M s h1).1
    have g2 := (Syn.eval_names M p h2).1
    suffices Printable r ∧ (operational r = true → (c = .instance || usual c) = true ∧ operational p' = true) from
      ⟨this.1, fun k => by
        obtain ⟨k1, k2⟩ := this.2 k
        rw [Syn.operating, k1, b2 k2]; rfl, fun k => by cases k⟩
    unfold Action.newStatement at h3
    split at h3
    · obtain ⟨s'', k1, k2⟩ := Res.bind_eq_ok.mp h3
      cases k2
      refine ⟨stmt_printable (set_printable hord (by decide) (hs0.1 (by simp)) hp1 h1 a1 k1) b1 fun _ =>
        mkComp_comp (by simpa using g1) k1, fun k => ⟨by simp, k⟩⟩
    · obtain ⟨p'', k1, k2⟩ := Res.bind_eq_ok.mp h3
      cases k2
      obtain ⟨k, us, i, rfl⟩ := mkComp_comp (by simpa using g2) k1
      exact ⟨.stmt _ _ rfl a1 (set_printable hord (by decide) (hs0.2 (by simp)) hp2 h2 b1 k1), fun k => by cases k⟩
    · obtain ⟨s'', k1, k2⟩ := Res.bind_eq_ok.mp h3
      obtain ⟨p'', k3, k2⟩ := Res.bind_eq_ok.mp k2
      cases k2
      obtain ⟨k, us, i, rfl⟩ := mkComp_comp (by simpa using g2) k3
      exact ⟨.stmt _ _ rfl (set_printable hord (by decide) (hs0.1 (by simp)) hp1 h1 a1 k1)
        (set_printable hord (by decide) (hs0.2 (by simp)) hp2 h2 b1 k3), fun k => by cases k⟩
    · rename_i n1 n2 n3
      cases h3
      have hu : usual c = true := by
        cases c <;> first | rfl | exact absurd rfl n1 | exact absurd rfl n2 | exact absurd rfl n3
      refine ⟨stmt_printable a1 b1 fun k => a3 ?_, fun k => ⟨by simp [hu], k⟩⟩
      simpa [Syn.printed, hu, b2 k] using hq0
  | .comp c ts, e, e', r, hs, hq, hf, hc, hm, ho, hp, h => by
    rw [Syn.mentions] at hm hp
    rw [Syn.subs] at hs hq hc
    rw [Syn.Filled] at hf
    obtain ⟨hs0, hs⟩ := List.forall_mem_cons.mp hs
    obtain ⟨hq0, hq⟩ := List.forall_mem_cons.mp hq
    obtain ⟨_, hc⟩ := List.forall_mem_cons.mp hc
    rw [Syn.eval] at h
    obtain ⟨ts', e1, h1, h⟩ := Act.bind_ok h
    obtain ⟨h3, _⟩ := makingTerm_ok h
    obtain ⟨k, us, i, hr⟩ := mkComp_comp (Syn.evalAll_names M ts h1).1 h3
    exact ⟨comp_printable hord hs0 hf.1 hp h1 (Syn.evalAll_printable hord ts hs hq hf.2 hc hm ho hp h1) h3,
      fun k => (by rw [hr] at k; cases k), fun _ => ⟨k, us, i, hr⟩⟩
  | .call f ts, e, e', r, hs, hq, hf, hc, hm, ho, hp, h => by
    rw [Syn.mentions] at hm hp
    rw [Syn.subs] at hs hq hc
    rw [Syn.Filled] at hf
    obtain ⟨hm1, hm2⟩ := List.forall_mem_append.mp hm
    obtain ⟨_, hs⟩ := List.forall_mem_cons.mp hs
    obtain ⟨_, hs2⟩ := List.forall_mem_append.mp hs
    obtain ⟨_, hq⟩ := List.forall_mem_cons.mp hq
    obtain ⟨hc0, hc⟩ := List.forall_mem_cons.mp hc
    obtain ⟨_, hq2⟩ := List.forall_mem_append.mp hq
    obtain ⟨_, hc2⟩ := List.forall_mem_append.mp hc
    rw [Syn.eval] at h
    obtain ⟨f', e1, h1, h⟩ := Act.bind_ok h
    obtain ⟨ts', e2, h2, h⟩ := Act.bind_ok h
    obtain ⟨h3, _⟩ := makingTerm_ok h
    obtain ⟨hp1, _, hp2⟩ := hp.acct hord h1
    have q := Syn.evalAll_printable hord ts hs2 hq2 hf.2 hc2 hm2 (Syn.eval_opNames f h1 hm1 ho) hp2 h2
    obtain ⟨s, rfl⟩ := hc0
    exact ⟨call_printable (named_ok h1).1 (operation_operational (by simpa [Syn.mentions] using hp1) h1 ho) (Syn.evalAll_names M ts h2).1 q h3,
      fun _ => rfl, fun k => by cases k⟩
  | .callName s ts, e, e', r, hs, hq, hf, hc, hm, ho, hp, h => by
    rw [Syn.mentions] at hm hp
    rw [Syn.subs] at hs hq hc
    rw [Syn.Filled] at hf
    obtain ⟨hm1, hm2⟩ := List.forall_mem_append.mp hm
    obtain ⟨_, hs⟩ := List.forall_mem_cons.mp hs
    obtain ⟨_, hq⟩ := List.forall_mem_cons.mp hq
    obtain ⟨hc0, hc⟩ := List.forall_mem_cons.mp hc
    rw [Syn.eval] at h
    obtain ⟨ts', e1, h1, h⟩ := Act.bind_ok h
    obtain ⟨f', e2, h2, h⟩ := Act.bind_ok h
    obtain ⟨h3, _⟩ := makingTerm_ok h
    obtain ⟨hp1, hp2⟩ := hp.accts hord h1
    have q := Syn.evalAll_printable hord ts hs hq hf hc hm1 ho hp1 h1
    exact ⟨call_printable (named_ok h2).1 (operation_operational hp2 h2 (Syn.evalAll_opNames ts h1 hm1 ho))
      (Syn.evalAll_names M ts h1).1 q h3, fun _ => rfl, fun k => by cases k⟩
/-- The same for lists. -/
theorem Syn.evalAll_printable {M : Mach} (hord : ∀ l, (M.ord l).Perm l) : ∀ (ts : List Syn) {e e' : Env} {rs : List Term},
    (∀ u ∈ Syn.subsAll ts, u.Simple) → (∀ u ∈ Syn.subsAll ts, u.printed = true) → Syn.FilledAll ts → (∀ u ∈ Syn.subsAll ts, u.callsOp) →
    (∀ m ∈ Syn.mentionsAll ts, NoCaret m.text) → OpNames e.world.atoms → Poised M e (Syn.mentionsAll ts) →
    Syn.evalAll M ts e = (.ok rs, e') → ∀ r ∈ rs, Printable r
  | [], e, e', rs, hs, hq, hf, hc, hm, ho, hp, h => by
    rw [Syn.evalAll] at h
    obtain ⟨rfl, rfl⟩ := Act.pure_ok h
    simp
  | t :: ts, e, e', rs, hs, hq, hf, hc, hm, ho, hp, h => by
    rw [Syn.mentionsAll] at hm hp
    rw [Syn.subsAll] at hs hq hc
    rw [Syn.FilledAll] at hf
    obtain ⟨hm1, hm2⟩ := List.forall_mem_append.mp hm
    obtain ⟨hs1, hs2⟩ := List.forall_mem_append.mp hs
    obtain ⟨hq1, hq2⟩ := List.forall_mem_append.mp hq
    obtain ⟨hc1, hc2⟩ := List.forall_mem_append.mp hc
    rw [Syn.evalAll] at h
    obtain ⟨r, e1, h1, h⟩ := Act.bind_ok h
    obtain ⟨us, e2, h2, h⟩ := Act.bind_ok h
    obtain ⟨rfl, rfl⟩ := Act.pure_ok h
    obtain ⟨hp1, _, hp2⟩ := hp.acct hord h1
    exact List.forall_mem_cons.mpr ⟨(Syn.eval_printable hord t hs1 hq1 hf.1 hc1 hm1 ho hp1 h1).1,
      Syn.evalAll_printable hord ts hs2 hq2 hf.2 hc2 hm2 (Syn.eval_opNames t h1 hm1 ho) hp2 h2⟩
end

end Cnars.Parser
