import Verif.Parser.Syn

/-!
# The variables of a parsed term
-/

namespace Cnars.Parser
open Cnars

/-! ## Leaves -/

mutual
/-- The leaves of a term, from left to right. -/
def leafTerms : Term → List Term
  | .stmt s _ p _ => leafTerms s ++ leafTerms p
  | .comp _ ts _ => leafTermsAll ts
  | .atom a i => [.atom a i]
  | .interval n i => [.interval n i]
  | .var k n i => [.var k n i]
/-- Of a list. -/
def leafTermsAll : List Term → List Term
  | [] => []
  | t :: ts => leafTerms t ++ leafTermsAll ts
end

theorem mem_leafTermsAll {l : Term} : ∀ {ts : List Term},
    l ∈ leafTermsAll ts ↔ ∃ t ∈ ts, l ∈ leafTerms t
  | [] => by simp [leafTermsAll]
  | t :: ts => by simp [leafTermsAll, mem_leafTermsAll (ts := ts)]

theorem mkComp_leaves {ord : Order} {c : Connector} {args : List Term} {b : Bool} {r : Term}
    (hg : ∀ t ∈ args, Good t) (h : mkComp ord c args b = .ok r) :
    Good r ∧ ∀ l ∈ leafTerms r, ∃ t ∈ args, l ∈ leafTerms t := by
  obtain ⟨ts, _, hm, h2⟩ := mkComp_inv h
  let P : Term → Prop := fun t => Good t ∧ ∀ l ∈ leafTerms t, ∃ t ∈ args, l ∈ leafTerms t
  have hd : DownClosed P := by
    intro t ht u hu
    refine ⟨Good.downClosed t ht.1 u hu, fun l hl => ht.2 l ?_⟩
    cases t with
    | comp c us i =>
      rw [leafTerms, mem_leafTermsAll]
      exact ⟨u, hu, hl⟩
    | _ => simp [Term.comps] at hu
  have key : ∀ n c vs b t, (∀ v ∈ vs, P v) → mkCompF ord n c vs b = .ok t → P t := by
    intro n
    induction n with
    | zero => intro c vs b t _ h; simp [mkCompF] at h
    | succ n ih =>
      intro c vs b t hv h
      have g := mkCompF_good (fun v hv' => (hv v hv').1) h
      obtain ⟨m, c', us, hn, hp, _, _, _, rfl⟩ := mkCompF_inv (fun v hv' => (hv v hv').1) h
      obtain rfl : n = m := by omega
      obtain ⟨hus, _⟩ := prepocess_closed hd (fun c vs t hv h => ih c vs false t hv h) hv hp
      refine ⟨g, fun l hl => ?_⟩
      rw [Term.finishComp, leafTerms, mem_leafTermsAll] at hl
      obtain ⟨u, hu, hl⟩ := hl
      exact (hus u hu).2 l hl
  exact key _ _ _ _ _ (fun t ht => ⟨hg t (hm t ht), fun l hl => ⟨t, hm t ht, hl⟩⟩) h2

theorem newStmt_leaves {s p r : Term} {c : Copula} {b : Bool} (hs : Good s) (hp : Good p)
    (h : newStmt s c p b = .ok r) :
    Good r ∧ ∀ l ∈ leafTerms r, l ∈ leafTerms s ∨ l ∈ leafTerms p := by
  obtain rfl := Good.newStmt hs hp h
  exact ⟨.stmt c hs hp, fun l hl => by simpa [Term.mkStmt, leafTerms] using hl⟩

theorem newStatement_leaves {M : Mach} {s p r : Term} {c : Copula} (hs : Good s) (hp : Good p)
    (h : Action.newStatement M s c p = .ok r) :
    Good r ∧ ∀ l ∈ leafTerms r, l ∈ leafTerms s ∨ l ∈ leafTerms p := by
  have set : ∀ {k : Connector} {t t' : Term}, Good t → mkComp M.ord k [t] false = .ok t' →
      Good t' ∧ ∀ l ∈ leafTerms t', l ∈ leafTerms t := fun hg h => by
    obtain ⟨h1, h2⟩ := mkComp_leaves (by simpa using hg) h
    exact ⟨h1, fun l hl => by simpa using h2 l hl⟩
  unfold Action.newStatement at h
  split at h
  · simp only [Res.bind_eq_ok] at h
    obtain ⟨s', h1, h2⟩ := h
    obtain ⟨g, hl⟩ := set hs h1
    obtain ⟨g', hl'⟩ := newStmt_leaves g hp h2
    exact ⟨g', fun l h => (hl' l h).imp (hl l) id⟩
  · simp only [Res.bind_eq_ok] at h
    obtain ⟨p', h1, h2⟩ := h
    obtain ⟨g, hl⟩ := set hp h1
    obtain ⟨g', hl'⟩ := newStmt_leaves hs g h2
    exact ⟨g', fun l h => (hl' l h).imp id (hl l)⟩
  · simp only [Res.bind_eq_ok] at h
    obtain ⟨s', h1, p', h3, h2⟩ := h
    obtain ⟨g, hl⟩ := set hs h1
    obtain ⟨g1, hl1⟩ := set hp h3
    obtain ⟨g', hl'⟩ := newStmt_leaves g g1 h2
    exact ⟨g', fun l h => (hl' l h).imp (hl l) (hl1 l)⟩
  · exact newStmt_leaves hs hp h

theorem newOperation_leaves {M : Mach} {f r : Term} {ts : List Term} (hf : Good f)
    (hts : ∀ t ∈ ts, Good t) (h : Action.newOperation M f ts = .ok r) :
    Good r ∧ ∀ l ∈ leafTerms r, l ∈ leafTerms f ∨ ∃ t ∈ ts, l ∈ leafTerms t := by
  unfold Action.newOperation at h
  simp only [Res.bind_eq_ok] at h
  obtain ⟨s, h1, h2⟩ := h
  obtain ⟨g, hl⟩ := mkComp_leaves hts h1
  obtain ⟨g', hl'⟩ := newStmt_leaves g hf h2
  exact ⟨g', fun l h => (hl' l h).symm.imp id (hl l)⟩

/-! ## Numbering -/

/-- The list with the new names appended, each once. -/
def seen (l occ : List String) : List String :=
  occ.foldl (fun l n => if n ∈ l then l else l ++ [n]) l

theorem seen_append (l a b : List String) : seen l (a ++ b) = seen (seen l a) b := by
  simp [seen]

theorem seen_prefix (l occ : List String) : l <+: seen l occ := by
  induction occ generalizing l with
  | nil => exact List.prefix_rfl
  | cons n occ ih =>
    rw [seen, List.foldl_cons]
    refine List.IsPrefix.trans ?_ (ih _)
    split
    · exact List.prefix_rfl
    · exact List.prefix_append _ _

theorem mem_seen {n : String} {l occ : List String} : n ∈ seen l occ ↔ n ∈ l ∨ n ∈ occ := by
  induction occ generalizing l with
  | nil => simp [seen]
  | cons m occ ih =>
    rw [seen, List.foldl_cons]
    refine Iff.trans ih ?_
    split
    · rename_i h
      constructor
      · rintro (h | h) <;> simp [h]
      · rintro (h' | h')
        · exact .inl h'
        · rcases List.mem_cons.mp h' with rfl | h'
          · exact .inl h
          · exact .inr h'
    · simp [or_assoc]

theorem idxOf_prefix {l l' : List String} (h : l <+: l') {n : String} (hn : n ∈ l) :
    l'.idxOf n = l.idxOf n := by
  obtain ⟨r, rfl⟩ := h
  exact List.idxOf_append_of_mem hn

mutual
/-- The names of the variables of a kind, with their sign, in the order of the text. -/
def Syn.vars (k : VarKind) : Syn → List String
  | .var k' s => if k' = k then [k.symbol ++ String.ofList s] else []
  | .stmt s _ p => Syn.vars k s ++ Syn.vars k p
  | .comp _ ts => Syn.varsAll k ts
  | .call f ts => Syn.vars k f ++ Syn.varsAll k ts
  | .callName _ ts => Syn.varsAll k ts
  | .name _ => []
  | .op _ => []
  | .interval _ => []
/-- Of a list. -/
def Syn.varsAll (k : VarKind) : List Syn → List String
  | [] => []
  | t :: ts => Syn.vars k t ++ Syn.varsAll k ts
end

/-- Every variable in the term has the number of its name. -/
def Numbered (N : VarKind → List String) (t : Term) : Prop :=
  ∀ l ∈ leafTerms t, ∀ k n i, l = .var k n i → n ∈ N k ∧ l = Term.mkVar k n ((N k).idxOf n)

theorem Numbered.mono {N N' : VarKind → List String} {t : Term} (h : Numbered N t)
    (hN : ∀ k, N k <+: N' k) : Numbered N' t := by
  intro l hl k n i e
  obtain ⟨h1, h2⟩ := h l hl k n i e
  exact ⟨(hN k).subset h1, by rw [idxOf_prefix (hN k) h1]; exact h2⟩

/-- A computation that leaves the names alone. -/
def Act.KeepsNames {α : Type} (a : Act α) : Prop := ∀ e r e', a e = (r, e') → e'.names = e.names

theorem Act.keeps_lift {α : Type} (r : Res α) : (Act.lift r).KeepsNames := by
  intro e _ e' h
  simp only [Act.lift, Prod.mk.injEq] at h
  rw [h.2]

theorem Act.keeps_onWorld (f : World → Res World) : (Act.onWorld f).KeepsNames := by
  intro e _ e' h
  unfold Act.onWorld at h
  split at h <;> simp only [Prod.mk.injEq] at h <;> rw [← h.2]

theorem makingTerm_ok {args : List Term} {r : Res Term} {e e' : Env} {t : Term}
    (h : makingTerm args r e = (.ok t, e')) : r = .ok t ∧ e'.names = e.names ∧
      e'.globals = e.globals := by
  obtain ⟨t', e1, h1, h⟩ := Act.bind_ok h
  obtain ⟨u, e2, h2, h⟩ := Act.bind_ok h
  change (Res.ok t', e2) = _ at h
  simp only [Prod.mk.injEq, Res.ok.injEq] at h
  obtain ⟨rfl, rfl⟩ := h
  simp only [Act.lift, Prod.mk.injEq] at h1
  obtain ⟨rfl, rfl⟩ := h1
  refine ⟨rfl, Act.keeps_onWorld _ _ _ _ h2, ?_⟩
  unfold settle Act.onWorld at h2
  split at h2 <;> simp only [Prod.mk.injEq] at h2 <;> rw [← h2.2]

theorem onWorld_ok {f : World → Res World} {e e' : Env} {u : Unit}
    (h : Act.onWorld f e = (.ok u, e')) : f e.world = .ok e'.world ∧ e'.names = e.names ∧
      e'.globals = e.globals := by
  unfold Act.onWorld at h
  cases hw : f e.world with
  | ok w =>
    rw [hw] at h
    simp only [Prod.mk.injEq] at h
    rw [← h.2]
    exact ⟨rfl, rfl, rfl⟩
  | _ => rw [hw] at h; simp at h

/-- The two kinds of named terms. -/
def IsNamed (t : Term) : Prop := ∃ a, t = Term.mkOperation a ∨ t = Term.mkAtom a

theorem lastAtom_ok {w : World} {t : Term} (h : lastAtom w = .ok t) : IsNamed t := by
  unfold lastAtom at h
  split at h
  · simp at h
  · split at h
    · simp at h
    · rename_i a _
      simp only [Res.ok.injEq] at h
      refine ⟨a.addr, ?_⟩
      rw [← h]
      split
      · exact .inl rfl
      · exact .inr rfl

theorem named_ok {f : World → Res World} {e e' : Env} {t : Term}
    (h : ((do
      Act.onWorld f
      lastTerm) : Act Term) e = (.ok t, e')) :
    IsNamed t ∧ e'.names = e.names ∧ e'.globals = e.globals ∧ f e.world = .ok e'.world ∧
      lastAtom e'.world = .ok t := by
  obtain ⟨u, e1, h1, h2⟩ := Act.bind_ok h
  simp only [lastTerm, Prod.mk.injEq] at h2
  obtain ⟨h2, rfl⟩ := h2
  obtain ⟨h3, h4, h5⟩ := onWorld_ok h1
  exact ⟨lastAtom_ok h2, h4, h5, h3, h2⟩

theorem IsNamed.good {t : Term} (h : IsNamed t) : Good t := by
  obtain ⟨a, rfl | rfl⟩ := h
  · exact .operation a
  · exact .atom a

theorem IsNamed.numbered {t : Term} (h : IsNamed t) (N : VarKind → List String) :
    Numbered N t := by
  obtain ⟨a, rfl | rfl⟩ := h <;>
  · intro l hl k n i e
    simp only [Term.mkOperation, Term.mkAtom, leafTerms, List.mem_singleton] at hl
    rw [hl] at e
    cases e

theorem seen_nil (l : List String) : seen l [] = l := rfl

mutual
/-- The term is good, its variables are numbered, and exactly its names have been added. -/
theorem Syn.eval_names (M : Mach) : ∀ (t : Syn) {e e' : Env} {r : Term},
    Syn.eval M t e = (.ok r, e') →
    Good r ∧ (∀ k, e'.names k = seen (e.names k) (t.vars k)) ∧ Numbered e'.names r
  | .name s, e, e', r, h => by
    obtain ⟨h1, h2, _⟩ := named_ok h
    exact ⟨h1.good, fun k => by rw [h2, Syn.vars, seen_nil], h1.numbered _⟩
  | .op s, e, e', r, h => by
    obtain ⟨h1, h2, _⟩ := named_ok h
    exact ⟨h1.good, fun k => by rw [h2, Syn.vars, seen_nil], h1.numbered _⟩
  | .interval s, e, e', r, h => by
    rw [Syn.eval] at h
    obtain ⟨x, e1, h1, h⟩ := Act.bind_ok h
    obtain ⟨n, e2, h2, h⟩ := Act.bind_ok h
    change (Res.ok _, e2) = _ at h
    simp only [Prod.mk.injEq, Res.ok.injEq, Act.lift] at h h1 h2
    obtain ⟨rfl, rfl⟩ := h
    obtain ⟨_, rfl⟩ := h1
    obtain ⟨_, rfl⟩ := h2
    refine ⟨.interval n, fun k => by rw [Syn.vars, seen_nil], ?_⟩
    intro l hl k m i he
    simp only [Term.mkInterval, leafTerms, List.mem_singleton] at hl
    rw [hl] at he
    cases he
  | .var k s, e, e', r, h => by
    rw [Syn.eval] at h
    obtain ⟨i, e1, h1, h⟩ := Act.bind_ok h
    change (Res.ok _, e1) = _ at h
    simp only [Prod.mk.injEq, Res.ok.injEq, Action.number] at h h1
    obtain ⟨rfl, rfl⟩ := h
    obtain ⟨rfl, rfl⟩ := h1
    refine ⟨.var _ _ _, fun k' => ?_, ?_⟩
    · rw [Syn.vars]
      by_cases hk : k = k'
      · subst hk
        simp [seen]
      · have : ¬ k' = k := fun h => hk h.symm
        simp [hk, this, seen]
    · intro l hl k' m i he
      simp only [Term.mkVar, leafTerms, List.mem_singleton] at hl
      rw [hl] at he
      simp only [Term.var.injEq] at he
      obtain ⟨rfl, rfl, _⟩ := he
      refine ⟨?_, ?_⟩
      · simp only [if_true]
        split
        · assumption
        · simp
      · rw [hl]
        simp [Term.mkVar]
  | .stmt s c p, e, e', r, h => by
    rw [Syn.eval] at h
    obtain ⟨s', e1, h1, h⟩ := Act.bind_ok h
    obtain ⟨p', e2, h2, h⟩ := Act.bind_ok h
    obtain ⟨g1, n1, m1⟩ := Syn.eval_names M s h1
    obtain ⟨g2, n2, m2⟩ := Syn.eval_names M p h2
    obtain ⟨h3, h4, _⟩ := makingTerm_ok h
    obtain ⟨g, hl⟩ := newStatement_leaves g1 g2 h3
    refine ⟨g, fun k => by rw [h4, n2, n1, Syn.vars, seen_append], ?_⟩
    rw [h4]
    intro l hl'
    rcases hl l hl' with hl | hl
    · exact m1.mono (fun k => by rw [n2]; exact seen_prefix _ _) l hl
    · exact m2 l hl
  | .comp c ts, e, e', r, h => by
    rw [Syn.eval] at h
    obtain ⟨ts', e1, h1, h⟩ := Act.bind_ok h
    obtain ⟨g1, n1, m1⟩ := Syn.evalAll_names M ts h1
    obtain ⟨h3, h4, _⟩ := makingTerm_ok h
    obtain ⟨g, hl⟩ := mkComp_leaves g1 h3
    refine ⟨g, fun k => by rw [h4, n1, Syn.vars], ?_⟩
    rw [h4]
    intro l hl'
    obtain ⟨t, ht, hl⟩ := hl l hl'
    exact m1 t ht l hl
  | .call f ts, e, e', r, h => by
    rw [Syn.eval] at h
    obtain ⟨f', e1, h1, h⟩ := Act.bind_ok h
    obtain ⟨ts', e2, h2, h⟩ := Act.bind_ok h
    obtain ⟨g1, n1, m1⟩ := Syn.eval_names M f h1
    obtain ⟨g2, n2, m2⟩ := Syn.evalAll_names M ts h2
    obtain ⟨h3, h4, _⟩ := makingTerm_ok h
    obtain ⟨g, hl⟩ := newOperation_leaves g1 g2 h3
    refine ⟨g, fun k => by rw [h4, n2, n1, Syn.vars, seen_append], ?_⟩
    rw [h4]
    intro l hl'
    rcases hl l hl' with hl | ⟨t, ht, hl⟩
    · exact m1.mono (fun k => by rw [n2]; exact seen_prefix _ _) l hl
    · exact m2 t ht l hl
  | .callName s ts, e, e', r, h => by
    rw [Syn.eval] at h
    obtain ⟨ts', e1, h1, h⟩ := Act.bind_ok h
    obtain ⟨f', e2, h2, h⟩ := Act.bind_ok h
    obtain ⟨g1, n1, m1⟩ := Syn.evalAll_names M ts h1
    obtain ⟨h5, h6, _⟩ := named_ok h2
    obtain ⟨h3, h4, _⟩ := makingTerm_ok h
    obtain ⟨g, hl⟩ := newOperation_leaves h5.good g1 h3
    refine ⟨g, fun k => by rw [h4, h6, n1, Syn.vars], ?_⟩
    rw [h4]
    intro l hl'
    rcases hl l hl' with hl | ⟨t, ht, hl⟩
    · exact h5.numbered _ l hl
    · rw [h6]
      exact m1 t ht l hl
/-- The same for lists. -/
theorem Syn.evalAll_names (M : Mach) : ∀ (ts : List Syn) {e e' : Env} {rs : List Term},
    Syn.evalAll M ts e = (.ok rs, e') →
    (∀ r ∈ rs, Good r) ∧ (∀ k, e'.names k = seen (e.names k) (Syn.varsAll k ts)) ∧
      ∀ r ∈ rs, Numbered e'.names r
  | [], e, e', rs, h => by
    rw [Syn.evalAll] at h
    change (Res.ok [], e) = _ at h
    simp only [Prod.mk.injEq, Res.ok.injEq] at h
    obtain ⟨rfl, rfl⟩ := h
    exact ⟨by simp, fun k => by rw [Syn.varsAll, seen_nil], by simp⟩
  | t :: ts, e, e', rs, h => by
    rw [Syn.evalAll] at h
    obtain ⟨r, e1, h1, h⟩ := Act.bind_ok h
    obtain ⟨us, e2, h2, h⟩ := Act.bind_ok h
    change (Res.ok (r :: us), e2) = _ at h
    simp only [Prod.mk.injEq, Res.ok.injEq] at h
    obtain ⟨rfl, rfl⟩ := h
    obtain ⟨g1, n1, m1⟩ := Syn.eval_names M t h1
    obtain ⟨g2, n2, m2⟩ := Syn.evalAll_names M ts h2
    refine ⟨?_, fun k => by rw [n2, n1, Syn.varsAll, seen_append], ?_⟩
    · intro x hx
      rcases List.mem_cons.mp hx with rfl | hx
      · exact g1
      · exact g2 x hx
    · intro x hx
      rcases List.mem_cons.mp hx with rfl | hx
      · exact m1.mono fun k => by rw [n2]; exact seen_prefix _ _
      · exact m2 x hx
end

/-- The names seen are the distinct names in the order of first occurrence. -/
theorem seen_eq (l occ : List String) : seen l occ = l ++ (occ.filter (· ∉ l)).eraseDups := by
  induction occ generalizing l with
  | nil => simp [seen]
  | cons n occ ih =>
    rw [seen, List.foldl_cons]
    refine Eq.trans (ih _) ?_
    by_cases h : n ∈ l
    · simp [h]
    · simp only [h, if_false, not_false_eq_true, decide_true, List.filter_cons_of_pos,
        List.eraseDups_cons, List.append_assoc, List.singleton_append, List.filter_filter]
      congr 4
      funext x
      by_cases hx : x = n <;> simp [hx, h]

end Cnars.Parser
