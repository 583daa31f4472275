import Verif.Narsese.Keyed

/-!
Helper lemmas: a commutative connector inside itself.
-/

namespace Cnars
open Term

/-- All commutative compounds that are reached from the term through commutative compounds have the connector `c`,
and at least one component. -/
inductive Within (c : Connector) : Term → Prop where
  | other {t : Term} : category t = none → Within c t
  | comp {us : List Term} {i : Info} : us ≠ [] → (∀ u ∈ us, Within c u) → Within c (.comp c us i)

/-- A set of terms whose nested components are members, too. -/
def Deep (c : Connector) (S : Term → Prop) : Prop :=
  ∀ us i, S (.comp c us i) → ∀ u ∈ us, S u

theorem Within.category {c : Connector} {t : Term} (h : Within c t) :
    Cnars.category t = none ∨ Cnars.category t = some c ∧ ∃ us i, t = .comp c us i ∧ us ≠ [] ∧ ∀ u ∈ us, Within c u := by
  cases h with
  | other h => exact .inl h
  | @comp us i h1 h2 =>
    by_cases hc : c.isCommutative = true
    · exact .inr ⟨by simp [Cnars.category, hc], us, i, rfl, h1, h2⟩
    · exact .inl (by simp [Cnars.category, hc])

section
variable {c : Connector} {S : Term → Prop}

/-- An entry of the normalised list. -/
def Entered (c : Connector) (S : Term → Prop) (e : Option Connector × List Term) : Prop :=
  (e.1 = none ∨ e.1 = some c) ∧ e.2 ≠ [] ∧ ∀ u ∈ e.2, Within c u ∧ S u

theorem normGroup_within (hc : c.isCommutative = true) (hk : Keyed S) (hd : Deep c S) {ts : List Term}
    (hw : ∀ t ∈ ts, Within c t ∧ S t) {k : Option Connector} (hg : k ∈ keys ts) :
    ∃ r, normGroup c ts k = .ok r ∧ r ≠ [] ∧ ∀ e ∈ r, Entered c S e := by
  obtain ⟨t, ht, rfl⟩ := mem_keys.1 hg
  rcases (hw t ht).1.category with e | ⟨e, -⟩
  · rw [e]
    refine ⟨_, rfl, ?_, ?_⟩
    · refine List.ne_nil_of_mem (List.mem_map_of_mem (a := t) ?_)
      simp [group, ht, e]
    · intro x hx
      obtain ⟨u, hu, rfl⟩ := List.mem_map.mp hx
      have hu' : u ∈ ts := (List.mem_filter.mp hu).1
      exact ⟨.inl rfl, by simp, by simpa using hw u hu'⟩
  · rw [e]
    have hgr : ∀ u ∈ group (some c) ts, ∃ us i, u = .comp c us i ∧ us ≠ [] ∧ ∀ v ∈ us, Within c v ∧ S v := by
      intro u hu
      obtain ⟨hu1, hu2⟩ := List.mem_filter.mp hu
      rcases (hw u hu1).1.category with e' | ⟨_, us, i, rfl, h1, h2⟩
      · simp [e'] at hu2
      · exact ⟨us, i, rfl, h1, fun v hv => ⟨h2 v hv, hd us i (hw _ hu1).2 v hv⟩⟩
    have ht' : t ∈ group (some c) ts := by simp [group, ht, e]
    have single : ∃ r, (Res.ok ((group (some c) ts).map fun t => (some c, t.comps)) : Res _) = .ok r ∧ r ≠ [] ∧
        ∀ e ∈ r, Entered c S e := by
      refine ⟨_, rfl, List.ne_nil_of_mem (List.mem_map_of_mem ht'), ?_⟩
      intro x hx
      obtain ⟨u, hu, rfl⟩ := List.mem_map.mp hx
      obtain ⟨us, i, rfl, h1, h2⟩ := hgr u hu
      exact ⟨.inr rfl, h1, h2⟩
    have hm : mergeKind c c = .none ∨ mergeKind c c = .concat := by
      cases c <;> first | (left; rfl) | (right; rfl)
    rcases hm with hm | hm
    · simpa only [normGroup, mergeCompounds, hm, Res.pure_eq, Res.ok_bind] using single
    · obtain ⟨r, e1, h1⟩ := hk.setInsertAll (xs := (group (some c) ts).flatMap comps) (s := [])
        (by
          intro v hv
          obtain ⟨u, hu, hv⟩ := List.mem_flatMap.mp hv
          obtain ⟨us, i, rfl, _, h2⟩ := hgr u hu
          exact (h2 v hv).2)
        (by simp) (by simp [SortedTs])
        (.inl (by
          obtain ⟨us, i, rfl, h1, _⟩ := hgr t ht'
          obtain ⟨v, hv⟩ := List.exists_mem_of_ne_nil _ h1
          exact List.ne_nil_of_mem (List.mem_flatMap.mpr ⟨_, ht', hv⟩)))
      refine ⟨[(some c, r)], ?_, by simp, ?_⟩
      · simp [normGroup, mergeCompounds, hm, Terms.ofList, hc, e1]
      · intro x hx
        rw [List.mem_singleton.mp hx]
        refine ⟨.inr rfl, h1, fun v hv => ?_⟩
        rcases (setInsertAll_mem e1).1 v hv with hv | hv
        · obtain ⟨u, hu, hv⟩ := List.mem_flatMap.mp hv
          obtain ⟨us, i, rfl, _, h2⟩ := hgr u hu
          exact h2 v hv
        · simp at hv

theorem normAll_within (hc : c.isCommutative = true) (hk : Keyed S) (hd : Deep c S) {ts : List Term}
    (hw : ∀ t ∈ ts, Within c t ∧ S t) : ∀ {ks : List (Option Connector)}, (∀ k ∈ ks, k ∈ keys ts) →
    ∃ r, normAll c ts ks = .ok r ∧ (ks ≠ [] → r ≠ []) ∧ ∀ e ∈ r, Entered c S e
  | [], _ => ⟨[], rfl, by simp, by simp⟩
  | k :: ks, h => by
    obtain ⟨a, e1, h1, h2⟩ := normGroup_within hc hk hd hw (h k List.mem_cons_self)
    obtain ⟨b, e2, _, h3⟩ := normAll_within hc hk hd hw (ks := ks) fun k hk => h k (List.mem_cons_of_mem _ hk)
    refine ⟨a ++ b, by simp [normAll, e1, e2], fun _ => by simp [h1], ?_⟩
    intro e he
    rcases List.mem_append.mp he with he | he
    · exact h2 e he
    · exact h3 e he

theorem collect_within {mk : Connector → List Term → Res Term} : ∀ {es : List (Option Connector × List Term)},
    (∀ e ∈ es, Entered c S e) → ∃ r, collect mk c es = .ok r ∧ es.length ≤ r.length ∧ ∀ u ∈ r, Within c u ∧ S u
  | [], _ => ⟨[], rfl, by simp, by simp⟩
  | (k, us) :: es, h => by
    obtain ⟨b, e2, h1, h2⟩ := collect_within (mk := mk) (es := es) fun e he => h e (List.mem_cons_of_mem _ he)
    obtain ⟨h3, h4, h5⟩ := h (k, us) List.mem_cons_self
    have hl : 0 < us.length := List.length_pos_of_ne_nil h4
    refine ⟨us ++ b, ?_, by simp; omega, ?_⟩
    · rcases h3 with h3 | h3 <;> simp only at h3 <;> subst h3 <;> simp [collect, e2]
    · intro u hu
      rcases List.mem_append.mp hu with hu | hu
      · exact h5 u hu
      · exact h2 u hu

theorem finalStep_within (hk : Keyed S) {k : Option Connector} {us : List Term} (h : Entered c S (k, us)) :
    ∃ r, finalStep c k us = .ok (c, r) ∧ r ≠ [] ∧ ∀ u ∈ r, Within c u ∧ S u := by
  obtain ⟨h3, h4, h5⟩ := h
  obtain ⟨r, e1, h1⟩ := hk.setInsertAll (xs := us) (s := []) (fun v hv => (h5 v hv).2) (by simp)
    (by simp [SortedTs]) (.inl h4)
  refine ⟨r, ?_, h1, fun v hv => ?_⟩
  · rcases h3 with h3 | h3 <;> simp only at h3 <;> subst h3
    · simp [finalStep, e1]
    · cases c <;> simp [finalStep, e1]
  · rcases (setInsertAll_mem e1).1 v hv with hv | hv
    · exact h5 v hv
    · simp at hv

/-- A commutative connector around terms in which it occurs itself: construction is defined, and the result is of the
same kind. -/
theorem mkComp_within {ord : Order} (hord : ∀ l, (ord l).Perm l) (hc : c.isCommutative = true) (hk : Keyed S)
    (hd : Deep c S) {args : List Term} {b : Bool} (hne : args ≠ []) (g : ∀ t ∈ args, Good t)
    (hw : ∀ t ∈ args, Within c t ∧ S t) :
    ∃ r, mkComp ord c args b = .ok (finishComp c r) ∧ r ≠ [] ∧ ∀ u ∈ r, Within c u ∧ S u := by
  obtain ⟨ts, e0, hts⟩ := hk.setInsertAll (xs := args) (s := []) (fun t ht => (hw t ht).2) (by simp)
    (by simp [SortedTs]) (.inl hne)
  have m0 : ∀ z ∈ ts, z ∈ args := fun z hz => by
    rcases (setInsertAll_mem e0).1 z hz with h | h
    · exact h
    · simp at h
  have hu : ∀ t ∈ unfold c ts, Within c t ∧ S t := by
    intro t ht
    rcases mem_unfold.1 ht with ⟨us, i, h1, h2⟩ | ⟨h1, _⟩
    · have hx := hw _ (m0 _ h1)
      rcases hx.1.category with e | ⟨_, us', i', e, _, h3⟩
      · simp [category, hc] at e
      · cases e
        exact ⟨h3 t h2, hd us i hx.2 t h2⟩
    · exact hw t (m0 t h1)
  have hun : unfold c ts ≠ [] := by
    obtain ⟨t, ht⟩ := List.exists_mem_of_ne_nil _ hts
    by_cases ht' : ∃ us i, t = .comp c us i
    · obtain ⟨us, i, rfl⟩ := ht'
      rcases (hw _ (m0 _ ht)).1.category with e | ⟨_, us', i', e, h1, _⟩
      · simp [category, hc] at e
      · cases e
        obtain ⟨v, hv⟩ := List.exists_mem_of_ne_nil _ h1
        exact List.ne_nil_of_mem (mem_unfold.2 (.inl ⟨us, i, ht, hv⟩))
    · push Not at ht'
      exact List.ne_nil_of_mem (mem_unfold.2 (.inr ⟨ht, ht'⟩))
  obtain ⟨us, e1, hus⟩ := hk.setInsertAll (xs := unfold c ts) (s := []) (fun t ht => (hu t ht).2) (by simp)
    (by simp [SortedTs]) (.inl hun)
  have hw1 : ∀ t ∈ us, Within c t ∧ S t := fun t ht => by
    rcases (setInsertAll_mem e1).1 t ht with h | h
    · exact hu t h
    · simp at h
  obtain ⟨norm, e2, h2, h3⟩ := normAll_within hc hk hd hw1 (ks := ord (keys us)) fun k hk => (hord _).mem_iff.mp hk
  have hnorm : norm ≠ [] := h2 (by
    obtain ⟨t, ht⟩ := List.exists_mem_of_ne_nil _ hus
    exact List.ne_nil_of_mem ((hord _).mem_iff.mpr (mem_keys.2 ⟨t, ht, rfl⟩)))
  rw [mkComp_eq (ts := ts) (by simp [Terms.ofList, hc, e0])]
  suffices H : ∃ r, prepocess ord (fun c us => mkCompF ord (heights args) c us false) c ts = .ok (c, r) ∧ r ≠ [] ∧
      ∀ u ∈ r, Within c u ∧ S u by
    obtain ⟨r, h, h'⟩ := H
    exact ⟨r, mkCompF_of_prepocess (fun t ht => g t (m0 t ht)) h, h'⟩
  simp only [prepocess, commutative_reducible c hc, Bool.not_true, Bool.false_eq_true, if_false, hc, if_true, e1,
    Res.ok_bind, e2]
  split
  · rename_i hl
    obtain ⟨all, e3, h4, h5⟩ := collect_within (mk := fun c us => mkCompF ord (heights args) c us false) h3
    obtain ⟨r, e4, h6⟩ := hk.setInsertAll (xs := all) (s := []) (fun t ht => (h5 t ht).2) (by simp)
      (by simp [SortedTs]) (.inl (by intro e; subst e; simp at h4; subst h4; simp at hl))
    refine ⟨r, ?_, h6, fun u hu => ?_⟩
    · rw [e3, Res.ok_bind, if_pos (by omega), e4]
      rfl
    · rcases (setInsertAll_mem e4).1 u hu with h | h
      · exact h5 u h
      · simp at h
  · match norm, hnorm with
    | (k, us) :: more, _ =>
      exact finalStep_within hk (h3 _ List.mem_cons_self)

end

end Cnars
