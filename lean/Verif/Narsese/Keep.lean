import Verif.Narsese.CompoundLemmas
import Verif.Narsese.EqLemmas

/-!
Helper lemmas: when the construction of a compound keeps everything.
-/

namespace Cnars
open Term

/-- `u` is `t`, or a component of a component of … of `t`. -/
inductive Under : Term → Term → Prop
  | refl (t : Term) : Under t t
  | step {t v u : Term} : v ∈ t.comps → Under v u → Under t u

/-- The components suffice for the connector, and no two sets are intersected. -/
def Fit (c : Connector) (us : List Term) : Prop :=
  c.checkValid us.length = true ∧
  (c = .extensionalIntersection → ∀ vs i, Term.comp .extensionalSet vs i ∉ us) ∧
  (c = .intensionalIntersection → ∀ vs i, Term.comp .intensionalSet vs i ∉ us)

/-- All commutative compounds in `t` are fit. -/
def Full (t : Term) : Prop :=
  ∀ c us i, Under t (.comp c us i) → c.isCommutative = true → Fit c us

theorem Full.comps {t v : Term} (h : Full t) (hv : v ∈ t.comps) : Full v :=
  fun c us i hu => h c us i (.step hv hu)

theorem Full.fit {c : Connector} {us : List Term} {i : Info} (h : Full (.comp c us i))
    (hc : c.isCommutative = true) : Fit c us := h c us i (.refl _) hc

/-- All lists that are put into a set in the course of one construction. -/
def runLists (ord : Order) : Nat → Connector → List Term → List (List Term)
  | 0, _, _ => []
  | n + 1, c, terms =>
    unfold c terms ::
      match setInsertAll (unfold c terms) [] with
      | .ok ts =>
        ((keys ts).filter (·.isSome)).map (fun k => (group k ts).flatMap comps) ++
        match normAll c ts (ord (keys ts)) with
        | .ok norm =>
          (norm.flatMap fun q => match q.1 with
            | some k => if k ≠ c then runLists ord n k q.2 else []
            | none => []) ++
          (match collect (fun c us => mkCompF ord n c us false) c norm with
            | .ok all => [all]
            | _ => [])
        | _ => []
      | _ => []

/-- What an entry of the normalised groups looks like. -/
def EntrySpec (c : Connector) (ts : List Term) (q : Option Connector × List Term) : Prop :=
  (q.1 = none ∧ ∃ t ∈ ts, category t = none ∧ q.2 = [t]) ∨
  (∃ k t, q.1 = some k ∧ t ∈ ts ∧ category t = some k ∧ q.2 = t.comps) ∨
  (∃ k, q.1 = some k ∧ (k = .extensionalSet ∨ k = .intensionalSet ∨ k = c) ∧ SortedTs q.2 ∧
    (∃ t ∈ ts, category t = some k ∧ ∀ z ∈ t.comps, z ∈ q.2) ∧
    ∀ z ∈ q.2, ∃ t ∈ ts, category t = some k ∧ z ∈ t.comps)

/-- `t` is accounted for in the entry. -/
def Covered (t : Term) (q : Option Connector × List Term) : Prop :=
  t ∈ q.2 ∨ ((∃ k us i, t = .comp k us i) ∧ ∀ z ∈ t.comps, z ∈ q.2)

theorem Good.comps_sorted {k : Connector} {us : List Term} {i : Info} (g : Good (.comp k us i))
    (hk : k.isCommutative = true) : SortedTs us := by
  generalize ht : Term.comp k us i = t at g
  cases g with
  | comp c hts hs => simp only [finishComp, Term.comp.injEq] at ht; obtain ⟨rfl, rfl, rfl⟩ := ht; exact hs hk
  | _ => simp [mkAtom, mkOperation, mkInterval, mkVar, mkStmt] at ht

theorem normGroup_keep {c : Connector} {ts : List Term} {k : Option Connector}
    (hc : c.isCommutative = true)
    (g : ∀ t ∈ ts, Good t) (hk : ∃ t ∈ ts, category t = k)
    (ho : k ≠ none → Orderly (· ∈ (group k ts).flatMap comps))
    (hi : ∀ k', k = some k' → mergeKind c k' ≠ .intersect) :
    ∃ a, normGroup c ts k = .ok a ∧ (∀ q ∈ a, EntrySpec c ts q) ∧
      ∀ t ∈ ts, category t = k → ∃ q ∈ a, Covered t q := by
  have mg : ∀ t, t ∈ group k ts ↔ t ∈ ts ∧ category t = k := by simp [group]
  cases k with
  | none =>
    refine ⟨_, rfl, ?_, ?_⟩
    · intro q hq
      obtain ⟨t, ht, rfl⟩ := List.mem_map.1 hq
      obtain ⟨ht, hc⟩ := (mg t).1 ht
      exact .inl ⟨rfl, t, ht, hc, rfl⟩
    · intro t ht hc
      exact ⟨_, List.mem_map.2 ⟨t, (mg t).2 ⟨ht, hc⟩, rfl⟩, .inl (by simp)⟩
  | some k =>
    obtain ⟨t0, ht0, hc0⟩ := hk
    replace ho := ho (by simp)
    have hkc : k.isCommutative = true := by
      obtain ⟨vs, i, rfl, h⟩ := category_comp hc0; exact h
    have hset : ∀ t ∈ group (some k) ts, SortedTs t.comps ∧ (termsOf t).comm = true ∧
        (termsOf t).items = t.comps ∧ ∃ k us i, t = .comp k us i := by
      intro t ht
      obtain ⟨ht, hc⟩ := (mg t).1 ht
      obtain ⟨vs, i, rfl, h⟩ := category_comp hc
      exact ⟨(g _ ht).comps_sorted h, h, rfl, _, _, _, rfl⟩
    have hcov : ∀ (R : List Term), (∀ z, z ∈ R ↔ ∃ t ∈ group (some k) ts, z ∈ t.comps) →
        SortedTs R → (k = .extensionalSet ∨ k = .intensionalSet ∨ k = c) →
        (∀ q ∈ [(some k, R)], EntrySpec c ts q) ∧
        ∀ t ∈ ts, category t = some k → ∃ q ∈ [(some k, R)], Covered t q := by
      intro R hR sR hk
      refine ⟨?_, ?_⟩
      · intro q hq
        simp only [List.mem_singleton] at hq; subst hq
        refine .inr (.inr ⟨k, rfl, hk, sR, ⟨t0, ht0, hc0, fun z hz =>
          (hR z).2 ⟨t0, (mg t0).2 ⟨ht0, hc0⟩, hz⟩⟩, ?_⟩)
        intro z hz
        obtain ⟨t, ht, h⟩ := (hR z).1 hz
        exact ⟨t, ((mg t).1 ht).1, ((mg t).1 ht).2, h⟩
      · intro t ht hc
        have := (mg t).2 ⟨ht, hc⟩
        exact ⟨_, List.mem_singleton.2 rfl, .inr ⟨(hset t this).2.2.2,
          fun z hz => (hR z).2 ⟨t, this, hz⟩⟩⟩
    have hkinds : mergeKind c k = .intersect ∨ (mergeKind c k = .unite ∧ (k = .extensionalSet ∨ k = .intensionalSet)) ∨
        (mergeKind c k = .concat ∧ k = c) ∨ mergeKind c k = .none := by
      clear hcov hset mg ho hi hc0 ht0 g
      revert hc; cases c <;> cases k <;> decide
    have hU : mergeKind c k = .unite → ∃ R, mergeCompounds c k (group (some k) ts) = .ok (some R) ∧
        SortedTs R ∧ ∀ z, z ∈ R ↔ ∃ t ∈ group (some k) ts, z ∈ t.comps := by
      intro hm
      have so : SetsOver (· ∈ (group (some k) ts).flatMap comps) ((group (some k) ts).map termsOf) := by
        refine ⟨ho, ?_, ?_, ?_⟩
        · intro t ht
          obtain ⟨u, hu, rfl⟩ := List.mem_map.1 ht
          exact (hset u hu).2.1
        · intro t ht
          obtain ⟨u, hu, rfl⟩ := List.mem_map.1 ht
          rw [(hset u hu).2.2.1]; exact (hset u hu).1
        · intro t ht z hz
          obtain ⟨u, hu, rfl⟩ := List.mem_map.1 ht
          rw [(hset u hu).2.2.1] at hz
          exact List.mem_flatMap.2 ⟨u, hu, hz⟩
      obtain ⟨R, e, s, hm'⟩ := so.union (by
        have : t0 ∈ group (some k) ts := (mg t0).2 ⟨ht0, hc0⟩
        intro h
        rw [List.map_eq_nil_iff] at h
        rw [h] at this; simp at this)
      refine ⟨R, by simp [mergeCompounds, hm, e], s, fun z => ?_⟩
      rw [hm']
      constructor
      · rintro ⟨t, ht, hz⟩
        obtain ⟨u, hu, rfl⟩ := List.mem_map.1 ht
        rw [(hset u hu).2.2.1] at hz
        exact ⟨u, hu, hz⟩
      · rintro ⟨u, hu, hz⟩
        exact ⟨_, List.mem_map_of_mem hu, by rw [(hset u hu).2.2.1]; exact hz⟩
    have hC : mergeKind c k = .concat → ∃ R, mergeCompounds c k (group (some k) ts) = .ok (some R) ∧
        SortedTs R ∧ ∀ z, z ∈ R ↔ ∃ t ∈ group (some k) ts, z ∈ t.comps := by
      intro hm
      obtain ⟨R, e, s, hm'⟩ := ho.setInsertAll (xs := (group (some k) ts).flatMap comps) (s := [])
        (fun _ h => h) (by simp) (by simp [SortedTs])
      refine ⟨R, by simp [mergeCompounds, hm, Terms.ofList, hkc, e], s, fun z => ?_⟩
      rw [hm']; simp
    rcases hkinds with h | ⟨h, hks⟩ | ⟨h, hks⟩ | h
    · exact absurd h (hi k rfl)
    · obtain ⟨R, e, s, hm⟩ := hU h
      exact ⟨[(some k, R)], by simp [normGroup, e], hcov R hm s (by tauto)⟩
    · obtain ⟨R, e, s, hm⟩ := hC h
      exact ⟨[(some k, R)], by simp [normGroup, e], hcov R hm s (by tauto)⟩
    · refine ⟨(group (some k) ts).map fun t => (some k, t.comps), by
        simp [normGroup, mergeCompounds, h], ?_, ?_⟩
      · intro q hq
        obtain ⟨t, ht, rfl⟩ := List.mem_map.1 hq
        exact .inr (.inl ⟨k, t, rfl, ((mg t).1 ht).1, ((mg t).1 ht).2, rfl⟩)
      · intro t ht hc
        have := (mg t).2 ⟨ht, hc⟩
        exact ⟨_, List.mem_map.2 ⟨t, this, rfl⟩, .inr ⟨(hset t this).2.2.2, fun z hz => hz⟩⟩

theorem normAll_keep {c : Connector} {ts : List Term} {ks : List (Option Connector)}
    (hc : c.isCommutative = true)
    (g : ∀ t ∈ ts, Good t) (hk : ∀ k ∈ ks, ∃ t ∈ ts, category t = k)
    (ho : ∀ k ∈ ks, k ≠ none → Orderly (· ∈ (group k ts).flatMap comps))
    (hi : ∀ k, some k ∈ ks → mergeKind c k ≠ .intersect) :
    ∃ a, normAll c ts ks = .ok a ∧ (∀ q ∈ a, EntrySpec c ts q) ∧
      ∀ t ∈ ts, category t ∈ ks → ∃ q ∈ a, Covered t q := by
  induction ks with
  | nil => exact ⟨[], rfl, by simp, by simp⟩
  | cons k ks ih =>
    obtain ⟨a, e1, h1, h2⟩ := normGroup_keep hc g (hk k (by simp)) (ho k (by simp))
      (fun k' h => hi k' (by simp [h]))
    obtain ⟨b, e2, h3, h4⟩ := ih (fun k h => hk k (by simp [h])) (fun k h => ho k (by simp [h]))
      (fun k h => hi k (by simp [h]))
    refine ⟨a ++ b, by simp [normAll, e1, e2], ?_, ?_⟩
    · intro q hq
      rcases List.mem_append.1 hq with h | h
      · exact h1 q h
      · exact h3 q h
    · intro t ht hk
      rcases List.mem_cons.1 hk with h | h
      · obtain ⟨q, hq, h⟩ := h2 t ht h
        exact ⟨q, by simp [hq], h⟩
      · obtain ⟨q, hq, h⟩ := h4 t ht h
        exact ⟨q, by simp [hq], h⟩

theorem collect_keep {mk : Connector → List Term → Res Term} {parent : Connector}
    {norm : List (Option Connector × List Term)} (hne : ∀ q ∈ norm, q.2 ≠ [])
    (h : ∀ q ∈ norm, ∀ c, q.1 = some c → c ≠ parent → c.checkValid q.2.length = true ∧
      ∃ r, mk c q.2 = .ok r ∧ ∀ t ∈ q.2, ∀ l ∈ (shape t).leaves, l ∈ (shape r).leaves) :
    ∃ all, collect mk parent norm = .ok all ∧ norm.length ≤ all.length ∧
      ∀ q ∈ norm, ∀ t ∈ q.2, ∀ l ∈ (shape t).leaves, ∃ r ∈ all, l ∈ (shape r).leaves := by
  induction norm with
  | nil => exact ⟨[], rfl, by simp, by simp⟩
  | cons q norm ih =>
    obtain ⟨all, e, hlen, hk⟩ := ih (fun q hq => hne q (by simp [hq])) (fun q hq => h q (by simp [hq]))
    have hq : ∃ a, contribution mk parent q = .ok a ∧ 1 ≤ a.length ∧
        ∀ t ∈ q.2, ∀ l ∈ (shape t).leaves, ∃ r ∈ a, l ∈ (shape r).leaves := by
      have h0 : 1 ≤ q.2.length := List.length_pos_of_ne_nil (hne q (by simp))
      unfold contribution
      cases hq : q.1 with
      | none => exact ⟨q.2, rfl, h0, fun t ht l hl => ⟨t, ht, hl⟩⟩
      | some c =>
        by_cases hp : c = parent
        · exact ⟨q.2, by simp [hp], h0, fun t ht l hl => ⟨t, ht, hl⟩⟩
        · obtain ⟨hv, r, e, hr⟩ := h q List.mem_cons_self c hq hp
          exact ⟨[r], by simp [hp, hv, e], by simp, fun t ht l hl => ⟨r, by simp, hr t ht l hl⟩⟩
    obtain ⟨a, ea, la, ha⟩ := hq
    refine ⟨a ++ all, by simp [collect_cons, ea, e], by simp; omega, ?_⟩
    intro q' hq' t ht l hl
    rcases List.mem_cons.1 hq' with rfl | hq'
    · obtain ⟨r, hr, h⟩ := ha t ht l hl
      exact ⟨r, by simp [hr], h⟩
    · obtain ⟨r, hr, h⟩ := hk q' hq' t ht l hl
      exact ⟨r, by simp [hr], h⟩

theorem commutative_reducible (c : Connector) (h : c.isCommutative = true) : c.isReducible = true := by
  cases c <;> first | rfl | (exact absurd h (by decide))

theorem mem_leaves_comps {k : Connector} {us : List Term} {i : Info} {l : Shape} :
    l ∈ (shape (.comp k us i)).leaves ↔ ∃ t ∈ us, l ∈ (shape t).leaves := by
  simp [shape, Shape.leaves, leavesAll_eq, shapes_eq_map]

theorem mkCompF_keep {ord : Order} (hord : ∀ l, (ord l).Perm l) {n : Nat} {c : Connector}
    {terms : List Term} {b : Bool} (hc : c.isCommutative = true) (g : ∀ t ∈ terms, Good t)
    (full : ∀ t ∈ terms, Full t) (hne : terms ≠ [])
    (hx : c = .extensionalIntersection → ∀ vs i, Term.comp .extensionalSet vs i ∉ terms)
    (hi : c = .intensionalIntersection → ∀ vs i, Term.comp .intensionalSet vs i ∉ terms)
    (hl : ∀ l ∈ runLists ord n c terms, Orderly (· ∈ l)) (hn : heights terms < n) :
    ∃ r, mkCompF ord n c terms b = .ok r ∧
      ∀ t ∈ terms, ∀ l ∈ (shape t).leaves, l ∈ (shape r).leaves := by
  induction n generalizing c terms b with
  | zero => omega
  | succ n ih =>
    have hr := commutative_reducible c hc
    -- step 1
    obtain ⟨ts, e1, s1, m1⟩ := (hl (unfold c terms) (by simp [runLists])).setInsertAll
      (xs := unfold c terms) (s := []) (fun _ h => h) (by simp) (by simp [SortedTs])
    replace m1 : ∀ z, z ∈ ts ↔ z ∈ unfold c terms := fun z => by rw [m1]; simp
    have gts := good_of_setInsertAll (good_unfold (parent := c) g) e1
    have fts : ∀ t ∈ ts, Full t := by
      intro t ht
      rcases mem_unfold.1 ((m1 t).1 ht) with ⟨us, i, h, h2⟩ | ⟨h, _⟩
      · exact (full _ h).comps h2
      · exact full t h
    have fitc : ∀ us i, Term.comp c us i ∈ terms → Fit c us := fun us i h => (full _ h).fit hc
    have hx' : c = .extensionalIntersection → ∀ vs i, Term.comp .extensionalSet vs i ∉ ts := by
      intro h vs i hm
      rcases mem_unfold.1 ((m1 _).1 hm) with ⟨us, j, h1, h2⟩ | ⟨h1, _⟩
      · exact (fitc us j h1).2.1 h vs i h2
      · exact hx h vs i h1
    have hi' : c = .intensionalIntersection → ∀ vs i, Term.comp .intensionalSet vs i ∉ ts := by
      intro h vs i hm
      rcases mem_unfold.1 ((m1 _).1 hm) with ⟨us, j, h1, h2⟩ | ⟨h1, _⟩
      · exact (fitc us j h1).2.2 h vs i h2
      · exact hi h vs i h1
    have validNe : ∀ (k : Connector) (us : List Term), k.checkValid us.length = true → us ≠ [] := by
      intro k us h e; subst e; revert h; cases k <;> decide
    have hcover1 : ∀ t ∈ terms, ∀ l ∈ (shape t).leaves, ∃ u ∈ ts, l ∈ (shape u).leaves := by
      intro t ht l hl
      by_cases h : ∃ us i, t = .comp c us i
      · obtain ⟨us, i, rfl⟩ := h
        obtain ⟨u, hu, hl⟩ := mem_leaves_comps.1 hl
        exact ⟨u, (m1 u).2 (mem_unfold.2 (.inl ⟨us, i, ht, hu⟩)), hl⟩
      · push Not at h
        exact ⟨t, (m1 t).2 (mem_unfold.2 (.inr ⟨ht, h⟩)), hl⟩
    have htsne : ts ≠ [] := by
      obtain ⟨t, ht⟩ := List.exists_mem_of_ne_nil _ hne
      have : ∃ u, u ∈ ts := by
        by_cases h : ∃ us i, t = .comp c us i
        · obtain ⟨us, i, rfl⟩ := h
          obtain ⟨u, hu⟩ := List.exists_mem_of_ne_nil _ (validNe c us (fitc us i ht).1)
          exact ⟨u, (m1 u).2 (mem_unfold.2 (.inl ⟨us, i, ht, hu⟩))⟩
        · push Not at h
          exact ⟨t, (m1 t).2 (mem_unfold.2 (.inr ⟨ht, h⟩))⟩
      obtain ⟨u, hu⟩ := this
      exact List.ne_nil_of_mem hu
    -- step 2
    have hkeys : ∀ k, k ∈ ord (keys ts) ↔ ∃ t ∈ ts, category t = k := fun k => by
      rw [(hord _).mem_iff, mem_keys]
    have hRL : ∀ k ∈ ord (keys ts), k ≠ none → Orderly (· ∈ (group k ts).flatMap comps) := by
      intro k hk hkn
      refine hl _ ?_
      simp only [runLists, e1]
      exact List.mem_cons_of_mem _ (List.mem_append_left _ (List.mem_map.2
        ⟨k, List.mem_filter.2 ⟨(hord _).mem_iff.1 hk, by cases k <;> simp_all⟩, rfl⟩))
    have hmk : ∀ k, some k ∈ ord (keys ts) → mergeKind c k ≠ .intersect := by
      intro k hk hm
      obtain ⟨t, ht, hcat⟩ := (hkeys _).1 hk
      obtain ⟨vs, i, rfl, _⟩ := category_comp hcat
      have : (c = .extensionalIntersection ∧ k = .extensionalSet) ∨
          (c = .intensionalIntersection ∧ k = .intensionalSet) := by
        revert hm; clear * -; cases c <;> cases k <;> decide
      rcases this with ⟨h1, h2⟩ | ⟨h1, h2⟩
      · exact hx' h1 vs i (h2 ▸ ht)
      · exact hi' h1 vs i (h2 ▸ ht)
    obtain ⟨norm, e2, hspec, hcov⟩ := normAll_keep hc gts (fun k hk => (hkeys k).1 hk) hRL hmk
    have hcovL : ∀ t ∈ ts, ∀ l ∈ (shape t).leaves, ∃ q ∈ norm, ∃ u ∈ q.2, l ∈ (shape u).leaves := by
      intro t ht l hl
      obtain ⟨q, hq, h⟩ := hcov t ht ((hkeys _).2 ⟨t, ht, rfl⟩)
      rcases h with h | ⟨⟨k, us, i, rfl⟩, h⟩
      · exact ⟨q, hq, t, h, hl⟩
      · obtain ⟨u, hu, hl⟩ := mem_leaves_comps.1 hl
        exact ⟨q, hq, u, h u hu, hl⟩
    have hcatfit : ∀ t ∈ ts, ∀ k, category t = some k → Fit k t.comps ∧ SortedTs t.comps := by
      intro t ht k hk
      obtain ⟨vs, i, rfl, h⟩ := category_comp hk
      exact ⟨(fts _ ht).fit h, (gts _ ht).comps_sorted h⟩
    have hq2ne : ∀ q ∈ norm, q.2 ≠ [] := by
      intro q hq
      rcases hspec q hq with ⟨_, t, _, _, h⟩ | ⟨k, t, _, ht, hk, h⟩ | ⟨k, _, _, _, ⟨t, ht, hk, h⟩, _⟩
      · rw [h]; simp
      · rw [h]; exact validNe k _ (hcatfit t ht k hk).1.1
      · obtain ⟨u, hu⟩ := List.exists_mem_of_ne_nil _ (validNe k _ (hcatfit t ht k hk).1.1)
        exact List.ne_nil_of_mem (h u hu)
    have hq2sorted : ∀ q ∈ norm, SortedTs q.2 := by
      intro q hq
      rcases hspec q hq with ⟨_, t, _, _, h⟩ | ⟨k, t, _, ht, hk, h⟩ | ⟨k, _, _, h, _⟩
      · rw [h]; simp [SortedTs]
      · rw [h]; exact (hcatfit t ht k hk).2
      · exact h
    have hq2mem : ∀ q ∈ norm, ∀ z ∈ q.2, Good z ∧ Full z := by
      intro q hq z hz
      rcases normAll_mem e2 q hq z hz with h | ⟨t, ht, h⟩
      · exact ⟨gts z h, fts z h⟩
      · exact ⟨Good.downClosed t (gts t ht) z h, (fts t ht).comps h⟩
    -- step 3
    have hsub : ∀ q ∈ norm, ∀ k, q.1 = some k → k ≠ c →
        ∀ l ∈ runLists ord n k q.2, Orderly (· ∈ l) := by
      intro q hq k hk hkc l hl'
      refine hl l ?_
      simp only [runLists, e1, e2]
      refine List.mem_cons_of_mem _ (List.mem_append_right _ (List.mem_append_left _
        (List.mem_flatMap.2 ⟨q, hq, ?_⟩)))
      simpa [hk, hkc] using hl'
    have hmkc : ∀ q ∈ norm, ∀ k, q.1 = some k → k ≠ c → k.checkValid q.2.length = true ∧
        ∃ r, mkCompF ord n k q.2 false = .ok r ∧
          ∀ t ∈ q.2, ∀ l ∈ (shape t).leaves, l ∈ (shape r).leaves := by
      intro q hq k hk hkc
      obtain ⟨hent1, hent2⟩ := (normAll_entry e2 q hq).2 k hk hkc
      have hh := entry_heights hent1 hent2
      have hts := heights_le (ts := ts) (us := unfold c terms) fun t ht =>
        height_le_heights ((m1 t).1 ht)
      have hun := heights_unfold (parent := c) (ts := terms)
      obtain ⟨t, ht, hcat⟩ := hent1
      have hkcomm : k.isCommutative = true := by
        obtain ⟨_, _, _, h⟩ := category_comp hcat; exact h
      have hfit : Fit k q.2 := by
        rcases hspec q hq with ⟨h, _⟩ | ⟨k', t, h, ht, hk', e⟩ | ⟨k', h, h3, _⟩
        · rw [hk] at h; cases h
        · rw [hk] at h; cases h
          rw [e]; exact (hcatfit t ht k hk').1
        · rw [hk] at h; cases h
          have hset : k = .extensionalSet ∨ k = .intensionalSet := by tauto
          have hlen : 1 ≤ q.2.length := List.length_pos_of_ne_nil (hq2ne q hq)
          rcases hset with rfl | rfl
          · refine ⟨?_, by simp, by simp⟩
            simp [Connector.checkValid, Connector.isSingleOnly, Connector.isDoubleOnly, Connector.isMultipleOnly,
              Connector.look, Connector.singleOnlyTable, Connector.doubleOnlyTable,
              Connector.multipleOnlyTable, Connector.idx]
            exact hlen
          · refine ⟨?_, by simp, by simp⟩
            simp [Connector.checkValid, Connector.isSingleOnly, Connector.isDoubleOnly, Connector.isMultipleOnly,
              Connector.look, Connector.singleOnlyTable, Connector.doubleOnlyTable,
              Connector.multipleOnlyTable, Connector.idx]
            exact hlen
      refine ⟨hfit.1, ?_⟩
      exact ih hkcomm (fun z hz => (hq2mem q hq z hz).1) (fun z hz => (hq2mem q hq z hz).2)
        (hq2ne q hq) hfit.2.1 hfit.2.2 (hsub q hq k hk hkc) (by omega)
    obtain ⟨all, e3, hlen3, hall⟩ := collect_keep (mk := fun c us => mkCompF ord n c us false)
      (parent := c) hq2ne hmkc
    have hnormne : norm ≠ [] := by
      obtain ⟨t, ht⟩ := List.exists_mem_of_ne_nil _ htsne
      obtain ⟨q, hq, _⟩ := hcov t ht ((hkeys _).2 ⟨t, ht, rfl⟩)
      exact List.ne_nil_of_mem hq
    -- the result of `prepocess_terms`
    suffices hp : ∃ c' us, prepocess ord (fun c us => mkCompF ord n c us false) c terms = .ok (c', us) ∧
        ∀ t ∈ ts, ∀ l ∈ (shape t).leaves, ∃ u ∈ us, l ∈ (shape u).leaves by
      obtain ⟨c', us, hp, hk⟩ := hp
      refine ⟨_, mkCompF_of_prepocess g hp, ?_⟩
      intro t ht l hl
      obtain ⟨u, hu, hl⟩ := hcover1 t ht l hl
      rw [mem_leaves_comp]
      exact hk u hu l hl
    simp only [prepocess, hr, Bool.not_true, Bool.false_eq_true, if_false, hc, if_true, e1,
      Res.ok_bind, e2]
    by_cases hlen : norm.length > 1
    · rw [if_pos hlen, e3, Res.ok_bind, if_pos (by omega)]
      have hor : Orderly (· ∈ all) := by
        refine hl all ?_
        simp only [runLists, e1, e2, e3]
        simp
      obtain ⟨r, e4, _, m4⟩ := hor.setInsertAll (xs := all) (s := []) (fun _ h => h) (by simp)
        (by simp [SortedTs])
      refine ⟨c, r, by simp [e4], ?_⟩
      intro t ht l hl
      obtain ⟨q, hq, u, hu, hl⟩ := hcovL t ht l hl
      obtain ⟨v, hv, hl⟩ := hall q hq u hu l hl
      exact ⟨v, (m4 v).2 (.inl hv), hl⟩
    · rw [if_neg hlen]
      match norm, hnormne, hlen, hcovL, hq2sorted with
      | [(k, us)], _, _, hcovL, hs =>
        have hs : SortedTs us := hs (k, us) (by simp)
        have : ∃ c', finalStep c k us = .ok (c', us) := by
          unfold finalStep
          rw [setInsertAll_self hs, Res.ok_bind]
          split
          · by_cases h : c = .intensionalIntersection <;> simp [h]
          · by_cases h : c = .extensionalIntersection <;> simp [h]
          · simp
        obtain ⟨c', e⟩ := this
        refine ⟨c', us, e, ?_⟩
        intro t ht l hl
        obtain ⟨q, hq, u, hu, hl⟩ := hcovL t ht l hl
        simp only [List.mem_singleton] at hq; subst hq
        exact ⟨u, hu, hl⟩
      | _ :: _ :: _, _, hlen, _, _ => exact absurd (by simp) hlen

theorem runLists_good {ord : Order} {n : Nat} {c : Connector} {terms : List Term}
    (g : ∀ t ∈ terms, Good t) : ∀ l ∈ runLists ord n c terms, ∀ z ∈ l, Good z := by
  induction n generalizing c terms with
  | zero => simp [runLists]
  | succ n ih =>
    intro l hl z hz
    simp only [runLists] at hl
    rcases List.mem_cons.1 hl with rfl | hl
    · exact good_unfold g z hz
    · split at hl
      · next ts e1 =>
        have gts := good_of_setInsertAll (good_unfold (parent := c) g) e1
        rcases List.mem_append.1 hl with hl | hl
        · obtain ⟨k, _, rfl⟩ := List.mem_map.1 hl
          obtain ⟨t, ht, hz⟩ := List.mem_flatMap.1 hz
          exact Good.downClosed t (gts t (List.mem_filter.1 ht).1) z hz
        · split at hl
          · next norm e2 =>
            have gn : ∀ q ∈ norm, ∀ z ∈ q.2, Good z := fun q hq z hz => by
              rcases normAll_mem e2 q hq z hz with h | ⟨t, ht, h⟩
              · exact gts z h
              · exact Good.downClosed t (gts t ht) z h
            rcases List.mem_append.1 hl with hl | hl
            · obtain ⟨q, hq, hl⟩ := List.mem_flatMap.1 hl
              split at hl
              · next k hk =>
                split at hl
                · exact ih (gn q hq) l hl z hz
                · simp at hl
              · simp at hl
            · split at hl
              · next all e3 =>
                simp only [List.mem_singleton] at hl; subst hl
                rcases collect_mem e3 z hz with ⟨q, hq, h⟩ | ⟨q, hq, k, _, hmk⟩
                · exact gn q hq z h
                · exact mkCompF_good (gn q hq) hmk
              · simp at hl
          · simp at hl
      · simp at hl

theorem step3Lists_sub {ord : Order} {n : Nat} {c : Connector} {terms : List Term} :
    ∀ l ∈ step3Lists ord n c terms, l ∈ runLists ord n c terms := by
  induction n generalizing c terms with
  | zero => simp [step3Lists]
  | succ n ih =>
    intro l hl
    simp only [step3Lists] at hl
    split at hl
    · split at hl
      · next ts e1 =>
        split at hl
        · next norm e2 =>
          simp only [runLists, e1, e2]
          refine List.mem_cons_of_mem _ (List.mem_append_right _ ?_)
          rcases List.mem_append.1 hl with hl | hl
          · obtain ⟨q, hq, hl⟩ := List.mem_flatMap.1 hl
            refine List.mem_append_left _ (List.mem_flatMap.2 ⟨q, hq, ?_⟩)
            split at hl
            · next k hk =>
              split at hl
              · next hkc => simpa [hk, hkc.1] using ih l hl
              · simp at hl
            · simp at hl
          · exact List.mem_append_right _ hl
        · simp at hl
      · simp at hl
    · simp at hl

/-- All lists that are put into a set in the course of one call of the constructor. -/
def buildLists (ord : Order) (c : Connector) (args : List Term) : List (List Term) :=
  args :: match Terms.ofList true args with
    | .ok t => runLists ord (heights args + 1) c t.items
    | _ => []

/-- Those of them that depend on the enumeration order of the groups. -/
def buildStep3Lists (ord : Order) (c : Connector) (args : List Term) : List (List Term) :=
  match Terms.ofList c.isCommutative args with
  | .ok t => step3Lists ord (heights args + 1) c t.items
  | _ => []

theorem buildStep3Lists_good {ord : Order} {c : Connector} {args : List Term}
    (g : ∀ t ∈ args, Good t) : ∀ l ∈ buildStep3Lists ord c args, ∀ z ∈ l, Good z := by
  intro l hl
  unfold buildStep3Lists at hl
  split at hl
  · next t e =>
    obtain ⟨_, hm, _⟩ := ofList_mem e
    exact runLists_good (fun t ht => g t (hm t ht)) l (step3Lists_sub l hl)
  · simp at hl

end Cnars
