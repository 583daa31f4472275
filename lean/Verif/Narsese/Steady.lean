import Verif.Narsese.Keep

/-!
# Compounds that the constructor makes of their own components

The constructor of compounds unfolds, merges and takes apart.  Terms in which there is nothing left to
do: constructing a compound again from its own components gives it back.  Nothing of `/repo` is
modelled here.
-/

namespace Cnars
open Term

/-- What is left alone inside a compound with connector `c`. -/
def Inert (c : Connector) (t : Term) : Prop :=
  (∀ us i, t ≠ .comp c us i) ∧
    ∀ k us i, t = .comp k us i → k.isCommutative = true →
      mergeKind c k = .none ∧ k.checkValid us.length = true

/-- Nothing to reduce, at any depth: no component that is unfolded or merged or dropped, no commutative
compound of a single component that is taken apart. -/
inductive Steady : Term → Prop
  | atom (a : Word) (i : Info) : Steady (.atom a i)
  | interval (n : Int) (i : Info) : Steady (.interval n i)
  | var (k : VarKind) (n : String) (i : Info) : Steady (.var k n i)
  | stmt {s p : Term} (c : Copula) (i : Info) : Steady s → Steady p → Steady (.stmt s c p i)
  | comp {ts : List Term} (c : Connector) (i : Info) : (∀ t ∈ ts, Steady t) →
      (c.isReducible = true → c.isCommutative = false → ∀ t ∈ ts, ∀ us j, t ≠ .comp c us j) →
      (c.isCommutative = true → ts ≠ [] ∧ (∀ t ∈ ts, Inert c t) ∧
        ∀ t, ts = [t] → category t = none) →
      Steady (.comp c ts i)

theorem unfold_id {c : Connector} {ts : List Term} (h : ∀ t ∈ ts, ∀ us i, t ≠ .comp c us i) :
    unfold c ts = ts := by
  induction ts with
  | nil => rfl
  | cons t ts ih =>
    have h1 := ih fun u hu => h u (by simp [hu])
    have h2 := h t (by simp)
    rw [unfold, List.flatMap_cons]
    rw [unfold] at h1
    rw [h1]
    cases t with
    | comp k us i =>
      have : k ≠ c := by rintro rfl; exact h2 us i rfl
      simp [this]
    | _ => rfl

/-- What a component becomes in step 2 if nothing is merged. -/
def entryOf (t : Term) : Option Connector × List Term :=
  match category t with
  | none => (none, [t])
  | some k => (some k, t.comps)

theorem normGroup_inert {c : Connector} {ts : List Term} (h : ∀ t ∈ ts, Inert c t)
    (k : Option Connector) : (∃ t ∈ ts, category t = k) →
    normGroup c ts k = .ok ((group k ts).map entryOf) := by
  intro hk
  cases k with
  | none =>
    rw [normGroup]
    simp only [Res.pure_eq]
    congr 1
    apply List.map_congr_left
    intro t ht
    simp only [group, List.mem_filter, decide_eq_true_eq] at ht
    simp [entryOf, ht.2]
  | some k =>
    obtain ⟨t, ht, hc⟩ := hk
    obtain ⟨us, i, rfl, hkc⟩ := category_comp hc
    have := ((h _ ht).2 k us i rfl hkc).1
    rw [normGroup, mergeCompounds, this]
    simp only [Res.pure_eq, Res.ok_bind]
    congr 1
    apply List.map_congr_left
    intro t ht
    simp only [group, List.mem_filter, decide_eq_true_eq] at ht
    simp [entryOf, ht.2]

theorem normAll_inert {c : Connector} {ts : List Term} (h : ∀ t ∈ ts, Inert c t) :
    ∀ ks : List (Option Connector), (∀ k ∈ ks, ∃ t ∈ ts, category t = k) →
    normAll c ts ks = .ok ((ks.flatMap (group · ts)).map entryOf)
  | [], _ => rfl
  | k :: ks, hk => by
    rw [normAll, normGroup_inert h k (hk k (by simp)),
      normAll_inert h ks fun k' hk' => hk k' (by simp [hk'])]
    simp

theorem mem_keys_iff {ts : List Term} {k : Option Connector} :
    k ∈ keys ts ↔ ∃ t ∈ ts, category t = k := by
  induction ts with
  | nil => simp [keys]
  | cons t ts ih =>
    simp only [keys, List.mem_cons, List.mem_filter, ih, decide_eq_true_eq]
    constructor
    · rintro (rfl | ⟨⟨u, hu, rfl⟩, _⟩)
      · exact ⟨t, .inl rfl, rfl⟩
      · exact ⟨u, .inr hu, rfl⟩
    · rintro ⟨u, rfl | hu, rfl⟩
      · exact .inl rfl
      · by_cases hc : category u = category t
        · exact .inl hc
        · exact .inr ⟨⟨u, hu, rfl⟩, hc⟩

theorem sorted_separated {ts : List Term} (h : SortedTs ts) : Separated ts := by
  induction ts with
  | nil => simp [Separated]
  | cons t ts ih =>
    have h1 := (List.pairwise_cons.1 h).1
    have h2 := ih (List.pairwise_cons.1 h).2
    intro a ha b hb hab hba
    rcases List.mem_cons.1 ha with rfl | ha'
    · rcases List.mem_cons.1 hb with rfl | hb'
      · rfl
      · have := (h1 b hb').1
        rw [this] at hab; cases hab
    · rcases List.mem_cons.1 hb with rfl | hb'
      · have := (h1 a ha').1
        rw [this] at hba; cases hba
      · exact h2 a ha' b hb' hab hba

theorem collect_entries {mk : Connector → List Term → Res Term} {c : Connector} : ∀ {ts : List Term},
    (∀ t ∈ ts, ∀ k us i, t = .comp k us i → k.isCommutative = true → k ≠ c ∧
      k.checkValid us.length = true ∧ mk k us = .ok t) →
    collect mk c (ts.map entryOf) = .ok ts
  | [], _ => rfl
  | t :: ts, h => by
    have ih := collect_entries (mk := mk) (c := c) (ts := ts) fun u hu => h u (by simp [hu])
    rw [List.map_cons]
    cases hc : category t with
    | none =>
      have : entryOf t = (none, [t]) := by simp [entryOf, hc]
      rw [this, collect, ih]
      rfl
    | some k =>
      have he : entryOf t = (some k, t.comps) := by simp [entryOf, hc]
      obtain ⟨us, i, rfl, hk⟩ := category_comp hc
      obtain ⟨h1, h2, h3⟩ := h _ (by simp) k us i rfl hk
      rw [he, collect, ih]
      simp only [comps, h1, if_false, h2, if_true, h3]
      rfl

/-- Nothing is to be done for a commutative compound. -/
theorem prepocess_steady {ord : Order} (hord : ∀ l, (ord l).Perm l)
    {mk : Connector → List Term → Res Term} {c : Connector} {ts : List Term}
    (hc : c.isCommutative = true) (g : ∀ t ∈ ts, Good t) (hs : SortedTs ts) (hne : ts ≠ [])
    (hi : ∀ t ∈ ts, Inert c t) (h1 : ∀ t, ts = [t] → category t = none)
    (hmk : ∀ t ∈ ts, ∀ k us i, t = .comp k us i → k.isCommutative = true → mk k us = .ok t) :
    prepocess ord mk c ts = .ok (c, ts) := by
  have hr := commutative_reducible c hc
  have hun := unfold_id fun t ht => (hi t ht).1
  have hself := setInsertAll_self hs
  have hkeys : ∀ k ∈ ord (keys ts), ∃ t ∈ ts, category t = k := fun k hk =>
    mem_keys_iff.1 ((hord _).mem_iff.1 hk)
  have hnorm := normAll_inert hi (ord (keys ts)) hkeys
  have hmem : ∀ z, z ∈ (ord (keys ts)).flatMap (group · ts) ↔ z ∈ ts := by
    intro z
    simp only [List.mem_flatMap, group, List.mem_filter, decide_eq_true_eq]
    constructor
    · rintro ⟨k, _, hz, _⟩; exact hz
    · intro hz
      exact ⟨category z, (hord _).mem_iff.2 (mem_keys_iff.2 ⟨z, hz, rfl⟩), hz, rfl⟩
  unfold prepocess
  simp only [hr, hc, Bool.not_true, Bool.false_eq_true, if_false, if_true, hun, hself, hnorm,
    Res.ok_bind]
  generalize hL : (ord (keys ts)).flatMap (group · ts) = L at hmem
  have hcol : collect mk c (L.map entryOf) = .ok L := by
    refine collect_entries fun t ht k us i e hk => ?_
    have ht := (hmem t).1 ht
    exact ⟨fun e' => (hi t ht).1 us i (by rw [e, e']), ((hi t ht).2 k us i e hk).2,
      hmk t ht k us i e hk⟩
  have hins : setInsertAll L [] = .ok ts := setInsertAll_perm g (sorted_separated hs) hmem hself
  match ts, hne with
  | [t], _ =>
    have ht := h1 t rfl
    have : L = [t] := by
      rw [← hL, keys_all (by simp) (by simpa using ht), perm_singleton hord]
      simp [group, ht]
    subst this
    simp [entryOf, ht, finalStep, setInsertAll, setInsert]
  | a :: b :: ts, _ =>
    have hab : a ≠ b := by
      rintro rfl
      have h2 := ((List.pairwise_cons.1 hs).1 a (by simp)).1
      rw [lt_irrefl (g a (by simp))] at h2
      cases h2
    have hlen : L.length > 1 := by
      have ha := (hmem a).2 (by simp)
      have hb := (hmem b).2 (by simp)
      match L, ha, hb with
      | [], ha, _ => simp at ha
      | [x], ha, hb =>
        rw [List.mem_singleton] at ha hb
        exact absurd (ha.trans hb.symm) hab
      | x :: y :: l, _, _ => simp
    simp [hlen, hcol, hins]

theorem Good.finishComp {c : Connector} {ts : List Term} {i : Info} (h : Good (.comp c ts i)) :
    Term.comp c ts i = Term.finishComp c ts ∧ (∀ t ∈ ts, Good t) ∧
      (c.isCommutative = true → SortedTs ts) := by
  generalize hx : Term.comp c ts i = x at h
  cases h with
  | comp c' hts hs =>
    obtain ⟨rfl, rfl, rfl⟩ := Term.comp.inj hx
    exact ⟨rfl, hts, hs⟩
  | _ => simp [mkAtom, mkOperation, mkInterval, mkVar, mkStmt] at hx

/-- Constructing again gives the same, with enough fuel. -/
theorem Steady.mkCompF {t : Term} (h : Steady t) : ∀ {c : Connector} {ts : List Term} {i : Info},
    t = .comp c ts i → Good t → ∀ {ord : Order}, (∀ l, (ord l).Perm l) →
    ∀ {n : Nat} (b : Bool), heights ts < n → mkCompF ord n c ts b = .ok t := by
  induction h with
  | atom => intro c ts i e; cases e
  | interval => intro c ts i e; cases e
  | var => intro c ts i e; cases e
  | stmt => intro c ts i e; cases e
  | @comp ts c i _ hn hc ih =>
    intro c' ts' i' e g ord hord n b hlt
    cases e
    obtain ⟨e, gts, hs⟩ := g.finishComp
    rw [e]
    obtain ⟨m, rfl⟩ : ∃ m, n = m + 1 := ⟨n - 1, by omega⟩
    refine mkCompF_of_prepocess gts ?_
    cases hcc : c.isCommutative with
    | false =>
      unfold prepocess
      cases hr : c.isReducible with
      | false => simp
      | true => simp [hcc, unfold_id (hn hr hcc)]
    | true =>
      obtain ⟨hne, hi, h1⟩ := hc hcc
      refine prepocess_steady hord hcc gts (hs hcc) hne hi h1 ?_
      rintro t ht k us j rfl hk
      refine ih _ ht rfl (gts _ ht) hord false ?_
      have h2 := height_le_heights ht
      simp only [Term.height] at h2
      omega

/-- Constructing again gives the same. -/
theorem Steady.mkComp {c : Connector} {ts : List Term} {i : Info} (h : Steady (.comp c ts i))
    (g : Good (.comp c ts i)) {ord : Order} (hord : ∀ l, (ord l).Perm l) (b : Bool) :
    mkComp ord c ts b = .ok (.comp c ts i) := by
  obtain ⟨_, gts, hs⟩ := g.finishComp
  have : Terms.ofList c.isCommutative ts = .ok ⟨c.isCommutative, ts⟩ := by
    cases hc : c.isCommutative with
    | false => simp [Terms.ofList]
    | true => simp [Terms.ofList, setInsertAll_self (hs hc)]
  rw [mkComp_eq this]
  exact h.mkCompF rfl g hord b (by omega)

end Cnars
