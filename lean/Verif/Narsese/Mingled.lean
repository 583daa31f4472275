import Verif.Narsese.Within

/-!
Helper lemmas: sets and other commutative compounds inside a commutative compound.
-/

namespace Cnars
open Term

/-! ## Terms without variables -/

/-- Without variables, and made by the constructors. -/
def Mute (t : Term) : Prop := Good t ∧ t.info.hasVar = false

theorem lt_mute {a b : Term} (ha : Mute a) : Mute b → lt a b = .ok (decide (a.hash.toNat < b.hash.toNat)) := by
  intro hb
  rw [lt_key ha.1 fun h => by have := ha.2; rw [h.2.1] at this; cases this]
  unfold Term.key
  rw [ha.2, hb.2]
  simp only [Bool.false_eq_true, if_false]
  congr 1
  rw [decide_eq_decide]
  omega

theorem above_mute {a b : Term} (ha : Mute a) (hb : Mute b) : Above a b ↔ a.hash.toNat < b.hash.toNat := by
  unfold Above
  rw [lt_mute ha hb, lt_mute hb ha]
  simp only [Res.ok.injEq, decide_eq_true_eq, decide_eq_false_iff_not]
  omega

/-- Terms that neither is below the other have the same hash. -/
theorem hash_of_tie {a b : Term} (ga : Good a) (gb : Good b) (h1 : lt a b = .ok false) (h2 : lt b a = .ok false) :
    a.hash = b.hash := by
  by_contra hne
  have h : ∀ {a b : Term}, Good a → a.hash ≠ b.hash → lt a b = .ok (decide (a.hash < b.hash)) := fun g hne =>
    lt_ltHead g (by unfold ltHead; rw [if_pos hne])
  rw [h ga hne, Res.ok.injEq, decide_eq_false_iff_not, BitVec.lt_def] at h1
  rw [h gb (Ne.symm hne), Res.ok.injEq, decide_eq_false_iff_not, BitVec.lt_def] at h2
  exact hne (BitVec.eq_of_toNat_eq (by omega))

/-- Insertion loses no hash. -/
theorem setInsertAll_hash {xs s r : List Term} (g : ∀ t ∈ xs, Good t) (gs : ∀ t ∈ s, Good t)
    (h : setInsertAll xs s = .ok r) : ∀ t, t ∈ xs ∨ t ∈ s → ∃ u ∈ r, u.hash = t.hash := by
  induction xs generalizing s with
  | nil =>
    simp only [setInsertAll, Res.ok.injEq] at h
    subst h
    exact fun t ht => ⟨t, by simpa using ht, rfl⟩
  | cons x xs ih =>
    simp only [setInsertAll, Res.bind_eq_ok] at h
    obtain ⟨s', h1, h2⟩ := h
    have gx : Good x := g x (by simp)
    obtain ⟨m1, m2, m3⟩ := setInsert_mem h1
    have gs' : ∀ t ∈ s', Good t := fun t ht => by
      rcases m1 t ht with rfl | ht
      · exact gx
      · exact gs t ht
    intro t ht
    have go := ih (fun t ht => g t (by simp [ht])) gs' h2
    rcases ht with ht | ht
    · rcases List.mem_cons.mp ht with rfl | ht
      · rcases m3 with m3 | ⟨y, hy, k1, k2⟩
        · exact go _ (.inr m3)
        · obtain ⟨u, hu, e⟩ := go y (.inr (m2 y hy))
          exact ⟨u, hu, e.trans (hash_of_tie gx (gs y hy) k1 k2).symm⟩
      · exact go t (.inl ht)
    · exact go t (.inr (m2 t ht))

/-! ## Union and intersection -/

section
variable {p : Word → Prop}

theorem mergeUnion_mute : ∀ {xs ys : List Term}, (∀ t ∈ xs, Mute t) → (∀ t ∈ ys, Mute t) →
    ∃ r, Terms.mergeUnion xs ys = .ok r ∧ ((∃ u ∈ xs, p u.hash) → ∃ u ∈ r, p u.hash) := by
  intro xs ys
  fun_induction Terms.mergeUnion xs ys with
  | case1 ys => exact fun _ _ => ⟨_, rfl, by simp⟩
  | case2 x xs => exact fun _ _ => ⟨_, rfl, id⟩
  | case3 x xs y ys ih1 ih2 ih3 =>
    intro hx hy
    have qx := hx x (by simp)
    have qy := hy y (by simp)
    have hx' : ∀ t ∈ xs, Mute t := fun t ht => hx t (by simp [ht])
    have hy' : ∀ t ∈ ys, Mute t := fun t ht => hy t (by simp [ht])
    rw [lt_mute qx qy, lt_mute qy qx]
    simp only [Res.ok_bind, decide_eq_true_eq]
    split
    · obtain ⟨r, e, h⟩ := ih1 hx' hy
      refine ⟨x :: r, by rw [e]; rfl, ?_⟩
      rintro ⟨u, hu, hp⟩
      rcases List.mem_cons.mp hu with rfl | hu
      · exact ⟨_, by simp, hp⟩
      · obtain ⟨v, hv, hp⟩ := h ⟨u, hu, hp⟩
        exact ⟨v, by simp [hv], hp⟩
    · split
      · obtain ⟨r, e, h⟩ := ih2 hx hy'
        refine ⟨y :: r, by rw [e]; rfl, fun hp => ?_⟩
        obtain ⟨v, hv, hp⟩ := h hp
        exact ⟨v, by simp [hv], hp⟩
      · obtain ⟨r, e, h⟩ := ih3 hx' hy'
        refine ⟨x :: r, by rw [e]; rfl, ?_⟩
        rintro ⟨u, hu, hp⟩
        rcases List.mem_cons.mp hu with rfl | hu
        · exact ⟨_, by simp, hp⟩
        · obtain ⟨v, hv, hp⟩ := h ⟨u, hu, hp⟩
          exact ⟨v, by simp [hv], hp⟩

theorem sorted_hash {x : Term} {xs : List Term} (h : SortedTs (x :: xs)) (hx : ∀ t ∈ x :: xs, Mute t) :
    ∀ t ∈ xs, x.hash.toNat < t.hash.toNat := fun t ht =>
  (above_mute (hx x (by simp)) (hx t (by simp [ht]))).1 (h.head t ht)

theorem mergeInter_mute {w : Word} : ∀ {xs ys : List Term}, (∀ t ∈ xs, Mute t) → (∀ t ∈ ys, Mute t) →
    SortedTs xs → SortedTs ys →
    ∃ r, Terms.mergeInter xs ys = .ok r ∧ ((∃ u ∈ xs, u.hash = w) → (∃ u ∈ ys, u.hash = w) → ∃ u ∈ r, u.hash = w) := by
  intro xs ys
  fun_induction Terms.mergeInter xs ys with
  | case1 ys => exact fun _ _ _ _ => ⟨_, rfl, by simp⟩
  | case2 x xs => exact fun _ _ _ _ => ⟨_, rfl, by simp⟩
  | case3 x xs y ys ih1 ih2 ih3 =>
    intro hx hy sx sy
    have qx := hx x (by simp)
    have qy := hy y (by simp)
    have hx' : ∀ t ∈ xs, Mute t := fun t ht => hx t (by simp [ht])
    have hy' : ∀ t ∈ ys, Mute t := fun t ht => hy t (by simp [ht])
    have bx := sorted_hash sx hx
    have by' := sorted_hash sy hy
    rw [lt_mute qx qy, lt_mute qy qx]
    simp only [Res.ok_bind, decide_eq_true_eq]
    split
    · obtain ⟨r, e, h⟩ := ih1 hx' hy sx.tail sy
      refine ⟨r, e, ?_⟩
      rintro ⟨u, hu, hp⟩ ⟨v, hv, hq⟩
      refine h ?_ ⟨v, hv, hq⟩
      rcases List.mem_cons.mp hu with rfl | hu
      · have : u.hash = v.hash := hp.trans hq.symm
        rcases List.mem_cons.mp hv with rfl | hv
        · rw [this] at *; omega
        · have := by' v hv
          rw [hp, ← hq] at *; omega
      · exact ⟨u, hu, hp⟩
    · split
      · obtain ⟨r, e, h⟩ := ih2 hx hy' sx sy.tail
        refine ⟨r, e, ?_⟩
        rintro ⟨u, hu, hp⟩ ⟨v, hv, hq⟩
        refine h ⟨u, hu, hp⟩ ?_
        rcases List.mem_cons.mp hv with rfl | hv
        · rcases List.mem_cons.mp hu with rfl | hu
          · rw [hp, ← hq] at *; omega
          · have := bx u hu
            rw [hp, ← hq] at *; omega
        · exact ⟨v, hv, hq⟩
      · obtain ⟨r, e, h⟩ := ih3 hx' hy' sx.tail sy.tail
        refine ⟨x :: r, by rw [e]; rfl, ?_⟩
        rintro ⟨u, hu, hp⟩ ⟨v, hv, hq⟩
        by_cases hw : x.hash = w
        · exact ⟨x, by simp, hw⟩
        have hxy : x.hash = y.hash := BitVec.eq_of_toNat_eq (by omega)
        have hu' : u ∈ xs := by
          rcases List.mem_cons.mp hu with rfl | hu
          · exact absurd hp hw
          · exact hu
        have hv' : v ∈ ys := by
          rcases List.mem_cons.mp hv with rfl | hv
          · exact absurd (hxy.trans hq) hw
          · exact hv
        obtain ⟨z, hz, hp⟩ := h ⟨u, hu', hp⟩ ⟨v, hv', hq⟩
        exact ⟨z, by simp [hz], hp⟩

theorem mute_keyed : Keyed Mute := by
  refine keyed_of_good (fun a h => h.1) fun a b ha _ _ h _ => ?_
  rw [ha.2] at h
  cases h

/-- An ascending list of terms without variables, one of which has such a hash. -/
def Level (p : Word → Prop) (l : List Term) : Prop := (∀ t ∈ l, Mute t) ∧ SortedTs l ∧ ∃ u ∈ l, p u.hash

theorem level_insert {r : List Term} (hq : ∀ t ∈ r, Mute t) (hp : ∃ u ∈ r, p u.hash) :
    ∃ l, setInsertAll r [] = .ok l ∧ Level p l ∧ ∀ t ∈ l, t ∈ r := by
  obtain ⟨u, hu, hp⟩ := hp
  obtain ⟨l, e, _⟩ := mute_keyed.setInsertAll (xs := r) (s := []) hq (by simp) (by simp [SortedTs])
    (.inl (List.ne_nil_of_mem hu))
  have hm : ∀ t ∈ l, t ∈ r := fun t ht => by
    rcases (setInsertAll_mem e).1 t ht with h | h
    · exact h
    · simp at h
  obtain ⟨v, hv, hh⟩ := setInsertAll_hash (fun t ht => (hq t ht).1) (by simp) e u (.inl hu)
  exact ⟨l, e, ⟨fun t ht => hq t (hm t ht), setInsertAll_sorted e (by simp [SortedTs]), v, hv, by rw [hh]; exact hp⟩, hm⟩

theorem foldOp_level {op : List Term → List Term → Res (List Term)}
    (hop : ∀ {xs ys}, Level p xs → Level p ys → ∃ r, op xs ys = .ok r ∧ (∀ t ∈ r, t ∈ xs ∨ t ∈ ys) ∧ ∃ u ∈ r, p u.hash) :
    ∀ {ts : List Terms} {acc : List Term}, Level p acc → (∀ t ∈ ts, t.comm = true ∧ Level p t.items) →
    ∃ r, Terms.foldOp op acc ts = .ok r ∧ Level p r
  | [], acc, ha, _ => ⟨acc, rfl, ha⟩
  | t :: ts, acc, ha, ht => by
    obtain ⟨hc, hl⟩ := ht t (by simp)
    obtain ⟨r, e1, hm, hp⟩ := hop ha hl
    obtain ⟨l, e2, h2, _⟩ := level_insert (fun t ht => by
      rcases hm t ht with h | h
      · exact ha.1 t h
      · exact hl.1 t h) hp
    obtain ⟨r', e3, h3⟩ := foldOp_level hop (ts := ts) h2 fun t h => ht t (by simp [h])
    exact ⟨r', by simp [Terms.foldOp, hc, e1, e2, e3], h3⟩

theorem setOp_level {op : List Term → List Term → Res (List Term)}
    (hop : ∀ {xs ys}, Level p xs → Level p ys → ∃ r, op xs ys = .ok r ∧ (∀ t ∈ r, t ∈ xs ∨ t ∈ ys) ∧ ∃ u ∈ r, p u.hash)
    {ts : List Terms} (hne : ts ≠ []) (ht : ∀ t ∈ ts, t.comm = true ∧ Level p t.items) :
    ∃ r, Terms.setOp op ts = .ok r ∧ Level p r.items := by
  match ts, hne with
  | t :: ts, _ =>
    obtain ⟨hc, hl⟩ := ht t (by simp)
    obtain ⟨r, e, h⟩ := foldOp_level hop (ts := ts) hl fun u hu => ht u (by simp [hu])
    obtain ⟨l, e2, h2, _⟩ := level_insert h.1 h.2.2
    exact ⟨⟨true, l⟩, by simp [Terms.setOp, Terms.unordered, hc, e, Terms.ofList, e2], h2⟩

theorem union_level {ts : List Terms} (hne : ts ≠ []) (ht : ∀ t ∈ ts, t.comm = true ∧ Level p t.items) :
    ∃ r, Terms.union ts = .ok r ∧ Level p r.items :=
  setOp_level (fun hx hy => by
    obtain ⟨r, e, h⟩ := mergeUnion_mute (p := p) hx.1 hy.1
    exact ⟨r, e, mergeUnion_mem e, h hx.2.2⟩) hne ht

theorem intersection_level {w : Word} {ts : List Terms} (hne : ts ≠ [])
    (ht : ∀ t ∈ ts, t.comm = true ∧ Level (· = w) t.items) :
    ∃ r, Terms.intersection ts = .ok r ∧ Level (· = w) r.items :=
  setOp_level (fun hx hy => by
    obtain ⟨r, e, h⟩ := mergeInter_mute (w := w) hx.1 hy.1 hx.2.1 hy.2.1
    exact ⟨r, e, fun t ht => .inl (mergeInter_mem e t ht), h hx.2.2 hy.2.2⟩) hne ht

end

/-! ## Compounds in compounds -/

/-- What a compound with the connector `k` inside one with `c` consists of: terms that are no commutative compounds,
as many as the connector asks for, and `a` if such compounds are intersected. -/
structure Shallow (c k : Connector) (a : Term) (us : List Term) : Prop where
  valid : k.checkValid us.length = true
  plain : ∀ u ∈ us, category u = none
  shared : mergeKind c k = .intersect → (∃ u ∈ us, u.hash = a.hash) ∧ ∀ u ∈ us, u.hash = a.hash → u = a

/-- The commutative compounds that are reached from the term through compounds with `c` have this connector, or only
terms in them that are no commutative compounds; if such compounds are intersected, they have the component `a`. -/
inductive Mingled (c : Connector) (a : Term) : Term → Prop where
  | other {t : Term} : category t = none → Mingled c a t
  | comp {us : List Term} {i : Info} : us ≠ [] → (∀ u ∈ us, Mingled c a u) → Mingled c a (.comp c us i)
  | shallow {k : Connector} {us : List Term} {i : Info} : k.isCommutative = true → k ≠ c → Shallow c k a us →
      Mingled c a (.comp k us i)

theorem Within.mingled {c : Connector} {a t : Term} (h : Within c t) : Mingled c a t := by
  induction h with
  | other h => exact .other h
  | comp h1 _ ih => exact .comp h1 ih

theorem Mingled.category {c : Connector} {a t : Term} (h : Mingled c a t) : Cnars.category t = none ∨
    ∃ k us i, Cnars.category t = some k ∧ t = .comp k us i ∧
      ((k = c ∧ us ≠ [] ∧ ∀ u ∈ us, Mingled c a u) ∨ (k ≠ c ∧ Shallow c k a us)) := by
  cases h with
  | other h => exact .inl h
  | @comp us i h1 h2 =>
    by_cases hc : c.isCommutative = true
    · exact .inr ⟨c, us, i, by simp [Cnars.category, hc], rfl, .inl ⟨rfl, h1, h2⟩⟩
    · exact .inl (by simp [Cnars.category, hc])
  | @shallow k us i hk hne h => exact .inr ⟨k, us, i, by simp [Cnars.category, hk], rfl, .inr ⟨hne, h⟩⟩

theorem valid_ne {k : Connector} {us : List Term} (h : k.checkValid us.length = true) : us ≠ [] := by
  rintro rfl
  simp [Connector.checkValid] at h

/-- A set of terms that has all terms without variables, and no commutative compounds with variables. -/
structure Calm (S : Term → Prop) : Prop where
  good : ∀ {t}, S t → Good t
  mute : ∀ {t}, Mute t → S t
  still : ∀ {k us i}, S (.comp k us i) → k.isCommutative = true → i.hasVar = false

section
variable {c : Connector} {a : Term} {S : Term → Prop}

/-- An entry of the normalised list. -/
def Noted (c : Connector) (a : Term) (S : Term → Prop) (e : Option Connector × List Term) : Prop :=
  (e.1 = none ∨ e.1 = some c) ∧ e.2 ≠ [] ∧ (∀ u ∈ e.2, Mingled c a u ∧ S u) ∨
  ∃ k, e.1 = some k ∧ k.isCommutative = true ∧ k ≠ c ∧ Shallow c k a e.2 ∧ (∀ u ∈ e.2, Mute u) ∧ SortedTs e.2

theorem mergeKind_set {c k : Connector} (hc : c.isCommutative = true) (hk : k ≠ c) :
    mergeKind c k = .none ∨ (mergeKind c k = .intersect ∨ mergeKind c k = .unite) ∧
      ∀ n, 0 < n → k.checkValid n = true := by
  cases c <;> cases k <;> first
    | (exact absurd hc (by decide)) | (exact absurd rfl hk) | (left; rfl)
    | (refine .inr ⟨by decide, fun n hn => ?_⟩
       simp [Connector.checkValid, Connector.isSingleOnly, Connector.isDoubleOnly, Connector.isMultipleOnly, Connector.look,
         Connector.singleOnlyTable, Connector.doubleOnlyTable, Connector.multipleOnlyTable, Connector.idx, hn])

theorem Calm.comps (hS : Calm S) {k : Connector} {us : List Term} {i : Info} (h : S (.comp k us i))
    (hk : k.isCommutative = true) : ∀ u ∈ us, Mute u := by
  have g := hS.good h
  have hv := hS.still h hk
  intro u hu
  have gu : Good u := Good.downClosed _ g u (show u ∈ us from hu)
  refine ⟨gu, ?_⟩
  by_contra hc
  rw [Bool.not_eq_false, gu.hasVar_iff] at hc
  obtain ⟨k', j, hm⟩ := hc
  have : (Term.comp k us i).info.hasVar = true := by
    rw [g.hasVar_iff]
    exact ⟨k', j, mem_leaves_comps.2 ⟨u, hu, hm⟩⟩
  rw [show (Term.comp k us i).info = i from rfl, hv] at this
  cases this

theorem good_sorted {k : Connector} {us : List Term} {i : Info} (g : Good (.comp k us i)) (hk : k.isCommutative = true) :
    SortedTs us := by
  rcases leaf_cases g with h | ⟨_, _, _, _, _, e⟩ | ⟨c', ts, _, e⟩
  · have := h.typeIdx
    simp [typeIdx] at this
  · cases e
  · cases g with
    | comp c _ h => exact h hk

theorem normGroup_mingled (hc : c.isCommutative = true) (hk : Keyed S) (hS : Calm S) {ts : List Term}
    (hw : ∀ t ∈ ts, Mingled c a t ∧ S t) {k : Option Connector} (hg : k ∈ keys ts) :
    ∃ r, normGroup c ts k = .ok r ∧ r ≠ [] ∧ ∀ e ∈ r, Noted c a S e := by
  obtain ⟨t, ht, rfl⟩ := mem_keys.1 hg
  rcases (hw t ht).1.category with e | ⟨k, vs, j, e, ht', _⟩
  · rw [e]
    refine ⟨_, rfl, ?_, ?_⟩
    · refine List.ne_nil_of_mem (List.mem_map_of_mem (a := t) ?_)
      simp [group, ht, e]
    · intro x hx
      obtain ⟨u, hu, rfl⟩ := List.mem_map.mp hx
      have hu' : u ∈ ts := (List.mem_filter.mp hu).1
      exact .inl ⟨.inl rfl, by simp, by simpa using hw u hu'⟩
  · rw [e]
    obtain ⟨_, _, _, hkc⟩ := category_comp e
    have htg : t ∈ group (some k) ts := by simp [group, ht, e]
    have hgr : ∀ u ∈ group (some k) ts, ∃ us i, u = .comp k us i ∧ S u ∧
        ((k = c ∧ us ≠ [] ∧ ∀ u ∈ us, Mingled c a u) ∨ (k ≠ c ∧ Shallow c k a us)) := by
      intro u hu
      obtain ⟨hu1, hu2⟩ := List.mem_filter.mp hu
      rcases (hw u hu1).1.category with e' | ⟨k', us, i, e', rfl, h⟩
      · simp [e'] at hu2
      · rw [e'] at hu2
        simp only [Option.some.injEq, decide_eq_true_eq] at hu2
        subst hu2
        exact ⟨us, i, rfl, (hw _ hu1).2, h⟩
    by_cases hkk : k = c
    · subst hkk
      have hgr' : ∀ u ∈ group (some k) ts, ∃ us i, u = .comp k us i ∧ us ≠ [] ∧ ∀ v ∈ us, Mingled k a v ∧ S v := by
        intro u hu
        obtain ⟨us, i, rfl, hs, ⟨_, h1, h2⟩ | ⟨h, _⟩⟩ := hgr u hu
        · exact ⟨us, i, rfl, h1, fun v hv => ⟨h2 v hv, hS.mute (hS.comps hs hkc v hv)⟩⟩
        · exact absurd rfl h
      have single : ∃ r, (Res.ok ((group (some k) ts).map fun t => (some k, t.comps)) : Res _) = .ok r ∧ r ≠ [] ∧
          ∀ e ∈ r, Noted k a S e := by
        refine ⟨_, rfl, List.ne_nil_of_mem (List.mem_map_of_mem htg), ?_⟩
        intro x hx
        obtain ⟨u, hu, rfl⟩ := List.mem_map.mp hx
        obtain ⟨us, i, rfl, h1, h2⟩ := hgr' u hu
        exact .inl ⟨.inr rfl, h1, h2⟩
      have hm : mergeKind k k = .none ∨ mergeKind k k = .concat := by
        cases k <;> first | (left; rfl) | (right; rfl)
      rcases hm with hm | hm
      · simpa only [normGroup, mergeCompounds, hm, Res.pure_eq, Res.ok_bind] using single
      · obtain ⟨r, e1, h1⟩ := hk.setInsertAll (xs := (group (some k) ts).flatMap comps) (s := [])
          (by
            intro v hv
            obtain ⟨u, hu, hv⟩ := List.mem_flatMap.mp hv
            obtain ⟨us, i, rfl, _, h2⟩ := hgr' u hu
            exact (h2 v hv).2)
          (by simp) (by simp [SortedTs])
          (.inl (by
            obtain ⟨us, i, rfl, h1, _⟩ := hgr' t htg
            obtain ⟨v, hv⟩ := List.exists_mem_of_ne_nil _ h1
            exact List.ne_nil_of_mem (List.mem_flatMap.mpr ⟨_, htg, hv⟩)))
        refine ⟨[(some k, r)], ?_, by simp, ?_⟩
        · simp [normGroup, mergeCompounds, hm, Terms.ofList, hc, e1]
        · intro x hx
          rw [List.mem_singleton.mp hx]
          refine .inl ⟨.inr rfl, h1, fun v hv => ?_⟩
          rcases (setInsertAll_mem e1).1 v hv with hv | hv
          · obtain ⟨u, hu, hv⟩ := List.mem_flatMap.mp hv
            obtain ⟨us, i, rfl, _, h2⟩ := hgr' u hu
            exact h2 v hv
          · simp at hv
    · have hgr' : ∀ u ∈ group (some k) ts, ∃ us i, u = .comp k us i ∧ Shallow c k a us ∧ (∀ v ∈ us, Mute v) ∧ SortedTs us := by
        intro u hu
        obtain ⟨us, i, rfl, hs, ⟨h, _⟩ | ⟨_, h⟩⟩ := hgr u hu
        · exact absurd h hkk
        · exact ⟨us, i, rfl, h, hS.comps hs hkc, good_sorted (hS.good hs) hkc⟩
      have hne : (group (some k) ts).map termsOf ≠ [] := List.ne_nil_of_mem (List.mem_map_of_mem htg)
      -- The result of a union or an intersection.
      have merged : ∀ {p : Word → Prop} {r : List Term}, Level p r → (∀ n, 0 < n → k.checkValid n = true) →
          (mergeKind c k = .intersect → p = (· = a.hash)) →
          mergeCompounds c k (group (some k) ts) = .ok (some r) → Noted c a S (some k, r) := by
        intro p r hl hv hp hm
        obtain ⟨u, hu, hpu⟩ := hl.2.2
        have hmem := mergeCompounds_mem hm
        have hfrom : ∀ u ∈ r, category u = none ∧ (mergeKind c k = .intersect → u.hash = a.hash → u = a) := by
          intro u hu
          obtain ⟨t, ht, hu⟩ := hmem u hu
          obtain ⟨us, i, rfl, h, _⟩ := hgr' t ht
          exact ⟨h.plain u hu, fun hi => (h.shared hi).2 u hu⟩
        refine .inr ⟨k, rfl, hkc, hkk, ⟨hv _ (List.length_pos_of_mem hu), fun u hu => (hfrom u hu).1, fun hi => ?_⟩,
          hl.1, hl.2.1⟩
        refine ⟨⟨u, hu, ?_⟩, fun u hu => (hfrom u hu).2 hi⟩
        rw [hp hi] at hpu
        exact hpu
      rcases mergeKind_set hc hkk with hm | ⟨hm | hm, hv⟩
      · refine ⟨(group (some k) ts).map fun t => (some k, t.comps), by simp [normGroup, mergeCompounds, hm],
          List.ne_nil_of_mem (List.mem_map_of_mem htg), ?_⟩
        intro x hx
        obtain ⟨u, hu, rfl⟩ := List.mem_map.mp hx
        obtain ⟨us, i, rfl, h1, h2, h3⟩ := hgr' u hu
        exact .inr ⟨k, rfl, hkc, hkk, h1, h2, h3⟩
      · obtain ⟨r, e1, hl⟩ := intersection_level (w := a.hash) hne (by
          intro t ht
          obtain ⟨u, hu, rfl⟩ := List.mem_map.mp ht
          obtain ⟨us, i, rfl, h1, h2, h3⟩ := hgr' u hu
          exact ⟨hkc, h2, h3, (h1.shared hm).1⟩)
        have hmc : mergeCompounds c k (group (some k) ts) = .ok (some r.items) := by simp [mergeCompounds, hm, e1]
        refine ⟨[(some k, r.items)], by simp [normGroup, hmc], by simp, ?_⟩
        intro x hx
        rw [List.mem_singleton.mp hx]
        exact merged hl hv (fun _ => rfl) hmc
      · obtain ⟨r, e1, hl⟩ := union_level (p := fun _ => True) hne (by
          intro t ht
          obtain ⟨u, hu, rfl⟩ := List.mem_map.mp ht
          obtain ⟨us, i, rfl, h1, h2, h3⟩ := hgr' u hu
          obtain ⟨v, hv⟩ := List.exists_mem_of_ne_nil _ (valid_ne h1.valid)
          exact ⟨hkc, h2, h3, v, hv, trivial⟩)
        have hmc : mergeCompounds c k (group (some k) ts) = .ok (some r.items) := by simp [mergeCompounds, hm, e1]
        refine ⟨[(some k, r.items)], by simp [normGroup, hmc], by simp, ?_⟩
        intro x hx
        rw [List.mem_singleton.mp hx]
        exact merged hl hv (fun hi => by rw [hm] at hi; cases hi) hmc

theorem normAll_mingled (hc : c.isCommutative = true) (hk : Keyed S) (hS : Calm S) {ts : List Term}
    (hw : ∀ t ∈ ts, Mingled c a t ∧ S t) : ∀ {ks : List (Option Connector)}, (∀ k ∈ ks, k ∈ keys ts) →
    ∃ r, normAll c ts ks = .ok r ∧ (ks ≠ [] → r ≠ []) ∧ ∀ e ∈ r, Noted c a S e
  | [], _ => ⟨[], rfl, by simp, by simp⟩
  | k :: ks, h => by
    obtain ⟨x, e1, h1, h2⟩ := normGroup_mingled hc hk hS hw (h k List.mem_cons_self)
    obtain ⟨y, e2, _, h3⟩ := normAll_mingled hc hk hS hw (ks := ks) fun k hk => h k (List.mem_cons_of_mem _ hk)
    refine ⟨x ++ y, by simp [normAll, e1, e2], fun _ => by simp [h1], ?_⟩
    intro e he
    rcases List.mem_append.mp he with he | he
    · exact h2 e he
    · exact h3 e he

/-- Construction from an ascending list without commutative compounds. -/
theorem mkCompF_level {ord : Order} (hord : ∀ l, (ord l).Perm l) {n : Nat} {k : Connector} {us : List Term} {b : Bool}
    (hk : k.isCommutative = true) (g : ∀ t ∈ us, Good t) (hs : SortedTs us) (hne : us ≠ [])
    (hp : ∀ t ∈ us, category t = none) : mkCompF ord (n + 1) k us b = .ok (finishComp k us) := by
  refine mkCompF_of_prepocess g ?_
  have hun : unfold k us = us := unfold_id fun t ht vs i e => by
    have := hp t ht
    rw [e] at this
    simp [category, hk] at this
  have hnorm : normAll k us (ord (keys us)) = .ok (us.map fun t => (none, [t])) := by
    rw [keys_all hne hp, perm_singleton hord]
    simp [normAll, normGroup, group_all hp]
  simp only [prepocess, commutative_reducible k hk, Bool.not_true, Bool.false_eq_true, if_false, hk, if_true, hun,
    setInsertAll_self hs, Res.ok_bind, hnorm]
  match us, hne with
  | [t], _ => simp [finalStep, setInsertAll, setInsert]
  | t :: u :: us, _ =>
    have := collect_none (mk := fun c us => mkCompF ord n c us false) (parent := k) (t :: u :: us)
    simp only [List.map_cons] at this ⊢
    rw [if_pos (by simp), this, Res.ok_bind, if_pos (by simp), setInsertAll_self hs]
    rfl

theorem mute_comp {k : Connector} {us : List Term} (hm : ∀ u ∈ us, Mute u) (hs : SortedTs us) : Mute (finishComp k us) := by
  have g : Good (finishComp k us) := .comp k (fun t ht => (hm t ht).1) fun _ => hs
  refine ⟨g, ?_⟩
  by_contra hc
  rw [Bool.not_eq_false, g.hasVar_iff] at hc
  obtain ⟨k', j, h⟩ := hc
  obtain ⟨u, hu, h⟩ := mem_leaves_comps.1 h
  have : u.info.hasVar = true := by
    rw [(hm u hu).1.hasVar_iff]
    exact ⟨k', j, h⟩
  rw [(hm u hu).2] at this
  cases this

theorem collect_mingled {mk : Connector → List Term → Res Term} (hS : Calm S)
    (hmk : ∀ {k us}, k.isCommutative = true → k ≠ c → Shallow c k a us → (∀ u ∈ us, Mute u) → SortedTs us →
      mk k us = .ok (finishComp k us)) : ∀ {es : List (Option Connector × List Term)},
    (∀ e ∈ es, Noted c a S e) → ∃ r, collect mk c es = .ok r ∧ es.length ≤ r.length ∧ ∀ u ∈ r, Mingled c a u ∧ S u
  | [], _ => ⟨[], rfl, by simp, by simp⟩
  | (k, us) :: es, h => by
    obtain ⟨b, e2, h1, h2⟩ := collect_mingled hS hmk (es := es) fun e he => h e (List.mem_cons_of_mem _ he)
    rcases h (k, us) List.mem_cons_self with ⟨h3, h4, h5⟩ | ⟨k', hk', h3, h4, h5, h6, h7⟩
    · have hl : 0 < us.length := List.length_pos_of_ne_nil h4
      refine ⟨us ++ b, ?_, by simp; omega, ?_⟩
      · rcases h3 with h3 | h3 <;> simp only at h3 <;> subst h3 <;> simp [collect, e2]
      · intro u hu
        rcases List.mem_append.mp hu with hu | hu
        · exact h5 u hu
        · exact h2 u hu
    · simp only at hk' h5 h6 h7
      subst hk'
      refine ⟨finishComp k' us :: b, ?_, by simp; omega, ?_⟩
      · simp [collect, e2, h4, h5.valid, hmk h3 h4 h5 h6 h7]
      · intro u hu
        rcases List.mem_cons.mp hu with rfl | hu
        · exact ⟨.shallow h3 h4 h5, hS.mute (mute_comp h6 h7)⟩
        · exact h2 u hu

/-- The connector and the components of the result. -/
def Result (c : Connector) (a : Term) (c' : Connector) (r : List Term) : Prop :=
  c' = c ∧ r ≠ [] ∧ (∀ u ∈ r, Mingled c a u) ∨ c'.isCommutative = true ∧ c' ≠ c ∧ Shallow c c' a r

theorem Result.mingled {c' : Connector} {r : List Term} (h : Result c a c' r) : Mingled c a (finishComp c' r) := by
  rcases h with ⟨rfl, h1, h2⟩ | ⟨h1, h2, h3⟩
  · exact .comp h1 h2
  · exact .shallow h1 h2 h3

theorem finalStep_mingled (hk : Keyed S) {k : Option Connector} {us : List Term} (h : Noted c a S (k, us)) :
    ∃ c' r, finalStep c k us = .ok (c', r) ∧ Result c a c' r := by
  rcases h with ⟨h3, h4, h5⟩ | ⟨k', hk', h3, h4, h5, h6, h7⟩
  · obtain ⟨r, e1, h1⟩ := hk.setInsertAll (xs := us) (s := []) (fun v hv => (h5 v hv).2) (by simp)
      (by simp [SortedTs]) (.inl h4)
    refine ⟨c, r, ?_, .inl ⟨rfl, h1, fun v hv => ?_⟩⟩
    · rcases h3 with h3 | h3 <;> simp only at h3 <;> subst h3
      · simp [finalStep, e1]
      · cases c <;> simp [finalStep, e1]
    · rcases (setInsertAll_mem e1).1 v hv with hv | hv
      · exact (h5 v hv).1
      · simp at hv
  · simp only at hk' h5 h6 h7
    subst hk'
    have e1 := setInsertAll_self h7
    have same : Result c a c us := .inl ⟨rfl, valid_ne h5.valid, fun u hu => .other (h5.plain u hu)⟩
    have own : Result c a k' us := .inr ⟨h3, h4, h5⟩
    unfold finalStep
    rw [e1, Res.ok_bind]
    split
    · rename_i he
      cases he
      split
      · exact ⟨_, _, rfl, own⟩
      · exact ⟨_, _, rfl, same⟩
    · rename_i he
      cases he
      split
      · exact ⟨_, _, rfl, own⟩
      · exact ⟨_, _, rfl, same⟩
    · exact ⟨_, _, rfl, same⟩

theorem keyed_ne (hk : Keyed S) {xs : List Term} (hx : ∀ t ∈ xs, S t) (hne : xs ≠ []) :
    ∃ r, setInsertAll xs [] = .ok r ∧ r ≠ [] ∧ ∀ t ∈ r, t ∈ xs := by
  obtain ⟨r, e, h⟩ := hk.setInsertAll (xs := xs) (s := []) hx (by simp) (by simp [SortedTs]) (.inl hne)
  refine ⟨r, e, h, fun t ht => ?_⟩
  rcases (setInsertAll_mem e).1 t ht with h | h
  · exact h
  · simp at h

/-- A commutative connector around terms in which it occurs itself, and in them other commutative compounds:
construction is defined, and the result is of the same kind. -/
theorem mkComp_mingled {ord : Order} (hord : ∀ l, (ord l).Perm l) (hc : c.isCommutative = true) (hk : Keyed S)
    (hS : Calm S) {args : List Term} {b : Bool} (hne : args ≠ []) (hw : ∀ t ∈ args, Mingled c a t ∧ S t) :
    ∃ r, mkComp ord c args b = .ok r ∧ Mingled c a r := by
  have g : ∀ t ∈ args, Good t := fun t ht => hS.good (hw t ht).2
  by_cases hflat : ∀ t ∈ args, category t = none
  · obtain ⟨r, e, h1, h2⟩ := mkComp_within (b := b) hord hc hk
      (fun us i h u hu => hS.mute (hS.comps h hc u hu)) hne g fun t ht => ⟨.other (hflat t ht), (hw t ht).2⟩
    exact ⟨_, e, .comp h1 fun u hu => (h2 u hu).1.mingled⟩
  obtain ⟨n, hn⟩ : ∃ n, heights args = n + 1 := by
    push Not at hflat
    obtain ⟨t, ht, h⟩ := hflat
    rcases (hw t ht).1.category with e | ⟨k, us, i, _, rfl, _⟩
    · exact absurd e h
    · have := height_le_heights ht
      simp only [Term.height] at this
      exact ⟨heights args - 1, by omega⟩
  obtain ⟨ts, e0, hts, m0⟩ := keyed_ne hk (fun t ht => (hw t ht).2) hne
  have hu : ∀ t ∈ unfold c ts, Mingled c a t ∧ S t := by
    intro t ht
    rcases mem_unfold.1 ht with ⟨us, i, h1, h2⟩ | ⟨h1, _⟩
    · have hx := hw _ (m0 _ h1)
      rcases hx.1.category with e | ⟨_, us', i', _, e, ⟨rfl, _, h3⟩ | ⟨h, _⟩⟩
      · simp [category, hc] at e
      · cases e
        exact ⟨h3 t h2, hS.mute (hS.comps hx.2 hc t h2)⟩
      · cases e
        exact absurd rfl h
    · exact hw t (m0 t h1)
  have hun : unfold c ts ≠ [] := by
    obtain ⟨t, ht⟩ := List.exists_mem_of_ne_nil _ hts
    by_cases ht' : ∃ us i, t = .comp c us i
    · obtain ⟨us, i, rfl⟩ := ht'
      rcases (hw _ (m0 _ ht)).1.category with e | ⟨_, us', i', _, e, ⟨rfl, h1, _⟩ | ⟨h, _⟩⟩
      · simp [category, hc] at e
      · cases e
        obtain ⟨v, hv⟩ := List.exists_mem_of_ne_nil _ h1
        exact List.ne_nil_of_mem (mem_unfold.2 (.inl ⟨us, i, ht, hv⟩))
      · cases e
        exact absurd rfl h
    · push Not at ht'
      exact List.ne_nil_of_mem (mem_unfold.2 (.inr ⟨ht, ht'⟩))
  obtain ⟨us, e1, hus, m1⟩ := keyed_ne hk (fun t ht => (hu t ht).2) hun
  obtain ⟨norm, e2, h2, h3⟩ := normAll_mingled hc hk hS (fun t ht => hu t (m1 t ht)) (ks := ord (keys us))
    fun k hk => (hord _).mem_iff.mp hk
  have hnorm : norm ≠ [] := h2 (by
    obtain ⟨t, ht⟩ := List.exists_mem_of_ne_nil _ hus
    exact List.ne_nil_of_mem ((hord _).mem_iff.mpr (mem_keys.2 ⟨t, ht, rfl⟩)))
  rw [mkComp_eq (ts := ts) (by simp [Terms.ofList, hc, e0]), hn]
  suffices H : ∃ c' r, prepocess ord (fun c us => mkCompF ord (n + 1) c us false) c ts = .ok (c', r) ∧
      Result c a c' r by
    obtain ⟨c', r, h, h'⟩ := H
    exact ⟨_, mkCompF_of_prepocess (fun t ht => g t (m0 t ht)) h, h'.mingled⟩
  simp only [prepocess, commutative_reducible c hc, Bool.not_true, Bool.false_eq_true, if_false, hc, if_true, e1,
    Res.ok_bind, e2]
  split
  · rename_i hl
    obtain ⟨all, e3, h4, h5⟩ := collect_mingled (mk := fun c us => mkCompF ord (n + 1) c us false) hS
      (fun hk _ h5 h6 h7 => mkCompF_level hord hk (fun t ht => (h6 t ht).1) h7 (valid_ne h5.valid) h5.plain) h3
    obtain ⟨r, e4, h6, m4⟩ := keyed_ne hk (fun t ht => (h5 t ht).2)
      (by intro e; subst e; simp at h4; subst h4; simp at hl)
    refine ⟨c, r, ?_, .inl ⟨rfl, h6, fun u hu => (h5 u (m4 u hu)).1⟩⟩
    rw [e3, Res.ok_bind, if_pos (by omega), e4]
    rfl
  · match norm, hnorm with
    | (k, us) :: more, _ =>
      exact finalStep_mingled hk (h3 _ List.mem_cons_self)

end

end Cnars
