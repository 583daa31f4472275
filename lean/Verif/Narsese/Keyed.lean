import Verif.Narsese.Steady
import Verif.Narsese.LeafHash

/-!
Helper lemmas: when the comparator is a strict weak order, every insertion into a set is defined, also for different
terms with the same hash; and some sets of terms on which it is.
-/

namespace Cnars
open Term

/-- The comparator orders the terms: what `std::set` asks of it. -/
structure Keyed (S : Term → Prop) : Prop where
  total : ∀ {a b}, S a → S b → ∃ x, lt a b = .ok x
  asymm : ∀ {a b}, S a → S b → lt a b = .ok true → lt b a = .ok false
  cotrans : ∀ {a b c}, S a → S b → S c → lt a c = .ok true → lt a b = .ok true ∨ lt b c = .ok true

theorem Keyed.mono {S T : Term → Prop} (h : Keyed S) (hT : ∀ t, T t → S t) : Keyed T :=
  ⟨fun ha hb => h.total (hT _ ha) (hT _ hb), fun ha hb => h.asymm (hT _ ha) (hT _ hb),
    fun ha hb hc => h.cotrans (hT _ ha) (hT _ hb) (hT _ hc)⟩

theorem Keyed.above {S : Term → Prop} (h : Keyed S) {a b : Term} (ha : S a) (hb : S b) :
    Above a b ↔ lt a b = .ok true :=
  ⟨And.left, fun e => ⟨e, h.asymm ha hb e⟩⟩

theorem Keyed.setInsert {S : Term → Prop} (h : Keyed S) {x : Term} {s : List Term}
    (hx : S x) (hs : ∀ t ∈ s, S t) (hsort : SortedTs s) :
    ∃ r, setInsert x s = .ok r ∧ r ≠ [] := by
  induction s with
  | nil => exact ⟨[x], rfl, by simp⟩
  | cons y ys ih =>
    have hy := hs y (by simp)
    have hys : ∀ t ∈ ys, S t := fun t ht => hs t (by simp [ht])
    obtain ⟨hyb, hsort'⟩ := List.pairwise_cons.1 hsort
    have hc : lt y x = .ok false → checkAbove x ys = .ok () := fun e => checkAbove_ok.2 fun z hz =>
      (h.above hx (hys z hz)).2 ((h.cotrans hy hx (hys z hz) (hyb z hz).1).resolve_left (by rw [e]; simp))
    obtain ⟨p, hp⟩ := h.total hy hx
    obtain ⟨q, hq⟩ := h.total hx hy
    simp only [Cnars.setInsert, hp, hq, Res.ok_bind]
    cases p with
    | true =>
      rw [h.asymm hy hx hp, Res.ok.injEq] at hq
      subst hq
      obtain ⟨r, hr, _⟩ := ih hys hsort'
      exact ⟨y :: r, by simp [hr], by simp⟩
    | false =>
      cases q with
      | true => exact ⟨x :: y :: ys, by simp [hc hp], by simp⟩
      | false => exact ⟨y :: ys, by simp [hc hp], by simp⟩

theorem Keyed.setInsertAll {S : Term → Prop} (h : Keyed S) {xs s : List Term}
    (hx : ∀ t ∈ xs, S t) (hs : ∀ t ∈ s, S t) (hsort : SortedTs s) (hne : xs ≠ [] ∨ s ≠ []) :
    ∃ r, setInsertAll xs s = .ok r ∧ r ≠ [] := by
  induction xs generalizing s with
  | nil => exact ⟨s, rfl, by simpa using hne⟩
  | cons x xs ih =>
    obtain ⟨s', e, hn⟩ := h.setInsert (hx x (by simp)) hs hsort
    obtain ⟨r, e2, hr⟩ := ih (s := s') (fun t ht => hx t (by simp [ht]))
      (fun t ht => by
        rcases (setInsert_mem e).1 t ht with rfl | h'
        · exact hx t (by simp)
        · exact hs t h') (setInsert_sorted e hsort) (.inr hn)
    exact ⟨r, by simp [Cnars.setInsertAll, e, e2], hr⟩

/-! ## Sets of terms that are ordered -/

/-- The comparator does not decide by hash, presence of variables or type. -/
def Tie (a b : Term) : Prop :=
  a.hash = b.hash ∧ a.info.hasVar = true ∧ b.info.hasVar = true ∧ a.typeIdx = b.typeIdx

/-- Hash, then terms with variables before the others, then their types. -/
def Term.key (t : Term) : Nat := 4 * t.hash.toNat + if t.info.hasVar then t.typeIdx else 3

theorem typeIdx_lt (t : Term) : t.typeIdx < 3 := by cases t <;> simp [typeIdx]

theorem lt_ltHead {a b : Term} (ga : Good a) {r : Bool} (hh : ltHead a b = some r) : lt a b = .ok r := by
  rcases leaf_cases ga with la | ⟨s, c, p, _, _, rfl⟩ | ⟨c, ts, _, rfl⟩
  · rw [lt_leaf la, hh]
  · rw [lt_stmt, hh]
  · rw [lt_comp, hh]

theorem lt_key {a b : Term} (ga : Good a) (h : ¬ Tie a b) : lt a b = .ok (decide (a.key < b.key)) := by
  refine lt_ltHead ga ?_
  have h1 := typeIdx_lt a
  have h2 := typeIdx_lt b
  unfold Tie at h
  unfold ltHead Term.key
  by_cases he : a.hash = b.hash
  · rw [if_neg (by simpa using he), he]
    cases ha : a.info.hasVar <;> cases hb : b.info.hasVar
    · simp
    · simp; omega
    · simp; omega
    · have ht : a.typeIdx ≠ b.typeIdx := by simpa [he, ha, hb] using h
      simp [ht]
  · have hn : a.hash.toNat ≠ b.hash.toNat := fun e => he (BitVec.eq_of_toNat_eq e)
    rw [if_pos he]
    congr 1
    rw [decide_eq_decide, BitVec.lt_def]
    split <;> split <;> omega

theorem key_eq {a b : Term} (h : Tie a b) : a.key = b.key := by
  unfold Term.key
  rw [h.1, h.2.1, h.2.2.1, h.2.2.2]

theorem key_tie {a b : Term} (h : a.key = b.key) (ha : a.info.hasVar = true) : Tie a b := by
  have h1 := typeIdx_lt a
  have h2 := typeIdx_lt b
  unfold Term.key at h
  rw [if_pos ha] at h
  cases hb : b.info.hasVar with
  | false => rw [hb, if_neg (by simp)] at h; omega
  | true =>
    rw [hb, if_pos rfl] at h
    exact ⟨BitVec.eq_of_toNat_eq (by omega), ha, hb, by omega⟩

theorem Tie.symm {a b : Term} (h : Tie a b) : Tie b a := ⟨h.1.symm, h.2.2.1, h.2.1, h.2.2.2.symm⟩

/-- It is enough that terms are ordered that are not told apart by hash, presence of variables or type. -/
theorem keyed_of_ties {S : Term → Prop} (hg : ∀ a, S a → Good a)
    (ha : ∀ a b, S a → S b → Tie a b → lt a b = .ok true → lt b a = .ok false)
    (hc : ∀ a b c, S a → S b → S c → Tie a b → Tie b c → lt a c = .ok true → lt a b = .ok true ∨ lt b c = .ok true) :
    Keyed S where
  total h1 h2 := lt_defined (hg _ h1) (hg _ h2)
  asymm {a b} h1 h2 h := by
    by_cases ht : Tie a b
    · exact ha a b h1 h2 ht h
    · rw [lt_key (hg a h1) ht] at h
      rw [lt_key (hg b h2) fun h => ht h.symm]
      simp only [Res.ok.injEq, decide_eq_true_eq, decide_eq_false_iff_not] at h ⊢
      omega
  cotrans {a b c} h1 h2 h3 h := by
    have hle : a.key ≤ c.key := by
      by_cases ht : Tie a c
      · exact Nat.le_of_eq (key_eq ht)
      · rw [lt_key (hg a h1) ht] at h
        simp only [Res.ok.injEq, decide_eq_true_eq] at h
        omega
    by_cases k1 : a.key < b.key
    · left
      rw [lt_key (hg a h1) fun h => by have := key_eq h; omega]
      simp [k1]
    by_cases k2 : b.key < c.key
    · right
      rw [lt_key (hg b h2) fun h => by have := key_eq h; omega]
      simp [k2]
    have e1 : a.key = b.key := by omega
    have e2 : b.key = c.key := by omega
    by_cases ht : Tie a c
    · have t1 : Tie a b := key_tie e1 ht.2.1
      exact hc a b c h1 h2 h3 t1 (key_tie e2 t1.2.2.1) h
    · rw [lt_key (hg a h1) ht] at h
      simp only [Res.ok.injEq, decide_eq_true_eq] at h
      omega

/-- Good terms of which no two with variables have the same hash. -/
theorem keyed_of_good {S : Term → Prop} (hg : ∀ a, S a → Good a)
    (hd : ∀ a b, S a → S b → a.hash = b.hash → a.info.hasVar = true → b.info.hasVar = true → a = b) :
    Keyed S := by
  refine keyed_of_ties hg (fun a b ha hb ht h => ?_) fun a b c ha hb hc h1 h2 h => ?_
  · obtain rfl := hd a b ha hb ht.1 ht.2.1 ht.2.2.1
    exact lt_irrefl (hg a ha)
  · obtain rfl := hd a b ha hb h1.1 h1.2.1 h1.2.2.1
    exact .inr h

theorem lt_var {k : VarKind} {m n : String} {i j : Int} :
    lt (mkVar k m i) (mkVar k n j) = .ok (decide (i < j)) := by
  have hh : ltHead (mkVar k m i) (mkVar k n j) = none := by simp [ltHead, mkVar, Term.hash, Term.info, typeIdx]
  rw [lt_leaf (.var ..), hh]
  cases k <;> simp [leafLt, mkVar, varKind, IV.front, IV.single, Res.ofOption, Term.info]

theorem leaf_var {a : Term} (h : IsLeaf a) (hv : a.info.hasVar = true) : ∃ k n i, a = mkVar k n i := by
  cases h with
  | var k n i => exact ⟨k, n, i, rfl⟩
  | _ => simp [mkAtom, mkOperation, mkInterval, Term.info, leafInfo] at hv

/-- Two variables that tie have the same kind. -/
theorem tie_vars {a b : Term} (la : IsLeaf a) (lb : IsLeaf b) (h : Tie a b) :
    ∃ k m i n j, a = mkVar k m i ∧ b = mkVar k n j := by
  obtain ⟨k, m, i, rfl⟩ := leaf_var la h.2.1
  obtain ⟨k', n, j, rfl⟩ := leaf_var lb h.2.2.1
  obtain rfl : k = k' := varHash_inj h.1
  exact ⟨k, m, i, n, j, rfl, rfl⟩

theorem leaf_asymm {a b : Term} (la : IsLeaf a) (lb : IsLeaf b) (ht : Tie a b) (h : lt a b = .ok true) :
    lt b a = .ok false := by
  obtain ⟨k, m, i, n, j, rfl, rfl⟩ := tie_vars la lb ht
  rw [lt_var, Res.ok.injEq, decide_eq_true_eq] at h
  rw [lt_var, Res.ok.injEq, decide_eq_false_iff_not]
  omega

theorem leaf_cotrans {a b c : Term} (la : IsLeaf a) (lb : IsLeaf b) (lc : IsLeaf c) (h1 : Tie a b) (h2 : Tie b c)
    (h : lt a c = .ok true) : lt a b = .ok true ∨ lt b c = .ok true := by
  obtain ⟨k, m, i, n, j, rfl, rfl⟩ := tie_vars la lb h1
  obtain ⟨k', m', i', n', j', e, rfl⟩ := tie_vars lb lc h2
  have : k = k' := congrArg (fun t => (varKind t).getD k) e |>.trans rfl
  subst this
  rw [lt_var, Res.ok.injEq, decide_eq_true_eq] at h
  rw [lt_var, lt_var, Res.ok.injEq, decide_eq_true_eq, Res.ok.injEq, decide_eq_true_eq]
  omega

/-- Good terms without variables, and any variables. -/
theorem keyed_leaves {S : Term → Prop} (hg : ∀ a, S a → Good a) (hl : ∀ a, S a → a.info.hasVar = true → IsLeaf a) :
    Keyed S :=
  keyed_of_ties hg (fun _ _ ha hb ht => leaf_asymm (hl _ ha ht.2.1) (hl _ hb ht.2.2.1) ht)
    fun _ _ _ ha hb hc h1 h2 => leaf_cotrans (hl _ ha h1.2.1) (hl _ hb h1.2.2.1) (hl _ hc h2.2.2.1) h1 h2

theorem ltHead_tie {a b : Term} (h : Tie a b) : ltHead a b = none := by
  rw [ltHead_same h.1 (h.2.1.trans h.2.2.1.symm) h.2.2.2, if_pos h.2.1]

/-- Statements that tie, with the same copula: any of the two orders. -/
theorem lt_tie {s p s' p' : Term} {c : Copula} {i j : Info} (ht : Tie (.stmt s c p i) (.stmt s' c p' j)) {x y : Bool}
    (hs : lt s s' = .ok x) (hp : lt p p' = .ok y) : lt (.stmt s c p i) (.stmt s' c p' j) = .ok (x || y) := by
  rw [lt_stmt_gen, ltHead_tie ht]
  simp only [hs, hp, Res.ok_bind]
  cases x <;> cases y <;> simp

/-- Statements from a set, and variables. -/
theorem keyed_stmts {S : Term → Prop} {c : Copula} {T : Term → Prop} (f : Term → Term) (hg : ∀ a, S a → Good a)
    (hs : ∀ a, S a → a.info.hasVar = true → IsLeaf a ∨ (∃ s p i, a = .stmt s c p i) ∧ T (f a))
    (hl : ∀ a b, S a → S b → Tie a b → a.typeIdx = 1 → lt a b = lt (f a) (f b)) (hk : Keyed T) : Keyed S := by
  have leaf : ∀ {a b}, S b → Tie a b → IsLeaf a → IsLeaf b := fun {a b} hb ht la => by
    rcases hs b hb ht.2.2.1 with h | ⟨⟨s, p, i, rfl⟩, _⟩
    · exact h
    · have := ht.2.2.2
      rw [la.typeIdx] at this
      simp [typeIdx] at this
  have stmt : ∀ {a b}, S b → Tie a b → (∃ s p i, a = .stmt s c p i) → T (f b) ∧ b.typeIdx = 1 := fun {a b} hb ht la => by
    obtain ⟨s, p, i, rfl⟩ := la
    rcases hs b hb ht.2.2.1 with h | ⟨⟨s, p, i, rfl⟩, h⟩
    · have := ht.2.2.2
      rw [h.typeIdx] at this
      simp [typeIdx] at this
    · exact ⟨h, rfl⟩
  refine keyed_of_ties hg (fun a b ha hb ht h => ?_) fun a b d ha hb hd h1 h2 h => ?_
  · rcases hs a ha ht.2.1 with la | ⟨sa, ta⟩
    · exact leaf_asymm la (leaf hb ht la) ht h
    · obtain ⟨tb, ib⟩ := stmt hb ht sa
      rw [hl a b ha hb ht (by rw [ht.2.2.2, ib])] at h
      rw [hl b a hb ha ht.symm ib]
      exact hk.asymm ta tb h
  · have h3 : Tie a d := ⟨h1.1.trans h2.1, h1.2.1, h2.2.2.1, h1.2.2.2.trans h2.2.2.2⟩
    rcases hs a ha h1.2.1 with la | ⟨sa, ta⟩
    · exact leaf_cotrans la (leaf hb h1 la) (leaf hd h3 la) h1 h2 h
    · obtain ⟨tb, ib⟩ := stmt hb h1 sa
      obtain ⟨td, id⟩ := stmt hd h3 sa
      have ia : a.typeIdx = 1 := by rw [h1.2.2.2, ib]
      rw [hl a d ha hd h3 ia] at h
      rw [hl a b ha hb h1 ia, hl b d hb hd h2 ib]
      exact hk.cotrans ta tb td h

/-- Good terms without variables, variables, and statements about the same subject, with the same copula, whose
predicates are ordered. -/
theorem keyed_subject {S : Term → Prop} {s : Term} {c : Copula} (hg : ∀ a, S a → Good a)
    (hs : ∀ a, S a → a.info.hasVar = true → IsLeaf a ∨ ∃ p i, a = .stmt s c p i)
    (hk : Keyed fun p => ∃ i, S (.stmt s c p i)) : Keyed S := by
  refine keyed_stmts (c := c) (T := fun p => ∃ i, S (.stmt s c p i))
    (fun t => match t with | .stmt _ _ p _ => p | t => t) hg (fun a ha hv => ?_) (fun a b ha hb ht i1 => ?_) hk
  · rcases hs a ha hv with h | ⟨p, i, rfl⟩
    · exact .inl h
    · exact .inr ⟨⟨_, _, _, rfl⟩, i, ha⟩
  · rcases hs a ha ht.2.1 with h | ⟨p, i, rfl⟩
    · rw [h.typeIdx] at i1; cases i1
    rcases hs b hb ht.2.2.1 with h | ⟨q, j, rfl⟩
    · rw [ht.2.2.2, h.typeIdx] at i1; cases i1
    obtain ⟨y, hy⟩ := hk.total ⟨i, ha⟩ ⟨j, hb⟩
    have gs : Good s := by
      rcases leaf_cases (hg _ ha) with h | ⟨_, _, _, h, _, e⟩ | ⟨_, _, _, e⟩
      · rw [h.typeIdx] at i1; cases i1
      · cases e; exact h
      · cases e
    rw [lt_tie ht (lt_irrefl gs) hy]
    simpa using hy.symm

/-- Good terms without variables, variables, and statements with the same predicate and copula, whose subjects are
ordered. -/
theorem keyed_predicate {S : Term → Prop} {p : Term} {c : Copula} (hg : ∀ a, S a → Good a)
    (hs : ∀ a, S a → a.info.hasVar = true → IsLeaf a ∨ ∃ s i, a = .stmt s c p i)
    (hk : Keyed fun s => ∃ i, S (.stmt s c p i)) : Keyed S := by
  refine keyed_stmts (c := c) (T := fun s => ∃ i, S (.stmt s c p i))
    (fun t => match t with | .stmt s _ _ _ => s | t => t) hg (fun a ha hv => ?_) (fun a b ha hb ht i1 => ?_) hk
  · rcases hs a ha hv with h | ⟨s, i, rfl⟩
    · exact .inl h
    · exact .inr ⟨⟨_, _, _, rfl⟩, i, ha⟩
  · rcases hs a ha ht.2.1 with h | ⟨s, i, rfl⟩
    · rw [h.typeIdx] at i1; cases i1
    rcases hs b hb ht.2.2.1 with h | ⟨q, j, rfl⟩
    · rw [ht.2.2.2, h.typeIdx] at i1; cases i1
    obtain ⟨y, hy⟩ := hk.total ⟨i, ha⟩ ⟨j, hb⟩
    have gp : Good p := by
      rcases leaf_cases (hg _ ha) with h | ⟨_, _, _, _, h, e⟩ | ⟨_, _, _, e⟩
      · rw [h.typeIdx] at i1; cases i1
      · cases e; exact h
      · cases e
    rw [lt_tie ht hy (lt_irrefl gp)]
    simpa using hy.symm

/-- Construction from at least one argument, none of which is a commutative compound. -/
theorem mkComp_flat_eq {ord : Order} {c : Connector} {args ts : List Term} {b : Bool}
    (hord : ∀ l, (ord l).Perm l) (g : ∀ t ∈ args, Good t) (hc : c.isCommutative = true)
    (e0 : setInsertAll args [] = .ok ts) (hts : ts ≠ []) (hplain : ∀ t ∈ args, category t = none) :
    mkComp ord c args b = .ok (finishComp c ts) := by
  have hr := commutative_reducible c hc
  have s0 := setInsertAll_sorted e0 (by simp [SortedTs])
  have m0 : ∀ z ∈ ts, z ∈ args := fun z hz => by
    rcases (setInsertAll_mem e0).1 z hz with h | h
    · exact h
    · simp at h
  have hcat : ∀ t ∈ ts, category t = none := fun t ht => hplain t (m0 t ht)
  have hun : unfold c ts = ts := unfold_id fun t ht us i e => by
    have := hcat t ht
    rw [e] at this
    simp [category, hc] at this
  rw [mkComp_eq (ts := ts) (by simp [Terms.ofList, hc, e0])]
  refine mkCompF_of_prepocess (fun t ht => g t (m0 t ht)) ?_
  have hnorm : normAll c ts (ord (keys ts)) = .ok (ts.map fun t => (none, [t])) := by
    rw [keys_all hts hcat, perm_singleton hord]
    simp [normAll, normGroup, group_all hcat]
  simp only [prepocess, hr, Bool.not_true, Bool.false_eq_true, if_false, hc, if_true, hun,
    setInsertAll_self s0, Res.ok_bind, hnorm]
  match ts, hts with
  | [t], _ => simp [finalStep, setInsertAll, setInsert]
  | t :: u :: us, _ =>
    have := collect_none (mk := fun c us => mkCompF ord (heights args) c us false) (parent := c) (t :: u :: us)
    have hlen : ((t :: u :: us).map fun t => ((none : Option Connector), [t])).length > 1 := by simp
    rw [if_pos hlen, this]
    simp [setInsertAll_self s0]

theorem mkComp_flat {ord : Order} {c : Connector} {args : List Term} {b : Bool}
    (hord : ∀ l, (ord l).Perm l) (g : ∀ t ∈ args, Good t) (hc : c.isCommutative = true)
    (hk : Keyed (· ∈ args)) (hne : args ≠ []) (hplain : ∀ t ∈ args, category t = none) :
    ∃ r, mkComp ord c args b = .ok r := by
  obtain ⟨ts, e0, hts⟩ := hk.setInsertAll (xs := args) (s := []) (fun _ h => h) (by simp)
    (by simp [SortedTs]) (.inl hne)
  exact ⟨_, mkComp_flat_eq hord g hc e0 hts hplain⟩

/-- Construction from arguments that the comparator tells apart, none of which is a commutative
compound: all of them are components. -/
theorem mkComp_flat_mem {ord : Order} {c : Connector} {args : List Term} {b : Bool} {r : Term}
    (hord : ∀ l, (ord l).Perm l) (g : ∀ t ∈ args, Good t) (hc : c.isCommutative = true)
    (hsep : Separated args) (hplain : ∀ t ∈ args, category t = none) (h : mkComp ord c args b = .ok r) :
    ∀ t ∈ args, t ∈ r.comps := by
  intro t ht
  obtain ⟨ts, h1, _, _⟩ := mkComp_inv h
  simp only [Terms.ofList, hc, if_true, Res.bind_eq_ok, Res.pure_eq, Res.ok.injEq, Terms.mk.injEq,
    true_and] at h1
  obtain ⟨ts', e0, rfl⟩ := h1
  have hm := (orderly_of_built g hsep e0).2
  rw [mkComp_flat_eq hord g hc e0 (List.ne_nil_of_mem ((hm t).2 ht)) hplain, Res.ok.injEq] at h
  subst h
  exact (hm t).2 ht

end Cnars
