import Verif.Narsese.Flat
import Verif.Props.TermSets

/-!
# C13-C22: construction of compounds

`ord` is the order in which `std::unordered_map` happens to enumerate the argument groups: any
function that permutes its input.
-/

namespace Cnars.Props
open Cnars Term

/-- An enumeration order. -/
def Permutes (ord : Order) : Prop := ∀ l, (ord l).Perm l

theorem permutes_id : Permutes id := fun _ => .refl _
theorem permutes_reverse : Permutes List.reverse := fun l => l.reverse_perm

/-- Members with the same hash are the same term or differ exactly in the index of the one variable
each of them contains. -/
def Apart (l : List Term) : Prop :=
  ∀ a ∈ l, ∀ b ∈ l, a.hash = b.hash → a = b ∨
    (HasVariable a ∧ ∃ i j, i ≠ j ∧ AllIdx a i ∧ AllIdx b j ∧ (shape a).pattern = (shape b).pattern)

theorem Apart.orderly {l : List Term} (h : Apart l) (g : ∀ z ∈ l, Good z) : Orderly (· ∈ l) :=
  Tellable.orderly ⟨g, fun a b ha hb => h a ha b hb⟩

theorem apart_of_nodup {l : List Term} (h : (l.map Term.hash).Nodup) : Apart l :=
  fun _ ha _ hb e => .inl (List.inj_on_of_nodup_map h ha hb e)

/-! ### Sample compounds -/

def sBorC : Term := finishComp .disjunction [sB, sC]
theorem sBorC_eq : mkComp id .disjunction [sB, sC] true = .ok sBorC := by rfl
theorem sBorC_c : Constructed sBorC :=
  .comp _ true permutes_id (by simp; exact ⟨sB_c, sC_c⟩) sBorC_eq

def setAB : Term := finishComp .extensionalSet [sB, sA]
theorem setAB_eq : mkComp id .extensionalSet [sA, sB] true = .ok setAB := by rfl
theorem setAB_c : Constructed setAB :=
  .comp _ true permutes_id (by simp; exact ⟨sA_c, sB_c⟩) setAB_eq

def setBC : Term := finishComp .extensionalSet [sB, sC]
theorem setBC_eq : mkComp id .extensionalSet [sC, sB] true = .ok setBC := by rfl
theorem setBC_c : Constructed setBC :=
  .comp _ true permutes_id (by simp; exact ⟨sC_c, sB_c⟩) setBC_eq

def propAB : Term := finishComp .intensionalSet [sB, sA]
theorem propAB_eq : mkComp id .intensionalSet [sA, sB] true = .ok propAB := by rfl
theorem propAB_c : Constructed propAB :=
  .comp _ true permutes_id (by simp; exact ⟨sA_c, sB_c⟩) propAB_eq

def propBC : Term := finishComp .intensionalSet [sB, sC]
theorem propBC_eq : mkComp id .intensionalSet [sC, sB] true = .ok propBC := by rfl
theorem propBC_c : Constructed propBC :=
  .comp _ true permutes_id (by simp; exact ⟨sC_c, sB_c⟩) propBC_eq

def seqAB : Term := finishComp .sequentialEvents [sA, sB]
theorem seqAB_eq : mkComp id .sequentialEvents [sA, sB] true = .ok seqAB := by rfl
theorem seqAB_c : Constructed seqAB :=
  .comp _ true permutes_id (by simp; exact ⟨sA_c, sB_c⟩) seqAB_eq

/-- `(&&, A, A)`, a conjunction of one. -/
def andAA : Term := finishComp .conjunction [sA]
theorem andAA_eq : mkComp id .conjunction [sA, sA] true = .ok andAA := by rfl
theorem andAA_c : Constructed andAA :=
  .comp _ true permutes_id (by simp; exact sA_c) andAA_eq

def andBB : Term := finishComp .conjunction [sB]
theorem andBB_eq : mkComp id .conjunction [sB, sB] true = .ok andBB := by rfl
theorem andBB_c : Constructed andBB :=
  .comp _ true permutes_id (by simp; exact sB_c) andBB_eq

/-! ## C13 -/

/-- Missing from the full statement: arguments that the comparator cannot put in a strict total
order.  For those construction is undefined (`C13_undefined_counterexample`). -/
theorem C13_order_free_partial {ord : Order} {c : Connector} (hc : c.isCommutative = true)
    {args args' : List Term} {b : Bool} (h : Told (· ∈ args))
    (hm : ∀ z, z ∈ args' ↔ z ∈ args) : mkComp ord c args' b = mkComp ord c args b := by
  obtain ⟨r, e, _, _, _, hall⟩ := C10_commutative h
  have e' := hall args' hm
  rw [mkComp_eq (args := args) (ts := r) (by rw [hc]; exact e), mkComp_eq (args := args') (ts := r) (by rw [hc]; exact e'),
    heights_congr hm]

/-- The same from success in one order, when no two different arguments are equivalent. -/
theorem C13_order_free_of_success_partial {ord : Order} {c : Connector}
    (hc : c.isCommutative = true) {args args' : List Term} {b : Bool} {r : Term}
    (hcs : ∀ z ∈ args, Constructed z)
    (hsep : ∀ x ∈ args, ∀ y ∈ args, lt x y = .ok false → lt y x = .ok false → x = y)
    (h : mkComp ord c args b = .ok r)
    (hm : ∀ z, z ∈ args' ↔ z ∈ args) : mkComp ord c args' b = .ok r := by
  obtain ⟨ts, e, _, h2⟩ := mkComp_inv h
  simp only [hc, Terms.ofList, if_true, Res.bind_eq_ok, Res.pure_eq, Res.ok.injEq, Terms.mk.injEq,
    true_and] at e
  obtain ⟨ts', e, rfl⟩ := e
  have e' := setInsertAll_perm (fun z hz => (hcs z hz).good) hsep hm e
  rw [mkComp_eq (ts := ts') (by simp [Terms.ofList, hc, e']), heights_congr hm, h2]

example : mkComp id .conjunction [sA, sB, sC, sB] true = mkComp id .conjunction [sC, sA, sB, sA] true :=
  C13_order_free_partial (by decide) sABC_told (by simp; tauto)

example : ∃ r, mkComp id .disjunction [sB, sC] true = .ok r ∧
    mkComp id .disjunction [sC, sB, sC] true = .ok r :=
  ⟨_, sBorC_eq, C13_order_free_of_success_partial (by decide)
    (by simp; exact ⟨sB_c, sC_c⟩) (by
      intro x hx y hy h1 h2
      simp only [List.mem_cons, List.not_mem_nil, or_false] at hx hy
      rcases hx with rfl | rfl <;> rcases hy with rfl | rfl <;>
        first | rfl | exact absurd h1 (by decide +kernel) | exact absurd h2 (by decide +kernel))
    sBorC_eq (by simp)⟩

/-- `(&&, <$x --> $y>, <$y --> $x>)`: the comparator answers `true` both ways, which `std::set` does
not permit. -/
theorem C13_undefined_counterexample :
    Constructed sXY ∧ Constructed sYX ∧ mkComp id .conjunction [sXY, sYX] true = .ub ∧
    mkComp id .conjunction [sYX, sXY] true = .ub := by
  have h : ∀ a b, lt a b = .ok true → lt b a = .ok true → mkComp id .conjunction [a, b] true = .ub := by
    intro a b h1 h2
    have : Terms.ofList (Connector.conjunction).isCommutative [a, b] = .ub := by
      simp [Terms.ofList, show (Connector.conjunction).isCommutative = true by decide,
        setInsertAll, setInsert, h1, h2]
    simp [mkComp, this]
  exact ⟨sXY_c, sYX_c, h _ _ (by decide +kernel) (by decide +kernel),
    h _ _ (by decide +kernel) (by decide +kernel)⟩

/-! ## C14 -/

/-- Product, images, differences, negation, list: exactly the arguments, in order. -/
theorem C14_ordered {ord : Order} {c : Connector} {args : List Term} {b : Bool}
    (hcs : ∀ z ∈ args, Constructed z)
    (hc : c = .product ∨ c = .intensionalImage ∨ c = .extensionalImage ∨ c = .extensionalDifference ∨
      c = .intensionalDifference ∨ c = .negation ∨ c = .list) :
    ∃ i, mkComp ord c args b = .ok (.comp c args i) := by
  have h : c.isCommutative = false ∧ c.isReducible = false := by
    rcases hc with rfl | rfl | rfl | rfl | rfl | rfl | rfl <;> decide
  rw [mkComp_ordered (fun t ht => (hcs t ht).good) h.1, h.2]
  exact ⟨_, rfl⟩

/-- The arguments with each nested `&/` replaced by its components. -/
def spliced : List Term → List Term
  | [] => []
  | .comp .sequentialEvents us _ :: ts => us ++ spliced ts
  | t :: ts => t :: spliced ts

theorem C14_sequential {ord : Order} {args : List Term} {b : Bool}
    (hcs : ∀ z ∈ args, Constructed z) :
    ∃ i, mkComp ord .sequentialEvents args b = .ok (.comp .sequentialEvents (spliced args) i) := by
  rw [mkComp_ordered (fun t ht => (hcs t ht).good) (by decide)]
  have : unfold .sequentialEvents args = spliced args := by
    clear hcs
    induction args with
    | nil => rfl
    | cons t ts ih =>
      unfold unfold at ih ⊢
      rw [List.flatMap_cons, ih]
      cases t with
      | comp c us i =>
        cases c <;> simp [spliced]
      | _ => simp [spliced]
  rw [if_pos (by decide), this]
  exact ⟨_, rfl⟩

example : ∃ i, mkComp id .product [sB, sA, sB] false = .ok (.comp .product [sB, sA, sB] i) :=
  C14_ordered (by simp; exact ⟨sB_c, sA_c, sB_c⟩) (by simp)

example : ∃ i, mkComp id .sequentialEvents [sC, seqAB, sA] false =
    .ok (.comp .sequentialEvents [sC, sA, sB, sA] i) :=
  C14_sequential (args := [sC, seqAB, sA]) (by simp; exact ⟨sC_c, seqAB_c, sA_c⟩)

/-! ## C15 -/

/-- Sets with connector `k`, in a list. -/
def SetsOf (k : Connector) (args : List Term) : Prop :=
  args ≠ [] ∧ (∀ t ∈ args, Constructed t ∧ ∃ us i, t = .comp k us i) ∧
  Told (· ∈ args) ∧ Apart (args.flatMap comps)

theorem SetsOf.over {k : Connector} {args : List Term} (h : SetsOf k args)
    (hk : k.isCommutative = true) {cs : List Term} (hm : ∀ t, t ∈ cs ↔ t ∈ args) :
    SetsOver (· ∈ args.flatMap comps) (cs.map termsOf) ∧ cs.map termsOf ≠ [] ∧
    ∀ z, ((∃ t ∈ cs.map termsOf, z ∈ t.items) ↔ ∃ t ∈ args, z ∈ t.comps) ∧
      ((∀ t ∈ cs.map termsOf, z ∈ t.items) ↔ ∀ t ∈ args, z ∈ t.comps) := by
  obtain ⟨hne, hs, _, ha⟩ := h
  have key : ∀ t ∈ cs, (termsOf t).comm = true ∧ SortedTs (termsOf t).items ∧
      (termsOf t).items = t.comps := by
    intro t ht
    obtain ⟨hc, us, i, rfl⟩ := hs t ((hm t).1 ht)
    exact ⟨hk, hc.good.comps_sorted hk, rfl⟩
  refine ⟨⟨ha.orderly ?_, ?_, ?_, ?_⟩, ?_, fun z => ⟨?_, ?_⟩⟩
  · intro z hz
    obtain ⟨t, ht, hz⟩ := List.mem_flatMap.1 hz
    exact Good.downClosed t (hs t ht).1.good z hz
  · intro t ht; obtain ⟨u, hu, rfl⟩ := List.mem_map.1 ht; exact (key u hu).1
  · intro t ht; obtain ⟨u, hu, rfl⟩ := List.mem_map.1 ht; exact (key u hu).2.1
  · intro t ht z hz
    obtain ⟨u, hu, rfl⟩ := List.mem_map.1 ht
    rw [(key u hu).2.2] at hz
    exact List.mem_flatMap.2 ⟨u, (hm u).1 hu, hz⟩
  · intro e
    obtain ⟨t, ht⟩ := List.exists_mem_of_ne_nil _ hne
    rw [List.map_eq_nil_iff] at e
    have := (hm t).2 ht
    rw [e] at this; simp at this
  · simp only [List.mem_map, exists_exists_and_eq_and]
    constructor
    · rintro ⟨t, ht, hz⟩; rw [(key t ht).2.2] at hz; exact ⟨t, (hm t).1 ht, hz⟩
    · rintro ⟨t, ht, hz⟩
      have ht := (hm t).2 ht
      exact ⟨t, ht, by rw [(key t ht).2.2]; exact hz⟩
  · simp only [List.mem_map, forall_exists_index, and_imp, forall_apply_eq_imp_iff₂]
    constructor
    · intro h t ht
      have ht := (hm t).2 ht
      rw [← (key t ht).2.2]; exact h t ht
    · intro h t ht
      rw [(key t ht).2.2]; exact h t ((hm t).1 ht)

theorem SetsOf.union_rule {ord : Order} (hord : Permutes ord) {c k : Connector} {args : List Term}
    {b : Bool} (h : SetsOf k args) (hc : c.isCommutative = true) (hk : k.isCommutative = true)
    (hkc : k ≠ c) (hm : mergeKind c k = .unite) :
    ∃ R i, mkComp ord c args b = .ok (.comp
      (if k = .extensionalSet ∧ c = .intensionalIntersection then .extensionalSet
       else if k = .intensionalSet ∧ c = .extensionalIntersection then .intensionalSet else c) R i) ∧
      ∀ z, z ∈ R ↔ ∃ t ∈ args, z ∈ t.comps := by
  obtain ⟨so, hne, hz⟩ := h.over hk (cs := args) (fun _ => Iff.rfl)
  obtain ⟨R, e, s, hR⟩ := so.union hne
  refine ⟨R, _, mkComp_merge hord (fun t ht => (h.2.1 t ht).1.good) hc (commutative_reducible c hc) hk hkc
    h.1 (fun t ht => (h.2.1 t ht).2) h.2.2.1.orderly (op := Terms.union)
    (fun cs => by simp [mergeCompounds, hm]) ?_ s, fun z => by rw [hR]; exact (hz z).1⟩
  intro cs hcs
  obtain ⟨so', hne', hz'⟩ := h.over hk hcs
  obtain ⟨R', e', s', hR'⟩ := so'.union hne'
  rw [e', s'.ext s fun z => by rw [hR', hR, (hz z).1, (hz' z).1]]

theorem SetsOf.inter_rule {ord : Order} (hord : Permutes ord) {c k : Connector} {args : List Term}
    {b : Bool} (h : SetsOf k args) (hc : c.isCommutative = true) (hk : k.isCommutative = true)
    (hkc : k ≠ c) (hm : mergeKind c k = .intersect) :
    ∃ R i, mkComp ord c args b = .ok (.comp
      (if k = .extensionalSet ∧ c = .intensionalIntersection then .extensionalSet
       else if k = .intensionalSet ∧ c = .extensionalIntersection then .intensionalSet else c) R i) ∧
      ∀ z, z ∈ R ↔ ∀ t ∈ args, z ∈ t.comps := by
  obtain ⟨so, hne, hz⟩ := h.over hk (cs := args) (fun _ => Iff.rfl)
  obtain ⟨R, e, s, hR⟩ := so.intersection hne
  refine ⟨R, _, mkComp_merge hord (fun t ht => (h.2.1 t ht).1.good) hc (commutative_reducible c hc) hk hkc
    h.1 (fun t ht => (h.2.1 t ht).2) h.2.2.1.orderly (op := Terms.intersection)
    (fun cs => by simp [mergeCompounds, hm]) ?_ s, fun z => by rw [hR]; exact (hz z).2⟩
  intro cs hcs
  obtain ⟨so', hne', hz'⟩ := h.over hk hcs
  obtain ⟨R', e', s', hR'⟩ := so'.intersection hne'
  rw [e', s'.ext s fun z => by rw [hR', hR, (hz z).2, (hz' z).2]]

/-- `(|,{..},{..},..)` is the extensional set of the union. -/
theorem C15_extensional_union {ord : Order} (hord : Permutes ord) {args : List Term} {b : Bool}
    (h : SetsOf .extensionalSet args) :
    ∃ R i, mkComp ord .intensionalIntersection args b = .ok (.comp .extensionalSet R i) ∧
      ∀ z, z ∈ R ↔ ∃ t ∈ args, z ∈ t.comps := by
  simpa using h.union_rule hord (c := .intensionalIntersection) (b := b) (by decide) (by decide)
    (by decide) (by decide)

/-- `(&,[..],[..],..)` is the intensional set of the union. -/
theorem C15_intensional_union {ord : Order} (hord : Permutes ord) {args : List Term} {b : Bool}
    (h : SetsOf .intensionalSet args) :
    ∃ R i, mkComp ord .extensionalIntersection args b = .ok (.comp .intensionalSet R i) ∧
      ∀ z, z ∈ R ↔ ∃ t ∈ args, z ∈ t.comps := by
  simpa using h.union_rule hord (c := .extensionalIntersection) (b := b) (by decide) (by decide)
    (by decide) (by decide)

/-- `(&,{..},{..},..)` has the elements of the intersection as its components.  Missing: it should
be the extensional set of these, but the connector stays `&`. -/
theorem C15_extensional_intersection_partial {ord : Order} (hord : Permutes ord)
    {args : List Term} {b : Bool} (h : SetsOf .extensionalSet args) :
    ∃ R i, mkComp ord .extensionalIntersection args b = .ok (.comp .extensionalIntersection R i) ∧
      ∀ z, z ∈ R ↔ ∀ t ∈ args, z ∈ t.comps := by
  simpa using h.inter_rule hord (c := .extensionalIntersection) (b := b) (by decide) (by decide)
    (by decide) (by decide)

/-- `(|,[..],[..],..)` has the elements of the intersection as its components.  Missing: it should
be the intensional set of these, but the connector stays `|`. -/
theorem C15_intensional_intersection_partial {ord : Order} (hord : Permutes ord)
    {args : List Term} {b : Bool} (h : SetsOf .intensionalSet args) :
    ∃ R i, mkComp ord .intensionalIntersection args b = .ok (.comp .intensionalIntersection R i) ∧
      ∀ z, z ∈ R ↔ ∀ t ∈ args, z ∈ t.comps := by
  simpa using h.inter_rule hord (c := .intensionalIntersection) (b := b) (by decide) (by decide)
    (by decide) (by decide)

theorem sets_sample : SetsOf .extensionalSet [setAB, setBC] := by
  refine ⟨by simp, ?_, told_of_hash ?_ ?_, ?_⟩
  · simp only [List.mem_cons, List.not_mem_nil, or_false, forall_eq_or_imp, forall_eq]
    exact ⟨⟨setAB_c, _, _, rfl⟩, setBC_c, _, _, rfl⟩
  · simp only [List.mem_cons, List.not_mem_nil, or_false, forall_eq_or_imp, forall_eq]
    exact ⟨setAB_c, setBC_c⟩
  · intro a b ha hb he
    simp only [List.mem_cons, List.not_mem_nil, or_false] at ha hb
    rcases ha with rfl | rfl <;> rcases hb with rfl | rfl <;>
      first | rfl | exact absurd he (by decide +kernel)
  · intro a ha b hb he
    simp only [List.flatMap_cons, List.flatMap_nil, setAB, setBC, finishComp, comps, List.append_nil,
      List.mem_append, List.mem_cons, List.not_mem_nil, or_false] at ha hb
    left
    rcases ha with (rfl | rfl) | rfl | rfl <;> rcases hb with (rfl | rfl) | rfl | rfl <;>
      first | rfl | exact absurd he (by decide +kernel)

theorem props_sample : SetsOf .intensionalSet [propAB, propBC] := by
  refine ⟨by simp, ?_, told_of_hash ?_ ?_, ?_⟩
  · simp only [List.mem_cons, List.not_mem_nil, or_false, forall_eq_or_imp, forall_eq]
    exact ⟨⟨propAB_c, _, _, rfl⟩, propBC_c, _, _, rfl⟩
  · simp only [List.mem_cons, List.not_mem_nil, or_false, forall_eq_or_imp, forall_eq]
    exact ⟨propAB_c, propBC_c⟩
  · intro a b ha hb he
    simp only [List.mem_cons, List.not_mem_nil, or_false] at ha hb
    rcases ha with rfl | rfl <;> rcases hb with rfl | rfl <;>
      first | rfl | exact absurd he (by decide +kernel)
  · intro a ha b hb he
    simp only [List.flatMap_cons, List.flatMap_nil, propAB, propBC, finishComp, comps, List.append_nil,
      List.mem_append, List.mem_cons, List.not_mem_nil, or_false] at ha hb
    left
    rcases ha with (rfl | rfl) | rfl | rfl <;> rcases hb with (rfl | rfl) | rfl | rfl <;>
      first | rfl | exact absurd he (by decide +kernel)

example : ∃ R i, mkComp id .intensionalIntersection [setAB, setBC] true =
    .ok (.comp .extensionalSet R i) ∧ sA ∈ R ∧ sB ∈ R ∧ sC ∈ R := by
  obtain ⟨R, i, e, h⟩ := C15_extensional_union (b := true) permutes_id sets_sample
  exact ⟨R, i, e, (h _).2 ⟨setAB, by simp, by simp [setAB, finishComp, comps]⟩,
    (h _).2 ⟨setAB, by simp, by simp [setAB, finishComp, comps]⟩,
    (h _).2 ⟨setBC, by simp, by simp [setBC, finishComp, comps]⟩⟩

example : ∃ R i, mkComp id .extensionalIntersection [propAB, propBC] true =
    .ok (.comp .intensionalSet R i) ∧ sA ∈ R ∧ sC ∈ R := by
  obtain ⟨R, i, e, h⟩ := C15_intensional_union (b := true) permutes_id props_sample
  exact ⟨R, i, e, (h _).2 ⟨propAB, by simp, by simp [propAB, finishComp, comps]⟩,
    (h _).2 ⟨propBC, by simp, by simp [propBC, finishComp, comps]⟩⟩

example : ∃ R i, mkComp id .extensionalIntersection [setAB, setBC] true =
    .ok (.comp .extensionalIntersection R i) ∧ sB ∈ R := by
  obtain ⟨R, i, e, h⟩ := C15_extensional_intersection_partial (b := true) permutes_id sets_sample
  exact ⟨R, i, e, (h _).2 (by simp [setAB, setBC, finishComp, comps])⟩

example : ∃ R i, mkComp id .intensionalIntersection [propAB, propBC] true =
    .ok (.comp .intensionalIntersection R i) ∧ sB ∈ R := by
  obtain ⟨R, i, e, h⟩ := C15_intensional_intersection_partial (b := true) permutes_id props_sample
  exact ⟨R, i, e, (h _).2 (by simp [propAB, propBC, finishComp, comps])⟩

/-- No list of extensional sets makes `(&,..)` an extensional set, and no list of intensional sets
makes `(|,..)` an intensional set. -/
theorem C15_intersection_counterexample {ord : Order} (hord : Permutes ord) {b : Bool} :
    (∀ args, SetsOf .extensionalSet args → ∀ R i,
      mkComp ord .extensionalIntersection args b ≠ .ok (.comp .extensionalSet R i)) ∧
    (∀ args, SetsOf .intensionalSet args → ∀ R i,
      mkComp ord .intensionalIntersection args b ≠ .ok (.comp .intensionalSet R i)) := by
  constructor
  · intro args h R i e
    obtain ⟨R', i', e', _⟩ := C15_extensional_intersection_partial (b := b) hord h
    rw [e'] at e; simp at e
  · intro args h R i e
    obtain ⟨R', i', e', _⟩ := C15_intensional_intersection_partial (b := b) hord h
    rw [e'] at e; simp at e

/-- Differences of sets stay as they are written, for every list of arguments. -/
theorem C15_difference_counterexample {ord : Order} {args : List Term} {b : Bool}
    (hcs : ∀ z ∈ args, Constructed z) :
    (∀ R i, mkComp ord .extensionalDifference args b ≠ .ok (.comp .extensionalSet R i)) ∧
    (∀ R i, mkComp ord .intensionalDifference args b ≠ .ok (.comp .intensionalSet R i)) := by
  constructor
  · intro R i e
    obtain ⟨j, h⟩ := C14_ordered (ord := ord) (b := b) hcs (c := .extensionalDifference) (by simp)
    rw [h] at e; simp at e
  · intro R i e
    obtain ⟨j, h⟩ := C14_ordered (ord := ord) (b := b) hcs (c := .intensionalDifference) (by simp)
    rw [h] at e; simp at e

/-! ## C16 -/

theorem C16_nothing_invented {ord : Order} {c : Connector} {args : List Term} {b : Bool} {r : Term}
    (hcs : ∀ z ∈ args, Constructed z) (h : mkComp ord c args b = .ok r) :
    ∀ l ∈ (shape r).leaves, ∃ t ∈ args, l ∈ (shape t).leaves := by
  obtain ⟨ts, _, hm, h2⟩ := mkComp_inv h
  let P : Term → Prop := fun t => Good t ∧ ∀ l ∈ (shape t).leaves, ∃ t ∈ args, l ∈ (shape t).leaves
  have hd : DownClosed P := by
    intro t ht u hu
    refine ⟨Good.downClosed t ht.1 u hu, fun l hl => ht.2 l ?_⟩
    cases t with
    | comp c us i => exact mem_leaves_comps.2 ⟨u, hu, hl⟩
    | _ => simp [comps] at hu
  have key : ∀ n c vs b t, (∀ v ∈ vs, P v) → mkCompF ord n c vs b = .ok t → P t := by
    intro n
    induction n with
    | zero => intro c vs b t _ h; simp [mkCompF] at h
    | succ n ih =>
      intro c vs b t hv h
      have g := mkCompF_good (fun v hv' => (hv v hv').1) h
      obtain ⟨m, c', us, hn, hp, _, _, _, rfl⟩ := mkCompF_inv (fun v hv' => (hv v hv').1) h
      obtain rfl : n = m := by omega
      obtain ⟨hus, _⟩ := prepocess_closed hd (fun c vs t hv h => ih c vs false t hv h) hv hp
      refine ⟨g, fun l hl => ?_⟩
      obtain ⟨u, hu, hl⟩ := mem_leaves_comp.1 hl
      exact (hus u hu).2 l hl
  exact (key _ _ _ _ _ (fun t ht => ⟨(hcs t (hm t ht)).good, fun l hl => ⟨t, hm t ht, hl⟩⟩) h2).2

example : ∀ l ∈ (shape sBorC).leaves, ∃ t ∈ [sB, sC], l ∈ (shape t).leaves :=
  C16_nothing_invented (by simp; exact ⟨sB_c, sC_c⟩) sBorC_eq

/-! ## C17, C19: the regular case -/

/-- For commutative connectors: if all commutative compounds among the arguments, at any depth, have
as many components as their connector demands, no `&` directly contains `{..}` and no `|` directly
contains `[..]` (`Full`), and the comparator can tell apart the members of each list that is put
into a set on the way (`buildLists`), then construction is defined and loses nothing.

Missing from the full statements: the other argument lists; see the counterexamples. -/
theorem C17_nothing_lost_partial {ord : Order} (hord : Permutes ord) {c : Connector}
    (hc : c.isCommutative = true) {args : List Term} {b : Bool} (hne : args ≠ [])
    (hcs : ∀ z ∈ args, Constructed z) (hfull : ∀ z ∈ args, Full z)
    (hx : c = .extensionalIntersection → ∀ vs i, Term.comp .extensionalSet vs i ∉ args)
    (hi : c = .intensionalIntersection → ∀ vs i, Term.comp .intensionalSet vs i ∉ args)
    (hl : ∀ l ∈ buildLists ord c args, Apart l) :
    ∃ r, mkComp ord c args b = .ok r ∧
      ∀ t ∈ args, ∀ l ∈ (shape t).leaves, l ∈ (shape r).leaves := by
  have g : ∀ t ∈ args, Good t := fun t ht => (hcs t ht).good
  obtain ⟨ts, e, s, hm⟩ := ((hl args (by simp [buildLists])).orderly g).setInsertAll (xs := args)
    (s := []) (fun _ h => h) (by simp) (by simp [SortedTs])
  replace hm : ∀ z, z ∈ ts ↔ z ∈ args := fun z => by rw [hm]; simp
  have e' : Terms.ofList true args = .ok ⟨true, ts⟩ := by simp [Terms.ofList, e]
  have gts : ∀ t ∈ ts, Good t := fun t ht => g t ((hm t).1 ht)
  obtain ⟨r, er, hr⟩ := mkCompF_keep (b := b) hord (n := heights args + 1) hc gts
    (fun t ht => hfull t ((hm t).1 ht))
    (by
      obtain ⟨t, ht⟩ := List.exists_mem_of_ne_nil _ hne
      exact List.ne_nil_of_mem ((hm t).2 ht))
    (fun h vs i hmem => hx h vs i ((hm _).1 hmem)) (fun h vs i hmem => hi h vs i ((hm _).1 hmem))
    (fun l hl' => (hl l (by simp only [buildLists, e']; exact List.mem_cons_of_mem _ hl')).orderly
      (runLists_good gts l hl'))
    (by rw [heights_congr hm]; omega)
  exact ⟨r, by rw [mkComp_eq (ts := ts) (by rw [hc]; exact e')]; exact er,
    fun t ht => hr t ((hm t).2 ht)⟩

/-- Ordered connectors never lose anything and are always defined. -/
theorem C17_ordered {ord : Order} {c : Connector} (hc : c.isCommutative = false)
    {args : List Term} {b : Bool} (hcs : ∀ z ∈ args, Constructed z) :
    ∃ r, mkComp ord c args b = .ok r ∧
      ∀ t ∈ args, ∀ l ∈ (shape t).leaves, l ∈ (shape r).leaves := by
  refine ⟨_, mkComp_ordered (fun t ht => (hcs t ht).good) hc, ?_⟩
  intro t ht l hl
  rw [mem_leaves_comp]
  split
  · by_cases h : ∃ us i, t = .comp c us i
    · obtain ⟨us, i, rfl⟩ := h
      obtain ⟨u, hu, hl⟩ := mem_leaves_comps.1 hl
      exact ⟨u, mem_unfold.2 (.inl ⟨us, i, ht, hu⟩), hl⟩
    · push Not at h
      exact ⟨t, mem_unfold.2 (.inr ⟨ht, h⟩), hl⟩
  · exact ⟨t, ht, hl⟩

theorem full_atom (a : Word) : Full (mkAtom a) := by
  intro c us i h
  cases h with
  | step hv _ => simp [mkAtom, comps] at hv

theorem full_comp {c : Connector} {us : List Term} (h : c.isCommutative = true → Fit c us)
    (hu : ∀ u ∈ us, Full u) : Full (finishComp c us) := by
  intro c' us' i hunder hc
  generalize ht : finishComp c us = t at hunder
  cases hunder with
  | refl => simp only [finishComp, Term.comp.injEq] at ht; obtain ⟨rfl, rfl, _⟩ := ht; exact h hc
  | step hv hrest =>
    subst ht
    exact hu _ hv c' us' i hrest hc

theorem sBorC_full : Full sBorC :=
  full_comp (fun _ => ⟨by decide, by simp, by simp⟩) (by
    simp only [List.mem_cons, List.not_mem_nil, or_false, forall_eq_or_imp, forall_eq]
    exact ⟨full_atom _, full_atom _⟩)

theorem lists_apart {ls : List (List Term)}
    (h : ls.all (fun l => decide (l.map Term.hash).Nodup) = true) : ∀ l ∈ ls, Apart l := by
  intro l hl
  exact apart_of_nodup (by simpa using List.all_eq_true.1 h l hl)

/-- `(&&, A, (||, B, C))`. -/
example : ∃ r, mkComp List.reverse .conjunction [sA, sBorC] true = .ok r ∧
    ∀ t ∈ [sA, sBorC], ∀ l ∈ (shape t).leaves, l ∈ (shape r).leaves :=
  C17_nothing_lost_partial permutes_reverse (by decide) (by simp)
    (by simp; exact ⟨sA_c, sBorC_c⟩) (by simp; exact ⟨full_atom _, sBorC_full⟩)
    (by simp) (by simp) (lists_apart (by decide +kernel))

example : ∃ r, mkComp id .product [sBorC, sA] true = .ok r ∧
    ∀ t ∈ [sBorC, sA], ∀ l ∈ (shape t).leaves, l ∈ (shape r).leaves :=
  C17_ordered (by decide) (by simp; exact ⟨sBorC_c, sA_c⟩)

/-- `(||, (&&, A, A), B)` loses `A`. -/
theorem C17_dropped_counterexample :
    ∃ r, mkComp id .disjunction [andAA, sB] true = .ok r ∧ Constructed andAA ∧ Constructed sB ∧
      .const 0x555555581eb0#64 ∈ (shape andAA).leaves ∧
      .const 0x555555581eb0#64 ∉ (shape r).leaves := by
  have h : mkComp id .disjunction [andAA, sB] true = .ok (finishComp .disjunction [sB]) := by rfl
  refine ⟨_, h, andAA_c, sB_c, ?_, ?_⟩
  · simp [andAA, sA, Shape.leaves, Shape.leavesAll]
  · simp [sB, Shape.leaves, Shape.leavesAll]

/-! ## C18 -/

/-- A single argument that is not a commutative compound is wrapped as it is. -/
theorem C18_single_partial {ord : Order} (hord : Permutes ord) {c : Connector}
    (hc : c.isCommutative = true) {t : Term} {b : Bool} (ht : Constructed t)
    (hplain : ∀ k us i, t = .comp k us i → k.isCommutative = false) :
    ∃ i, mkComp ord c [t] b = .ok (.comp c [t] i) := by
  have hun : unfold c [t] = [t] := by
    cases t with
    | comp k us i =>
      have := hplain k us i rfl
      have hne : k ≠ c := fun e => by rw [e, hc] at this; cases this
      simp [unfold, hne]
    | _ => simp [unfold]
  have hcat : category t = none := by
    cases t with
    | comp k us i => simp [category, hplain k us i rfl]
    | _ => rfl
  have ho : Orderly (· ∈ [t]) :=
    Apart.orderly (fun a ha b hb _ => by simp at ha hb; left; rw [ha, hb]) (by simp; exact ht.good)
  obtain ⟨r, e, s, hm⟩ := mkComp_plain (b := b) hord (by simp; exact ht.good) hc (commutative_reducible c hc) ho
    (by rw [hun]; exact ho) (by rw [hun]; simp) (by rw [hun]; simpa using hcat)
  rw [hun] at hm
  rw [e, s.ext (r := [t]) (by simp [SortedTs]) hm]
  exact ⟨_, rfl⟩

example : ∃ i, mkComp id .extensionalSet [seqAB] true = .ok (.comp .extensionalSet [seqAB] i) :=
  C18_single_partial permutes_id (by decide) seqAB_c (by
    intro k us i h; simp only [seqAB, finishComp, Term.comp.injEq] at h; rw [← h.1]; decide)

/-- A single commutative compound is never kept as the component: its own components take its
place, whatever its connector.  So `{(&&,A,B)}` becomes `{A,B}` and `(&&,(||,A,B))` becomes
`(&&,A,B)`. -/
theorem C18_unwrapped_counterexample {ord : Order} (hord : Permutes ord) {c k : Connector}
    (hc : c.isCommutative = true) (hk : k.isCommutative = true) {us : List Term} {i : Info}
    (ht : Constructed (.comp k us i)) {b : Bool} (hne : k ≠ c) :
    ∃ c' j, mkComp ord c [.comp k us i] b = .ok (.comp c' us j) := by
  have gt := ht.good
  have su := gt.comps_sorted hk
  have hu : ∀ R, setInsertAll us [] = .ok R → R = us := fun R h => by
    rw [setInsertAll_self su] at h; cases h; rfl
  have e0 : Terms.ofList c.isCommutative [Term.comp k us i] = .ok ⟨c.isCommutative, [.comp k us i]⟩ := by
    rw [hc]; rfl
  rw [mkComp_eq e0]
  have hun : unfold c [Term.comp k us i] = [.comp k us i] := by simp [unfold, hne]
  have hnorm : normAll c [Term.comp k us i] (ord (keys [Term.comp k us i])) = .ok [(some k, us)] := by
    have hcat : ∀ t ∈ [Term.comp k us i], category t = some k := by simp [category, hk]
    rw [keys_all (by simp) hcat, perm_singleton hord]
    have hgrp := group_all hcat
    simp only [normAll, normGroup, hgrp]
    have hop : ∀ op : List Term → List Term → Res (List Term),
        Terms.setOp op [termsOf (.comp k us i)] = .ok ⟨true, us⟩ := by
      intro op
      simp [Terms.setOp, termsOf, Terms.foldOp, Terms.ofList, Terms.unordered, hk, setInsertAll_self su]
    have : mergeCompounds c k [Term.comp k us i] = .ok (some us) ∨
        mergeCompounds c k [Term.comp k us i] = .ok none := by
      unfold mergeCompounds
      split
      · left; simp [Terms.intersection, hop]
      · left; simp [Terms.union, hop]
      · left; simp [Terms.difference, hop]
      · left; simp [Terms.ofList, hk, comps, setInsertAll_self su]
      · right; simp
    rcases this with h | h <;> simp [h, comps]
  have hp : ∃ c', prepocess ord (fun c vs => mkCompF ord (heights [Term.comp k us i]) c vs false) c
      [.comp k us i] = .ok (c', us) := by
    unfold prepocess
    rw [commutative_reducible c hc, hc, hun]
    simp only [Bool.not_true, Bool.false_eq_true, if_false, if_true, setInsertAll, setInsert, Res.ok_bind,
      hnorm, List.length_singleton, gt_iff_lt, Nat.lt_irrefl, finalStep, setInsertAll_self su]
    split
    · by_cases h : c = .intensionalIntersection <;> simp [h]
    · by_cases h : c = .extensionalIntersection <;> simp [h]
    · simp
  obtain ⟨c', hp⟩ := hp
  exact ⟨c', _, mkCompF_of_prepocess (by simpa using gt) hp⟩

/-- `{(||,B,C)}` is `{B,C}`. -/
example : ∃ c' j, mkComp id .extensionalSet [sBorC] true = .ok (.comp c' [sB, sC] j) :=
  C18_unwrapped_counterexample permutes_id (by decide) (by decide) sBorC_c (by decide)

/-- `(&&, (||,B,C), (||,B,C))` is `(&&, B, C)`. -/
theorem C18_conjunction_counterexample :
    ∃ i, mkComp id .conjunction [sBorC, sBorC] true = .ok (.comp .conjunction [sB, sC] i) :=
  ⟨_, rfl⟩

/-! ## C19 -/

/-- Construction never throws; it returns a term or is undefined. -/
theorem C19_never_throws {ord : Order} (hord : Permutes ord) {c : Connector} {args : List Term}
    {b : Bool} (hcs : ∀ z ∈ args, Constructed z) (m : String) : mkComp ord c args b ≠ .throw m := by
  intro h
  cases e : Terms.ofList c.isCommutative args with
  | ok t =>
    obtain ⟨hcm, hm, _⟩ := ofList_mem e
    have : NF (mkCompF ord (heights args + 1) c t.items b) :=
      nf_mkCompF hord (fun z hz => (hcs z (hm z hz)).good) (by
        have := heights_le (ts := t.items) (us := args) fun z hz => height_le_heights (hm z hz)
        omega)
    simp only [mkComp, e, Res.ok_bind] at h
    rcases this with ⟨a, h'⟩ | h' <;> rw [h] at h' <;> cases h'
  | ub => simp [mkComp, e] at h
  | throw m' =>
    have := nf_ofList (comm := c.isCommutative) (xs := args) (fun z hz => (hcs z hz).good)
    rcases this with ⟨a, h'⟩ | h' <;> rw [e] at h' <;> cases h'
  | outOfFuel =>
    have := nf_ofList (comm := c.isCommutative) (xs := args) (fun z hz => (hcs z hz).good)
    rcases this with ⟨a, h'⟩ | h' <;> rw [e] at h' <;> cases h'

example (m : String) : mkComp id .disjunction [andAA, sB] true ≠ .throw m :=
  C19_never_throws permutes_id (by simp; exact ⟨andAA_c, sB_c⟩) m

/-- The same regular case as in C17 is defined. -/
theorem C19_defined_partial {ord : Order} (hord : Permutes ord) {c : Connector}
    {args : List Term} {b : Bool} (hne : args ≠ [])
    (hcs : ∀ z ∈ args, Constructed z)
    (hreg : c.isCommutative = true → (∀ z ∈ args, Full z) ∧
      (c = .extensionalIntersection → ∀ vs i, Term.comp .extensionalSet vs i ∉ args) ∧
      (c = .intensionalIntersection → ∀ vs i, Term.comp .intensionalSet vs i ∉ args) ∧
      ∀ l ∈ buildLists ord c args, Apart l) :
    ∃ r, mkComp ord c args b = .ok r := by
  cases hc : c.isCommutative with
  | true =>
    obtain ⟨h1, h2, h3, h4⟩ := hreg hc
    obtain ⟨r, h, _⟩ := C17_nothing_lost_partial (b := b) hord hc hne hcs h1 h2 h3 h4
    exact ⟨r, h⟩
  | false =>
    obtain ⟨r, h, _⟩ := C17_ordered (ord := ord) (b := b) hc hcs
    exact ⟨r, h⟩

example : ∃ r, mkComp id .conjunction [sA, sBorC] true = .ok r :=
  C19_defined_partial permutes_id (by simp) (by simp; exact ⟨sA_c, sBorC_c⟩)
    (fun _ => ⟨by simp; exact ⟨full_atom _, sBorC_full⟩, by simp, by simp,
      lists_apart (by decide +kernel)⟩)

/-- `(||, (&&,A,A), (&&,B,B))`: every group is dropped and `*all_terms.begin()` is read from an empty
set. -/
theorem C19_empty_counterexample :
    Constructed andAA ∧ Constructed andBB ∧ mkComp id .disjunction [andAA, andBB] true = .ub :=
  ⟨andAA_c, andBB_c, by rfl⟩

/-! ## C20 -/

/-- Normalisation finishes, for every argument list and enumeration order. -/
theorem C20_terminates {ord : Order} (hord : Permutes ord) {c : Connector} {args : List Term}
    {b : Bool} (hcs : ∀ z ∈ args, Constructed z) : mkComp ord c args b ≠ .outOfFuel := by
  intro h
  have hof := nf_ofList (comm := c.isCommutative) (xs := args) (fun z hz => (hcs z hz).good)
  rcases hof with ⟨t, e⟩ | e
  · obtain ⟨hcm, hm, _⟩ := ofList_mem e
    have : NF (mkCompF ord (heights args + 1) c t.items b) :=
      nf_mkCompF hord (fun z hz => (hcs z (hm z hz)).good) (by
        have := heights_le (ts := t.items) (us := args) fun z hz => height_le_heights (hm z hz)
        omega)
    simp only [mkComp, e, Res.ok_bind] at h
    rcases this with ⟨a, h'⟩ | h' <;> rw [h] at h' <;> cases h'
  · simp [mkComp, e] at h

/-- The nesting of the recursive calls never exceeds the nesting of the arguments: any larger bound
on the recursion depth gives the same result. -/
theorem C20_depth {ord : Order} {c : Connector} {ts : List Term} {b : Bool} {n : Nat}
    (hcs : ∀ z ∈ ts, Constructed z) (hn : heights ts < n) :
    mkCompF ord n c ts b = mkCompF ord (heights ts + 1) c ts b :=
  mkCompF_fuel (fun z hz => (hcs z hz).good) hn (by omega)

example : mkComp id .disjunction [andAA, andBB] true ≠ .outOfFuel :=
  C20_terminates permutes_id (by simp; exact ⟨andAA_c, andBB_c⟩)

example : mkCompF id 1000 .conjunction [sA, sBorC] true = mkCompF id 2 .conjunction [sA, sBorC] true :=
  C20_depth (by simp; exact ⟨sA_c, sBorC_c⟩) (by decide)

/-! ## C21 -/

/-- If construction succeeds with one enumeration order of the groups, then it gives the same term
with every other, provided that no two different terms in a list of rebuilt arguments
(`buildStep3Lists`) are equivalent under the comparator.

Missing: rebuilt arguments with colliding hashes, see the counterexample, or the same variable index
under two names. -/
theorem C21_enumeration_partial {ord ord' : Order} (hord : Permutes ord) (hord' : Permutes ord')
    {c : Connector} {args : List Term} {b : Bool} {r : Term} (hcs : ∀ z ∈ args, Constructed z)
    (hsep : ∀ l ∈ buildStep3Lists ord c args, ∀ x ∈ l, ∀ y ∈ l,
      lt x y = .ok false → lt y x = .ok false → x = y)
    (h : mkComp ord c args b = .ok r) : mkComp ord' c args b = .ok r := by
  obtain ⟨ts, e, hm, h2⟩ := mkComp_inv h
  rw [mkComp_eq e]
  refine prepocess_ord hord hord' (fun t ht => (hcs t (hm t ht)).good) ?_ h2
  intro l hl
  exact hsep l (by simp only [buildStep3Lists, e]; exact hl)

theorem lists_separated {ls : List (List Term)} (g : ∀ l ∈ ls, ∀ z ∈ l, Good z)
    (h : ls.all (fun l => decide (l.map Term.hash).Nodup) = true) :
    ∀ l ∈ ls, ∀ x ∈ l, ∀ y ∈ l, lt x y = .ok false → lt y x = .ok false → x = y := by
  intro l hl x hx y hy h1 h2
  have ho := (lists_apart h l hl).orderly (g l hl)
  rcases ho.total x y hx hy with e | ⟨a, _⟩ | ⟨a, _⟩
  · exact e
  · rw [h1] at a; cases a
  · rw [h2] at a; cases a

/-- `(&&, A, (||, B, C))` in two enumeration orders. -/
example : ∃ r, mkComp id .conjunction [sA, sBorC] true = .ok r ∧
    mkComp List.reverse .conjunction [sA, sBorC] true = .ok r := by
  have h : mkComp id .conjunction [sA, sBorC] true = .ok (finishComp .conjunction [sA, sBorC]) := by rfl
  have hs := lists_separated (ls := buildStep3Lists id .conjunction [sA, sBorC])
    (buildStep3Lists_good (by simp; exact ⟨sA_c.good, sBorC_c.good⟩)) (by decide +kernel)
  have hcs : ∀ z ∈ [sA, sBorC], Constructed z := by simp; exact ⟨sA_c, sBorC_c⟩
  exact ⟨_, h, C21_enumeration_partial permutes_id permutes_reverse hcs hs h⟩

/-- `{C, {B, +4214847}}`, made from `{[{B, +4214847}, C]}`. -/
def sSpan : Res Term := do
  let u ← mkComp id .extensionalSet [sB, mkInterval 4214847] true
  let v ← mkComp id .intensionalSet [u, sC] true
  mkComp id .extensionalSet [v] true

/-- C21, the full statement fails: a constant at the address `0x405000` has the hash of the interval
`+4214847` (C02).  Which of the two gets into the set of that constant and `{C, {B, +4214847}}` depends
on the enumeration order. -/
theorem C21_enumeration_counterexample : ∃ t r r', sSpan = .ok t ∧
    mkComp id .extensionalSet [t, mkAtom 0x405000#64] true = .ok r ∧
    mkComp List.reverse .extensionalSet [t, mkAtom 0x405000#64] true = .ok r' ∧
    r.comps = [mkAtom 0x405000#64, sB, sC] ∧ r'.comps = [mkInterval 4214847, sB, sC] :=
  ⟨_, _, _, rfl, rfl, rfl, rfl, rfl⟩

/-! ## C22 -/

/-- If the connector occurs among the arguments at the top only (and, for `{..}`, no `|`, for `[..]`,
no `&`, which can turn into sets), no component of the result has the connector.

Missing: arguments with the same connector nested deeper, `C22_nested_counterexample`. -/
theorem C22_flat_partial {ord : Order} (hord : Permutes ord) {c : Connector}
    (hc : c.isCommutative = true)
    {args : List Term} {b : Bool} {r : Term} (hcs : ∀ z ∈ args, Constructed z)
    (hdeep : ∀ t ∈ args, ∀ v ∈ t.comps, ∀ us i, ¬ Under v (.comp c us i))
    (hx : c = .extensionalSet → ∀ t ∈ args, ∀ us i, ¬ Under t (.comp .intensionalIntersection us i))
    (hi : c = .intensionalSet → ∀ t ∈ args, ∀ us i, ¬ Under t (.comp .extensionalIntersection us i))
    (h : mkComp ord c args b = .ok r) :
    ∀ v ∈ r.comps, ∀ us i, v ≠ .comp c us i := by
  obtain ⟨ts, _, hm, h2⟩ := mkComp_inv h
  have hv := mkCompF_flat hord hc (fun t ht => (hcs t (hm t ht)).good) (by
    intro z hz
    rcases mem_unfold.1 hz with ⟨us, i, ht, hz⟩ | ⟨ht, hne⟩
    · have ha := hm _ ht
      exact ⟨Good.downClosed _ (hcs _ ha).good z hz, fun us' i' => hdeep _ ha z hz us' i',
        fun e us' i' hu => hx e _ ha us' i' (.step hz hu), fun e us' i' hu => hi e _ ha us' i' (.step hz hu)⟩
    · have ha := hm _ ht
      refine ⟨(hcs _ ha).good, fun us' i' hu => ?_, fun e us' i' => hx e _ ha us' i',
        fun e us' i' => hi e _ ha us' i'⟩
      generalize hcu : Term.comp c us' i' = u at hu
      cases hu with
      | refl => exact hne us' i' hcu.symm
      | step hv hu => subst hcu; exact hdeep _ ha _ hv us' i' hu) h2
  intro v hmem us i e
  exact (hv v hmem).2.1 us i (e ▸ .refl _)

theorem atom_under {a : Word} {u : Term} (h : Under (mkAtom a) u) : u = mkAtom a := by
  cases h with
  | refl => rfl
  | step hv _ => simp [mkAtom, comps] at hv

/-- `(&&, (&&,A,B), C)`. -/
example : ∃ r, mkComp id .conjunction [finishComp .conjunction [sB, sA], sC] true = .ok r ∧
    ∀ v ∈ r.comps, ∀ us i, v ≠ .comp .conjunction us i := by
  have h0 : mkComp id .conjunction [sA, sB] true = .ok (finishComp .conjunction [sB, sA]) := by rfl
  have hc0 : Constructed (finishComp .conjunction [sB, sA]) :=
    .comp _ true permutes_id (by simp; exact ⟨sA_c, sB_c⟩) h0
  have h : mkComp id .conjunction [finishComp .conjunction [sB, sA], sC] true =
    .ok (finishComp .conjunction [sB, sA, sC]) := by rfl
  refine ⟨_, h, C22_flat_partial permutes_id (by decide) (by simp; exact ⟨hc0, sC_c⟩) ?_
    (by simp) (by simp) h⟩
  intro t ht v hv us i hu
  simp only [List.mem_cons, List.not_mem_nil, or_false] at ht
  rcases ht with rfl | rfl
  · simp only [finishComp, comps, List.mem_cons, List.not_mem_nil, or_false] at hv
    rcases hv with rfl | rfl <;> cases atom_under hu
  · simp [sC, mkAtom, comps] at hv

/-- `&/`: always flat, provided the arguments were constructed. -/
theorem C22_sequential {ord : Order} {args : List Term} {b : Bool} {r : Term}
    (hcs : ∀ z ∈ args, Constructed z) (h : mkComp ord .sequentialEvents args b = .ok r) :
    ∀ v ∈ r.comps, ∀ us i, v ≠ .comp .sequentialEvents us i := by
  have step : ∀ {ord : Order} {args : List Term} {b : Bool} {r : Term}, (∀ z ∈ args, Constructed z) →
      (∀ z ∈ args, ∀ us i, z = .comp .sequentialEvents us i → ∀ v ∈ us, ∀ us' i', v ≠ .comp .sequentialEvents us' i') →
      mkComp ord .sequentialEvents args b = .ok r →
      ∀ v ∈ r.comps, ∀ us i, v ≠ .comp .sequentialEvents us i := by
    intro ord args b r hcs hflat h v hv us i
    rw [mkComp_ordered (fun t ht => (hcs t ht).good) (by decide), if_pos (by decide)] at h
    cases h
    rcases mem_unfold.1 hv with ⟨ws, j, ht, hz⟩ | ⟨_, hne⟩
    · exact hflat _ ht ws j rfl v hz us i
    · exact hne us i
  have all : ∀ t, Constructed t → ∀ us i, t = .comp .sequentialEvents us i →
      ∀ v ∈ us, ∀ us' i', v ≠ .comp .sequentialEvents us' i' := by
    intro t ht
    induction ht with
    | atom | operation | interval | var => intro us i h; simp [mkAtom, mkOperation, mkInterval, mkVar] at h
    | stmt c b hs hp h _ _ =>
      intro us i e
      rw [Good.newStmt hs.good hp.good h] at e
      simp [mkStmt] at e
    | clone ht h ih =>
      rw [ht.good.clone] at h; cases h; exact ih
    | @comp ord args r c b hord hcs h ih =>
      intro us i e
      by_cases hc : c = .sequentialEvents
      · subst hc
        have := step hcs ih h
        subst e
        exact this
      · cases hcc : c.isCommutative with
        | false =>
          rw [mkComp_ordered (fun t ht => (hcs t ht).good) hcc] at h
          cases h
          simp only [finishComp, Term.comp.injEq] at e
          exact absurd e.1 hc
        | true =>
          obtain ⟨ts, _, hm, h2⟩ := mkComp_inv h
          obtain ⟨m, c', ws, _, _, _, hcomm, _, rfl⟩ := mkCompF_inv (fun v hv => (hcs v (hm v hv)).good) h2
          simp only [finishComp, Term.comp.injEq] at e
          have := (hcomm hcc).2
          rw [e.1] at this
          exact absurd this (by decide)
  exact step hcs (fun z hz us i e => all z (hcs z hz) us i e) h

example : ∃ r, mkComp id .sequentialEvents [sC, seqAB, sA] false = .ok r ∧
    ∀ v ∈ r.comps, ∀ us i, v ≠ .comp .sequentialEvents us i := by
  have hcs : ∀ z ∈ [sC, seqAB, sA], Constructed z := by simp; exact ⟨sC_c, seqAB_c, sA_c⟩
  obtain ⟨i, h⟩ := C14_sequential (ord := id) (b := false) hcs
  exact ⟨_, h, C22_sequential hcs h⟩

/-- `{[{A,B},C]}` has the component `{A,B}`. -/
theorem C22_nested_counterexample :
    ∃ t r, Constructed t ∧ mkComp id .extensionalSet [t] true = .ok r ∧
      ∃ us i, Term.comp .extensionalSet us i ∈ r.comps := by
  have h : ∃ us, mkComp id .intensionalSet [setAB, sC] true = .ok (finishComp .intensionalSet us) ∧
      setAB ∈ us ∧ us ≠ [] := by
    first
      | exact ⟨[setAB, sC], rfl, by simp, by simp⟩
      | exact ⟨[sC, setAB], rfl, by simp, by simp⟩
  obtain ⟨us, h, hm, _⟩ := h
  have hc : Constructed (finishComp .intensionalSet us) :=
    .comp _ true permutes_id (by simp; exact ⟨setAB_c, sC_c⟩) h
  obtain ⟨c', j, h2⟩ := C18_unwrapped_counterexample (b := true) permutes_id (c := .extensionalSet)
    (by decide) (by decide) hc (by decide)
  exact ⟨_, _, hc, h2, _, _, hm⟩

end Cnars.Props
