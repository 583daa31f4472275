import Verif.Narsese.SetOps
import Verif.Narsese.Fuel

/-!
Helper lemmas about the construction of compounds.
-/

namespace Cnars
open Term

abbrev Order := List (Option Connector) → List (Option Connector)

theorem mkComp_eq {ord : Order} {c : Connector} {args : List Term} {b : Bool} {ts : List Term}
    (h : Terms.ofList c.isCommutative args = .ok ⟨c.isCommutative, ts⟩) :
    mkComp ord c args b = mkCompF ord (heights args + 1) c ts b := by
  simp [mkComp, h]

/-- The tail of the constructor on good components. -/
theorem mkCompF_of_prepocess {ord : Order} {n : Nat} {c c' : Connector} {terms us : List Term}
    {b : Bool} (g : ∀ t ∈ terms, Good t)
    (h : prepocess ord (fun c us => mkCompF ord n c us false) c terms = .ok (c', us)) :
    mkCompF ord (n + 1) c terms b = .ok (finishComp c' us) := by
  obtain ⟨gus, hc, hnc⟩ := prepocess_closed (P := Good) Good.downClosed
    (fun c vs t gv hmk => mkCompF_good gv hmk) g h
  simp only [mkCompF, h, Res.ok_bind]
  cases b with
  | true => simp
  | false =>
    rw [clonePush_self (fun t ht => (gus t ht).clone)]
    · simp
    · intro hcc
      cases hb : c.isCommutative with
      | true => exact (hc hb).1
      | false => rw [hnc hb, hb] at hcc; cases hcc

/-- Construction with a non-commutative connector. -/
theorem mkComp_ordered {ord : Order} {c : Connector} {args : List Term} {b : Bool}
    (g : ∀ t ∈ args, Good t) (hc : c.isCommutative = false) :
    mkComp ord c args b =
      .ok (finishComp c (if c.isReducible then unfold c args else args)) := by
  rw [mkComp_eq (ts := args) (by rw [hc]; rfl)]
  refine mkCompF_of_prepocess g ?_
  unfold prepocess
  cases c.isReducible <;> simp [hc]

theorem perm_singleton {ord : Order} (hord : ∀ l, (ord l).Perm l) (k : Option Connector) :
    ord [k] = [k] := List.perm_singleton.1 (hord [k])

theorem keys_all {ts : List Term} {k : Option Connector} (hne : ts ≠ [])
    (h : ∀ t ∈ ts, category t = k) : keys ts = [k] := by
  induction ts with
  | nil => exact absurd rfl hne
  | cons t ts ih =>
    have ht := h t (by simp)
    simp only [keys, ht, List.cons.injEq, true_and]
    rw [List.filter_eq_nil_iff]
    intro k' hk'
    obtain ⟨u, hu, rfl⟩ := mem_keys.1 hk'
    simp [h u (by simp [hu])]

theorem group_all {ts : List Term} {k : Option Connector} (h : ∀ t ∈ ts, category t = k) :
    group k ts = ts := by
  unfold group
  rw [List.filter_eq_self]
  intro t ht; simp [h t ht]

theorem mem_unfold {parent : Connector} {ts : List Term} {z : Term} :
    z ∈ unfold parent ts ↔
      (∃ us i, Term.comp parent us i ∈ ts ∧ z ∈ us) ∨
      (z ∈ ts ∧ ∀ us i, z ≠ .comp parent us i) := by
  unfold unfold
  simp only [List.mem_flatMap]
  constructor
  · rintro ⟨t, ht, hz⟩
    cases t with
    | comp c us i =>
      simp only at hz
      split at hz
      · next h => subst h; exact .inl ⟨us, i, ht, hz⟩
      · next h =>
        simp only [List.mem_singleton] at hz; subst hz
        exact .inr ⟨ht, fun us i e => h (by simp only [Term.comp.injEq] at e; exact e.1)⟩
    | _ =>
      simp only [List.mem_singleton] at hz; subst hz
      exact .inr ⟨ht, by simp⟩
  · rintro (⟨us, i, ht, hz⟩ | ⟨ht, hne⟩)
    · exact ⟨_, ht, by simpa using hz⟩
    · refine ⟨z, ht, ?_⟩
      cases z with
      | comp c us i =>
        simp only
        split
        · next h => exact absurd rfl (h ▸ hne us i)
        · simp
      | _ => simp

theorem unfold_congr {parent : Connector} {ts us : List Term} (h : ∀ z, z ∈ ts ↔ z ∈ us) :
    ∀ z, z ∈ unfold parent ts ↔ z ∈ unfold parent us := by
  intro z; simp only [mem_unfold, h]

theorem collect_none {mk : Connector → List Term → Res Term} {parent : Connector} (ts : List Term) :
    collect mk parent (ts.map fun t => (none, [t])) = .ok ts := by
  induction ts with
  | nil => rfl
  | cons t ts ih => simp [collect, ih]

/-- Construction from arguments none of which is a commutative compound, after the compounds with
the same connector have been unfolded. -/
theorem mkComp_plain {ord : Order} {c : Connector} {args : List Term} {b : Bool}
    (hord : ∀ l, (ord l).Perm l)
    (g : ∀ t ∈ args, Good t) (hc : c.isCommutative = true) (hr : c.isReducible = true)
    (hargs : Orderly (· ∈ args)) (hun : Orderly (· ∈ unfold c args))
    (hne : unfold c args ≠ []) (hplain : ∀ t ∈ unfold c args, category t = none) :
    ∃ r, mkComp ord c args b = .ok (finishComp c r) ∧ SortedTs r ∧ ∀ z, z ∈ r ↔ z ∈ unfold c args := by
  obtain ⟨ts0, e0, s0, m0⟩ := hargs.setInsertAll (xs := args) (s := []) (fun _ h => h) (by simp)
    (by simp [SortedTs])
  have m0' : ∀ z, z ∈ ts0 ↔ z ∈ args := fun z => by rw [m0]; simp
  have mu := unfold_congr (parent := c) m0'
  obtain ⟨ts, e1, s1, m1⟩ := hun.setInsertAll (xs := unfold c ts0) (s := [])
    (fun z h => (mu z).1 h) (by simp) (by simp [SortedTs])
  have m1' : ∀ z, z ∈ ts ↔ z ∈ unfold c args := fun z => by rw [m1, mu]; simp
  have hts : ts ≠ [] := by
    intro e
    obtain ⟨z, hz⟩ := List.exists_mem_of_ne_nil _ hne
    have := (m1' z).2 hz
    rw [e] at this; simp at this
  have hcat : ∀ t ∈ ts, category t = none := fun t ht => hplain t ((m1' t).1 ht)
  refine ⟨ts, ?_, s1, m1'⟩
  rw [mkComp_eq (ts := ts0) (by simp [Terms.ofList, hc, e0])]
  refine mkCompF_of_prepocess (fun t ht => g t ((m0' t).1 ht)) ?_
  have hnorm : normAll c ts (ord (keys ts)) = .ok (ts.map fun t => (none, [t])) := by
    rw [keys_all hts hcat, perm_singleton hord]
    simp [normAll, normGroup, group_all hcat]
  simp only [prepocess, hr, Bool.not_true, Bool.false_eq_true, if_false, hc, if_true, e1, Res.ok_bind, hnorm]
  match ts, hts with
  | [t], _ => simp [finalStep, setInsertAll, setInsert]
  | t :: u :: us, _ =>
    have := collect_none (mk := fun c us => mkCompF ord (heights args) c us false) (parent := c) (t :: u :: us)
    have hlen : ((t :: u :: us).map fun t => ((none : Option Connector), [t])).length > 1 := by simp
    rw [if_pos hlen, this]
    simp [setInsertAll_self s1]

/-! ### Compounds of sets -/

/-- All arguments are commutative compounds with connector `k`, and the parent merges these with a
set operation. -/
theorem mkComp_merge {ord : Order} {c k : Connector} {args : List Term} {b : Bool}
    (hord : ∀ l, (ord l).Perm l)
    (g : ∀ t ∈ args, Good t) (hc : c.isCommutative = true) (hr : c.isReducible = true)
    (hk : k.isCommutative = true) (hkc : k ≠ c) (hne : args ≠ [])
    (hsets : ∀ t ∈ args, ∃ us i, t = .comp k us i)
    (hargs : Orderly (· ∈ args)) {op : List Terms → Res Terms}
    (hop : ∀ cs, mergeCompounds c k cs = do
      let r ← op (cs.map termsOf)
      return some r.items) {R : List Term}
    (hres : ∀ cs : List Term, (∀ t, t ∈ cs ↔ t ∈ args) → op (cs.map termsOf) = .ok ⟨true, R⟩)
    (sR : SortedTs R) :
    mkComp ord c args b = .ok (finishComp
      (if k = .extensionalSet ∧ c = .intensionalIntersection then .extensionalSet
       else if k = .intensionalSet ∧ c = .extensionalIntersection then .intensionalSet else c) R) := by
  obtain ⟨ts, e0, s0, m0⟩ := hargs.setInsertAll (xs := args) (s := []) (fun _ h => h) (by simp)
    (by simp [SortedTs])
  have m0' : ∀ z, z ∈ ts ↔ z ∈ args := fun z => by rw [m0]; simp
  have hts : ts ≠ [] := by
    intro e
    obtain ⟨z, hz⟩ := List.exists_mem_of_ne_nil _ hne
    have := (m0' z).2 hz
    rw [e] at this; simp at this
  have hsets' : ∀ t ∈ ts, ∃ us i, t = .comp k us i := fun t ht => hsets t ((m0' t).1 ht)
  have hun : unfold c ts = ts := by
    have : ∀ l : List Term, (∀ t ∈ l, ∃ us i, t = .comp k us i) → unfold c l = l := by
      intro l hl
      induction l with
      | nil => rfl
      | cons t l ih =>
        obtain ⟨us, i, rfl⟩ := hl _ List.mem_cons_self
        have := ih fun t ht => hl t (by simp [ht])
        simp only [unfold, List.flatMap_cons, hkc, if_false] at this ⊢
        rw [this]; rfl
    exact this ts hsets'
  have hcat : ∀ t ∈ ts, category t = some k := by
    intro t ht
    obtain ⟨us, i, rfl⟩ := hsets' t ht
    simp [category, hk]
  rw [mkComp_eq (ts := ts) (by simp [Terms.ofList, hc, e0])]
  refine mkCompF_of_prepocess (fun t ht => g t ((m0' t).1 ht)) ?_
  have hnorm : normAll c ts (ord (keys ts)) = .ok [(some k, R)] := by
    rw [keys_all hts hcat, perm_singleton hord]
    simp [normAll, normGroup, group_all hcat, hop, hres ts m0']
  simp only [prepocess, hr, Bool.not_true, Bool.false_eq_true, if_false, hc, if_true, hun,
    setInsertAll_self s0, Res.ok_bind, hnorm]
  simp only [List.length_singleton, gt_iff_lt, Nat.lt_irrefl, if_false, finalStep,
    setInsertAll_self sR, Res.ok_bind]
  by_cases h1 : k = .extensionalSet
  · subst h1
    by_cases h2 : c = .intensionalIntersection <;> simp [h2]
  · by_cases h2 : k = .intensionalSet
    · subst h2
      by_cases h3 : c = .extensionalIntersection <;> simp [h3]
    · cases k <;> simp_all

/-! ### Independence of the enumeration order -/

theorem normAll_perm {parent : Connector} {ts : List Term} {ks ks' : List (Option Connector)}
    (hp : ks.Perm ks') {r : List (Option Connector × List Term)} (h : normAll parent ts ks = .ok r) :
    ∃ r', normAll parent ts ks' = .ok r' ∧ r.Perm r' := by
  induction hp generalizing r with
  | nil => exact ⟨r, h, .refl _⟩
  | cons k _ ih =>
    simp only [normAll, Res.bind_eq_ok, Res.pure_eq, Res.ok.injEq] at h
    obtain ⟨a, ha, b, hb, rfl⟩ := h
    obtain ⟨b', hb', hp'⟩ := ih hb
    exact ⟨a ++ b', by simp [normAll, ha, hb'], hp'.append_left a⟩
  | swap k k' ks =>
    simp only [normAll, Res.bind_eq_ok, Res.pure_eq, Res.ok.injEq] at h
    obtain ⟨a, ha, _, ⟨b, hb, c, hc, rfl⟩, rfl⟩ := h
    refine ⟨b ++ (a ++ c), by simp [normAll, ha, hb, hc], ?_⟩
    rw [← List.append_assoc, ← List.append_assoc]
    exact (List.perm_append_comm).append_right c
  | trans _ _ ih1 ih2 =>
    obtain ⟨r1, h1, p1⟩ := ih1 h
    obtain ⟨r2, h2, p2⟩ := ih2 h1
    exact ⟨r2, h2, p1.trans p2⟩

/-- What one entry contributes in step 3. -/
def contribution (mk : Connector → List Term → Res Term) (parent : Connector)
    (q : Option Connector × List Term) : Res (List Term) :=
  match q.1 with
  | none => return q.2
  | some c =>
    if c = parent then return q.2
    else if c.checkValid q.2.length then do
      let t ← mk c q.2
      return [t]
    else return []

theorem collect_cons {mk : Connector → List Term → Res Term} {parent : Connector}
    {q : Option Connector × List Term} {rest : List (Option Connector × List Term)} :
    collect mk parent (q :: rest) = do
      let here ← contribution mk parent q
      let more ← collect mk parent rest
      return here ++ more := by
  obtain ⟨k, us⟩ := q
  cases k <;> rfl

theorem collect_perm {mk : Connector → List Term → Res Term} {parent : Connector}
    {l l' : List (Option Connector × List Term)} (hp : l.Perm l') {r : List Term}
    (h : collect mk parent l = .ok r) : ∃ r', collect mk parent l' = .ok r' ∧ r.Perm r' := by
  induction hp generalizing r with
  | nil => exact ⟨r, h, .refl _⟩
  | cons q _ ih =>
    simp only [collect_cons, Res.bind_eq_ok, Res.pure_eq, Res.ok.injEq] at h
    obtain ⟨a, ha, b, hb, rfl⟩ := h
    obtain ⟨b', hb', hp'⟩ := ih hb
    exact ⟨a ++ b', by simp [collect_cons, ha, hb'], hp'.append_left a⟩
  | swap q q' l =>
    simp only [collect_cons, Res.bind_eq_ok, Res.pure_eq, Res.ok.injEq] at h
    obtain ⟨a, ha, _, ⟨b, hb, c, hc, rfl⟩, rfl⟩ := h
    refine ⟨b ++ (a ++ c), by simp [collect_cons, ha, hb, hc], ?_⟩
    rw [← List.append_assoc, ← List.append_assoc]
    exact (List.perm_append_comm).append_right c
  | trans _ _ ih1 ih2 =>
    obtain ⟨r1, h1, p1⟩ := ih1 h
    obtain ⟨r2, h2, p2⟩ := ih2 h1
    exact ⟨r2, h2, p1.trans p2⟩

theorem collect_mono {mk mk' : Connector → List Term → Res Term} {parent : Connector}
    {norm : List (Option Connector × List Term)} {r : List Term}
    (h : ∀ q ∈ norm, ∀ c t, q.1 = some c → c ≠ parent → c.checkValid q.2.length = true →
      mk c q.2 = .ok t → mk' c q.2 = .ok t)
    (hr : collect mk parent norm = .ok r) : collect mk' parent norm = .ok r := by
  induction norm generalizing r with
  | nil => exact hr
  | cons q rest ih =>
    simp only [collect_cons, Res.bind_eq_ok, Res.pure_eq, Res.ok.injEq] at hr ⊢
    obtain ⟨a, ha, b, hb, rfl⟩ := hr
    refine ⟨a, ?_, b, ih (fun q hq => h q (by simp [hq])) hb, rfl⟩
    unfold contribution at ha ⊢
    cases hq : q.1 with
    | none => simpa [hq] using ha
    | some c =>
      simp only [hq] at ha ⊢
      split
      · next he => simpa [he] using ha
      · next he =>
        simp only [he, if_false] at ha
        split
        · next hv =>
          simp only [hv, if_true, Res.bind_eq_ok] at ha
          obtain ⟨t, ht, h2⟩ := ha
          rw [h q List.mem_cons_self c t hq he hv ht]
          simpa using h2
        · next hv => simpa [hv] using ha

/-- No two different members are equivalent under the comparator. -/
def Separated (l : List Term) : Prop :=
  ∀ a ∈ l, ∀ b ∈ l, lt a b = .ok false → lt b a = .ok false → a = b

theorem Above.trans_of_sorted {r : List Term} (h : SortedTs r) {a b c : Term} (ha : a ∈ r)
    (hb : b ∈ r) (hc : c ∈ r) (h1 : Above a b) (h2 : Above b c) : Above a c := by
  induction r with
  | nil => simp at ha
  | cons x r ih =>
    rcases List.mem_cons.1 ha with rfl | ha'
    · rcases List.mem_cons.1 hc with rfl | hc'
      · exact absurd h2 h1.asymm
      · exact h.head c hc'
    · rcases List.mem_cons.1 hb with rfl | hb'
      · exact absurd (h.head a ha') h1.asymm
      · rcases List.mem_cons.1 hc with rfl | hc'
        · exact absurd (h.head b hb') h2.asymm
        · exact ih h.tail ha' hb' hc'

/-- If a set was built from `xs` in one order, and no two different members of `xs` are equivalent,
then the comparator orders `xs` strictly and totally. -/
theorem orderly_of_built {xs r : List Term} (g : ∀ z ∈ xs, Good z) (hsep : Separated xs)
    (h : setInsertAll xs [] = .ok r) : Orderly (· ∈ xs) ∧ ∀ z, z ∈ r ↔ z ∈ xs := by
  have sr := setInsertAll_sorted h (by simp [SortedTs])
  have gen : ∀ (ys s r : List Term), (∀ y ∈ ys, y ∈ xs) → (∀ y ∈ s, y ∈ xs) →
      setInsertAll ys s = .ok r → ∀ z, z ∈ ys → z ∈ r := by
    intro ys
    induction ys with
    | nil => intro s r _ _ _ z hz; simp at hz
    | cons a ys ih =>
      intro s r hys hs h z hz
      simp only [setInsertAll, Res.bind_eq_ok] at h
      obtain ⟨s', h1, h2⟩ := h
      obtain ⟨hnew, hold, hin⟩ := setInsert_mem h1
      have hs' : ∀ y ∈ s', y ∈ xs := fun y hy => by
        rcases hnew y hy with rfl | hy
        · exact hys _ (by simp)
        · exact hs y hy
      rcases List.mem_cons.1 hz with rfl | hz
      · have : z ∈ s' := by
          rcases hin with hin | ⟨y, hy, hzy, hyz⟩
          · exact hin
          · rw [hsep z (hys z (by simp)) y (hs y hy) hzy hyz]; exact hold y hy
        exact (setInsertAll_mem h2).2 z this
      · exact ih s' r (fun y hy => hys y (by simp [hy])) hs' h2 z hz
  have hm : ∀ z, z ∈ r ↔ z ∈ xs := fun z =>
    ⟨fun hz => by simpa using (setInsertAll_mem h).1 z hz,
     fun hz => gen xs [] r (fun _ h => h) (by simp) h z hz⟩
  refine ⟨⟨fun a ha => lt_irrefl (g a ha), ?_, ?_⟩, hm⟩
  · intro a b ha hb
    have ha' := (hm a).2 ha
    have hb' := (hm b).2 hb
    by_cases e : a = b
    · exact .inl e
    · right
      have gen2 : ∀ l : List Term, SortedTs l → a ∈ l → b ∈ l → Above a b ∨ Above b a := by
        intro l sl
        induction l with
        | nil => intro h; simp at h
        | cons x l ih =>
          intro ha hb
          rcases List.mem_cons.1 ha with rfl | ha2
          · rcases List.mem_cons.1 hb with rfl | hb2
            · exact absurd rfl e
            · exact .inl (sl.head b hb2)
          · rcases List.mem_cons.1 hb with rfl | hb2
            · exact .inr (sl.head a ha2)
            · exact ih sl.tail ha2 hb2
      exact gen2 r sr ha' hb'
  · intro a b c ha hb hc hab hbc
    exact Above.trans_of_sorted sr ((hm a).2 ha) ((hm b).2 hb) ((hm c).2 hc) hab hbc

theorem setInsertAll_perm {xs ys r : List Term} (g : ∀ z ∈ xs, Good z) (hsep : Separated xs)
    (hm : ∀ z, z ∈ ys ↔ z ∈ xs) (h : setInsertAll xs [] = .ok r) : setInsertAll ys [] = .ok r := by
  obtain ⟨ho, hmr⟩ := orderly_of_built g hsep h
  obtain ⟨r', e, s', hm'⟩ := ho.setInsertAll (xs := ys) (s := []) (fun z hz => (hm z).1 hz) (by simp)
    (by simp [SortedTs])
  rw [e, s'.ext (setInsertAll_sorted h (by simp [SortedTs])) fun z => by rw [hm', hmr, hm]; simp]

/-- The lists of normalised arguments that step 3 puts into a set, at every level of one
construction. -/
def step3Lists (ord : Order) : Nat → Connector → List Term → List (List Term)
  | 0, _, _ => []
  | n + 1, c, terms =>
    if c.isReducible && c.isCommutative then
      match setInsertAll (unfold c terms) [] with
      | .ok ts =>
        match normAll c ts (ord (keys ts)) with
        | .ok norm =>
          (norm.flatMap fun q => match q.1 with
            | some k => if k ≠ c ∧ k.checkValid q.2.length = true then step3Lists ord n k q.2 else []
            | none => []) ++
          (match collect (fun c us => mkCompF ord n c us false) c norm with
            | .ok all => [all]
            | _ => [])
        | _ => []
      | _ => []
    else []

theorem prepocess_ord {ord ord' : Order} (hord : ∀ l, (ord l).Perm l) (hord' : ∀ l, (ord' l).Perm l)
    {n : Nat} {c : Connector} {terms : List Term} {b : Bool} {r : Term} (g : ∀ t ∈ terms, Good t)
    (hsep : ∀ l ∈ step3Lists ord n c terms, Separated l)
    (h : mkCompF ord n c terms b = .ok r) : mkCompF ord' n c terms b = .ok r := by
  induction n generalizing c terms b r with
  | zero => simp [mkCompF] at h
  | succ n ih =>
    simp only [mkCompF, Res.bind_eq_ok, Prod.exists] at h ⊢
    obtain ⟨c', us, h1, vs, h2, h3⟩ := h
    refine ⟨c', us, ?_, vs, h2, h3⟩
    unfold prepocess at h1 ⊢
    split
    · next hr => simpa [hr] using h1
    · next hr =>
      rw [if_neg hr] at h1
      split
      · next hc =>
        rw [if_pos hc] at h1
        simp only [Res.bind_eq_ok] at h1
        obtain ⟨ts, hts, norm, hn, h1⟩ := h1
        have gts := good_of_setInsertAll (good_unfold (parent := c) g) hts
        have gn : ∀ q ∈ norm, ∀ z ∈ q.2, Good z := fun q hq z hz => by
          rcases normAll_mem hn q hq z hz with h | ⟨t, ht, h⟩
          · exact gts z h
          · exact Good.downClosed t (gts t ht) z h
        obtain ⟨norm', hn', pn⟩ := normAll_perm ((hord _).trans (hord' (keys ts)).symm) hn
        rw [hts]; simp only [Res.ok_bind, hn']
        have hsub : ∀ q ∈ norm, ∀ k, q.1 = some k → k ≠ c → k.checkValid q.2.length = true →
            ∀ l ∈ step3Lists ord n k q.2, Separated l := by
          intro q hq k hk hkc hval l hl
          refine hsep l ?_
          have hr' : c.isReducible = true := by simpa using hr
          simp only [step3Lists, hr', hc, Bool.and_self, if_true, hts, hn]
          refine List.mem_append_left _ (List.mem_flatMap.2 ⟨q, hq, ?_⟩)
          simpa [hk, hkc, hval] using hl
        rw [← pn.length_eq]
        split
        · next hlen =>
          rw [if_pos hlen] at h1
          simp only [Res.bind_eq_ok] at h1
          obtain ⟨all, hall, h1⟩ := h1
          have hall1 : collect (fun c us => mkCompF ord' n c us false) c norm = .ok all :=
            collect_mono (fun q hq k t hk hkc hval hmk => ih (gn q hq) (hsub q hq k hk hkc hval) hmk) hall
          obtain ⟨all', hall', pa⟩ := collect_perm pn hall1
          simp only [hall', Res.ok_bind, ← pa.length_eq]
          split
          · next hl2 =>
            rw [if_pos hl2] at h1
            simp only [Res.bind_eq_ok] at h1
            obtain ⟨rr, hrr, h1⟩ := h1
            have gall : ∀ z ∈ all, Good z := fun z hz => by
              rcases collect_mem hall z hz with ⟨q, hq, h⟩ | ⟨q, hq, k, _, hmk⟩
              · exact gn q hq z h
              · exact mkCompF_good (gn q hq) hmk
            have hsa : Separated all := by
              refine hsep all ?_
              have hr' : c.isReducible = true := by simpa using hr
              simp only [step3Lists, hr', hc, Bool.and_self, if_true, hts, hn, hall]
              simp
            rw [setInsertAll_perm gall hsa (fun z => pa.mem_iff.symm) hrr]
            simpa using h1
          · next hl2 =>
            rw [if_neg hl2] at h1
            match all, hl2, pa, h1 with
            | [], _, pa, h1 => exact absurd h1 (by simp)
            | [t], _, pa, h1 =>
              have : all' = [t] := List.perm_singleton.1 pa.symm
              rw [this]
              exact h1
            | _ :: _ :: _, hl2, _, _ => exact absurd (by simp) hl2
        · next hlen =>
          rw [if_neg hlen] at h1
          match norm, hlen, pn, h1 with
          | [], _, pn, h1 => exact absurd h1 (by simp)
          | [q], _, pn, h1 =>
            have : norm' = [q] := List.perm_singleton.1 pn.symm
            rw [this]
            exact h1
          | _ :: _ :: _, hlen, _, _ => exact absurd (by simp) hlen
      · next hc => simpa [hc] using h1

end Cnars
