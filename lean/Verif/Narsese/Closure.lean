import Verif.Narsese.TermsLemmas

/-!
Helper lemmas: every predicate that passes from compounds to components and from components to
constructed compounds holds of everything that compound construction produces.
-/

namespace Cnars
open Term

theorem mergeUnion_mem {xs ys r : List Term} (h : Terms.mergeUnion xs ys = .ok r) :
    ∀ z ∈ r, z ∈ xs ∨ z ∈ ys := by
  fun_induction Terms.mergeUnion xs ys generalizing r with
  | case1 ys => cases h; simp
  | case2 x xs => cases h; simp
  | case3 x xs y ys ih1 ih2 ih3 =>
    simp only [Res.bind_eq_ok] at h
    obtain ⟨b, _, h⟩ := h
    split at h
    · simp only [Res.bind_eq_ok] at h
      obtain ⟨r', hr, h⟩ := h; cases h
      intro z hz
      rcases List.mem_cons.1 hz with rfl | hz
      · simp
      · rcases ih1 hr z hz with h | h
        · exact .inl (by simp [h])
        · exact .inr h
    · simp only [Res.bind_eq_ok] at h
      obtain ⟨b2, _, h⟩ := h
      split at h
      · simp only [Res.bind_eq_ok] at h
        obtain ⟨r', hr, h⟩ := h; cases h
        intro z hz
        rcases List.mem_cons.1 hz with rfl | hz
        · simp
        · rcases ih2 hr z hz with h | h
          · exact .inl h
          · exact .inr (by simp [h])
      · simp only [Res.bind_eq_ok] at h
        obtain ⟨r', hr, h⟩ := h; cases h
        intro z hz
        rcases List.mem_cons.1 hz with rfl | hz
        · simp
        · rcases ih3 hr z hz with h | h
          · exact .inl (by simp [h])
          · exact .inr (by simp [h])

theorem mergeInter_mem {xs ys r : List Term} (h : Terms.mergeInter xs ys = .ok r) :
    ∀ z ∈ r, z ∈ xs := by
  fun_induction Terms.mergeInter xs ys generalizing r with
  | case1 ys => cases h; simp
  | case2 x xs => cases h; simp
  | case3 x xs y ys ih1 ih2 ih3 =>
    simp only [Res.bind_eq_ok] at h
    obtain ⟨b, _, h⟩ := h
    split at h
    · intro z hz; exact List.mem_cons_of_mem _ (ih1 h z hz)
    · simp only [Res.bind_eq_ok] at h
      obtain ⟨b2, _, h⟩ := h
      split at h
      · exact ih2 h
      · simp only [Res.bind_eq_ok] at h
        obtain ⟨r', hr, h⟩ := h; cases h
        intro z hz
        rcases List.mem_cons.1 hz with rfl | hz
        · simp
        · exact List.mem_cons_of_mem _ (ih3 hr z hz)

theorem mergeDiff_mem {xs ys r : List Term} (h : Terms.mergeDiff xs ys = .ok r) :
    ∀ z ∈ r, z ∈ xs := by
  fun_induction Terms.mergeDiff xs ys generalizing r with
  | case1 ys => cases h; simp
  | case2 x xs => cases h; simp
  | case3 x xs y ys ih1 ih2 ih3 =>
    simp only [Res.bind_eq_ok] at h
    obtain ⟨b, _, h⟩ := h
    split at h
    · simp only [Res.bind_eq_ok] at h
      obtain ⟨r', hr, h⟩ := h; cases h
      intro z hz
      rcases List.mem_cons.1 hz with rfl | hz
      · simp
      · exact List.mem_cons_of_mem _ (ih1 hr z hz)
    · simp only [Res.bind_eq_ok] at h
      obtain ⟨b2, _, h⟩ := h
      split at h
      · exact ih2 h
      · intro z hz; exact List.mem_cons_of_mem _ (ih3 h z hz)

theorem foldOp_mem {op : List Term → List Term → Res (List Term)}
    (hop : ∀ xs ys r, op xs ys = .ok r → ∀ z ∈ r, z ∈ xs ∨ z ∈ ys)
    {acc : List Term} {ts : List Terms} {r : List Term} (h : Terms.foldOp op acc ts = .ok r) :
    ∀ z ∈ r, z ∈ acc ∨ ∃ t ∈ ts, z ∈ t.items := by
  induction ts generalizing acc with
  | nil => cases h; intro z hz; exact .inl hz
  | cons t ts ih =>
    simp only [Terms.foldOp] at h
    split at h
    · cases h
    · simp only [Res.bind_eq_ok] at h
      obtain ⟨r1, h1, r2, h2, h3⟩ := h
      intro z hz
      rcases ih h3 z hz with hz | ⟨t', ht', hz⟩
      · rcases (setInsertAll_mem h2).1 z hz with hz | hz
        · rcases hop _ _ _ h1 z hz with hz | hz
          · exact .inl hz
          · exact .inr ⟨t, by simp, hz⟩
        · simp at hz
      · exact .inr ⟨t', by simp [ht'], hz⟩

theorem setOp_mem {op : List Term → List Term → Res (List Term)}
    (hop : ∀ xs ys r, op xs ys = .ok r → ∀ z ∈ r, z ∈ xs ∨ z ∈ ys)
    {ts : List Terms} {r : Terms} (h : Terms.setOp op ts = .ok r) :
    r.comm = true ∧ SortedTs r.items ∧ ∀ z ∈ r.items, ∃ t ∈ ts, z ∈ t.items := by
  cases ts with
  | nil => cases h
  | cons t ts =>
    simp only [Terms.setOp, Res.bind_eq_ok] at h
    obtain ⟨r1, h1, h2⟩ := h
    simp only [Terms.ofList, if_true, Res.bind_eq_ok, Res.pure_eq, Res.ok.injEq] at h2
    obtain ⟨s, h2, rfl⟩ := h2
    refine ⟨rfl, setInsertAll_sorted h2 (by simp [SortedTs]), ?_⟩
    intro z hz
    rcases (setInsertAll_mem h2).1 z hz with hz | hz
    · rcases foldOp_mem hop h1 z hz with hz | ⟨t', ht', hz⟩
      · refine ⟨t, by simp, ?_⟩
        unfold Terms.unordered at hz
        split at hz
        · exact hz
        · simp at hz
      · exact ⟨t', by simp [ht'], hz⟩
    · simp at hz

theorem mem_termsOf {t z : Term} : z ∈ (termsOf t).items ↔ z ∈ t.comps := by
  cases t <;> simp [termsOf, comps]

theorem mergeCompounds_mem {parent c : Connector} {cs r : List Term}
    (h : mergeCompounds parent c cs = .ok (some r)) : ∀ z ∈ r, ∃ t ∈ cs, z ∈ t.comps := by
  have aux : ∀ {op : List Term → List Term → Res (List Term)}
      (_ : ∀ xs ys r, op xs ys = .ok r → ∀ z ∈ r, z ∈ xs ∨ z ∈ ys) {r' : Terms},
      Terms.setOp op (cs.map termsOf) = .ok r' → ∀ z ∈ r'.items, ∃ t ∈ cs, z ∈ t.comps := by
    intro op hop r' h' z hz
    obtain ⟨t, ht, hz⟩ := (setOp_mem hop h').2.2 z hz
    obtain ⟨u, hu, rfl⟩ := List.mem_map.1 ht
    exact ⟨u, hu, mem_termsOf.1 hz⟩
  unfold mergeCompounds at h
  split at h
  · simp only [Res.bind_eq_ok, Res.pure_eq, Res.ok.injEq, Option.some.injEq] at h
    obtain ⟨r', h1, rfl⟩ := h
    exact aux (fun xs ys r h z hz => .inl (mergeInter_mem h z hz)) h1
  · simp only [Res.bind_eq_ok, Res.pure_eq, Res.ok.injEq, Option.some.injEq] at h
    obtain ⟨r', h1, rfl⟩ := h
    exact aux (fun xs ys r h => mergeUnion_mem h) h1
  · simp only [Res.bind_eq_ok, Res.pure_eq, Res.ok.injEq, Option.some.injEq] at h
    obtain ⟨r', h1, rfl⟩ := h
    exact aux (fun xs ys r h z hz => .inl (mergeDiff_mem h z hz)) h1
  · simp only [Res.bind_eq_ok, Res.pure_eq, Res.ok.injEq, Option.some.injEq] at h
    obtain ⟨r', h1, rfl⟩ := h
    unfold Terms.ofList at h1
    split at h1
    · simp only [Res.bind_eq_ok, Res.pure_eq, Res.ok.injEq] at h1
      obtain ⟨s, h1, rfl⟩ := h1
      intro z hz
      rcases (setInsertAll_mem h1).1 z hz with hz | hz
      · simpa using hz
      · simp at hz
    · simp only [Res.pure_eq, Res.ok.injEq] at h1
      subst h1
      intro z hz; simpa using hz
  · simp at h

/-- `P` passes from a compound to its components. -/
def DownClosed (P : Term → Prop) : Prop := ∀ t, P t → ∀ u ∈ t.comps, P u

theorem unfold_mem {parent : Connector} {ts : List Term} {z : Term} (h : z ∈ unfold parent ts) :
    z ∈ ts ∨ ∃ t ∈ ts, z ∈ t.comps := by
  simp only [unfold, List.mem_flatMap] at h
  obtain ⟨t, ht, hz⟩ := h
  cases t with
  | comp c us i =>
    simp only at hz
    split at hz
    · exact .inr ⟨_, ht, hz⟩
    · simp at hz; subst hz; exact .inl ht
  | _ => simp at hz; subst hz; exact .inl ht

theorem normGroup_mem {parent : Connector} {ts : List Term} {k : Option Connector}
    {r : List (Option Connector × List Term)} (h : normGroup parent ts k = .ok r) :
    ∀ q ∈ r, ∀ z ∈ q.2, z ∈ ts ∨ ∃ t ∈ ts, z ∈ t.comps := by
  unfold normGroup at h
  split at h
  · simp only [Res.pure_eq, Res.ok.injEq] at h; subst h
    intro q hq z hz
    obtain ⟨t, ht, rfl⟩ := List.mem_map.1 hq
    simp at hz; subst hz
    exact .inl (List.mem_filter.1 ht).1
  · next c =>
    simp only [Res.bind_eq_ok] at h
    obtain ⟨m, hm, h⟩ := h
    cases m with
    | none =>
      simp only [Res.pure_eq, Res.ok.injEq] at h; subst h
      intro q hq z hz
      obtain ⟨t, ht, rfl⟩ := List.mem_map.1 hq
      exact .inr ⟨t, (List.mem_filter.1 ht).1, hz⟩
    | some l =>
      simp only [Res.pure_eq, Res.ok.injEq] at h; subst h
      intro q hq z hz
      simp at hq; subst hq
      obtain ⟨t, ht, hz⟩ := mergeCompounds_mem hm z hz
      exact .inr ⟨t, (List.mem_filter.1 ht).1, hz⟩

theorem normAll_mem {parent : Connector} {ts : List Term} {ks : List (Option Connector)}
    {r : List (Option Connector × List Term)} (h : normAll parent ts ks = .ok r) :
    ∀ q ∈ r, ∀ z ∈ q.2, z ∈ ts ∨ ∃ t ∈ ts, z ∈ t.comps := by
  induction ks generalizing r with
  | nil => cases h; simp
  | cons k ks ih =>
    simp only [normAll, Res.bind_eq_ok, Res.pure_eq, Res.ok.injEq] at h
    obtain ⟨a, ha, b, hb, rfl⟩ := h
    intro q hq
    rcases List.mem_append.1 hq with hq | hq
    · exact normGroup_mem ha q hq
    · exact ih hb q hq

theorem collect_mem {mk : Connector → List Term → Res Term} {parent : Connector}
    {norm : List (Option Connector × List Term)} {r : List Term}
    (h : collect mk parent norm = .ok r) :
    ∀ z ∈ r, (∃ q ∈ norm, z ∈ q.2) ∨ ∃ q ∈ norm, ∃ c, q.1 = some c ∧ mk c q.2 = .ok z := by
  induction norm generalizing r with
  | nil => cases h; simp
  | cons q rest ih =>
    obtain ⟨k, us⟩ := q
    simp only [collect, Res.bind_eq_ok, Res.pure_eq, Res.ok.injEq] at h
    obtain ⟨here, h1, more, h2, rfl⟩ := h
    intro z hz
    rcases List.mem_append.1 hz with hz | hz
    · split at h1
      · cases h1; exact .inl ⟨(none, us), by simp, hz⟩
      · next c =>
        split at h1
        · cases h1; exact .inl ⟨(some c, us), by simp, hz⟩
        · split at h1
          · simp only [Res.bind_eq_ok, Res.ok.injEq] at h1
            obtain ⟨t, ht, rfl⟩ := h1
            simp at hz; subst hz
            exact .inr ⟨(some c, us), by simp, c, rfl, ht⟩
          · cases h1; simp at hz
    · rcases ih h2 z hz with ⟨q, hq, hz⟩ | ⟨q, hq, c, hc, hz⟩
      · exact .inl ⟨q, by simp [hq], hz⟩
      · exact .inr ⟨q, by simp [hq], c, hc, hz⟩

theorem finalStep_spec {parent c' : Connector} {k : Option Connector} {us r : List Term}
    (h : finalStep parent k us = .ok (c', r)) :
    setInsertAll us [] = .ok r ∧ (c' = parent ∨
      (c' = .extensionalSet ∧ k = some .extensionalSet ∧ parent = .intensionalIntersection) ∨
      (c' = .intensionalSet ∧ k = some .intensionalSet ∧ parent = .extensionalIntersection)) := by
  simp only [finalStep, Res.bind_eq_ok] at h
  obtain ⟨r', h1, h⟩ := h
  split at h
  · split at h <;> cases h <;> simp_all
  · split at h <;> cases h <;> simp_all
  · cases h; simp_all

/-- The shapes of the result of `prepocess_terms`. -/
theorem prepocess_closed {P : Term → Prop} {ord : List (Option Connector) → List (Option Connector)}
    {mk : Connector → List Term → Res Term} {parent c' : Connector} {terms us : List Term}
    (hd : DownClosed P) (hmk : ∀ c vs t, (∀ v ∈ vs, P v) → mk c vs = .ok t → P t)
    (ht : ∀ t ∈ terms, P t) (h : prepocess ord mk parent terms = .ok (c', us)) :
    (∀ u ∈ us, P u) ∧ (parent.isCommutative = true → SortedTs us ∧ c'.isCommutative = true) ∧
    (parent.isCommutative = false → c' = parent) := by
  have hfin : ∀ {k vs}, (∀ v ∈ vs, P v) → parent.isCommutative = true →
      finalStep parent k vs = .ok (c', us) →
      (∀ u ∈ us, P u) ∧ (parent.isCommutative = true → SortedTs us ∧ c'.isCommutative = true) ∧
      (parent.isCommutative = false → c' = parent) := by
    intro k vs hvs hp hf
    obtain ⟨hi, hc⟩ := finalStep_spec hf
    refine ⟨?_, fun hp => ⟨setInsertAll_sorted hi (by simp [SortedTs]), ?_⟩, ?_⟩
    · intro u hu
      rcases (setInsertAll_mem hi).1 u hu with hu | hu
      · exact hvs u hu
      · simp at hu
    · rcases hc with rfl | ⟨rfl, _⟩ | ⟨rfl, _⟩
      · exact hp
      · decide
      · decide
    · intro hn; rw [hp] at hn; cases hn
  have hunf : ∀ z ∈ unfold parent terms, P z := by
    intro z hz
    rcases unfold_mem hz with hz | ⟨t, ht', hz⟩
    · exact ht z hz
    · exact hd t (ht t ht') z hz
  unfold prepocess at h
  split at h
  · next hr =>
    simp only [Res.pure_eq, Res.ok.injEq, Prod.mk.injEq] at h
    obtain ⟨rfl, rfl⟩ := h
    refine ⟨ht, ?_, fun _ => rfl⟩
    intro hc
    cases parent <;> first | (exact absurd hr (by decide)) | (exact absurd hc (by decide))
  · split at h
    · next hc =>
      simp only [Res.bind_eq_ok] at h
      obtain ⟨ts, h1, norm, h2, h⟩ := h
      have hts : ∀ t ∈ ts, P t := by
        intro t ht'
        rcases (setInsertAll_mem h1).1 t ht' with h | h
        · exact hunf t h
        · simp at h
      have hn : ∀ q ∈ norm, ∀ z ∈ q.2, P z := by
        intro q hq z hz
        rcases normAll_mem h2 q hq z hz with h | ⟨t, h, hz⟩
        · exact hts z h
        · exact hd t (hts t h) z hz
      split at h
      · simp only [Res.bind_eq_ok] at h
        obtain ⟨all, h3, h⟩ := h
        have hall : ∀ z ∈ all, P z := by
          intro z hz
          rcases collect_mem h3 z hz with ⟨q, hq, hz⟩ | ⟨q, hq, c, _, hz⟩
          · exact hn q hq z hz
          · exact hmk c q.2 z (hn q hq) hz
        split at h
        · simp only [Res.bind_eq_ok, Res.pure_eq, Res.ok.injEq, Prod.mk.injEq] at h
          obtain ⟨r, h4, rfl, rfl⟩ := h
          refine ⟨?_, fun _ => ⟨setInsertAll_sorted h4 (by simp [SortedTs]), hc⟩, fun _ => rfl⟩
          intro u hu
          rcases (setInsertAll_mem h4).1 u hu with h | h
          · exact hall u h
          · simp at h
        · split at h
          · cases h
          · next t rest =>
            split at h
            · next c us' i =>
              exact hfin (vs := us') (fun v hv => hd (.comp c us' i) (hall _ (by simp)) v hv) hc h
            · exact hfin hall hc h
      · split at h
        · cases h
        · exact hfin (fun v hv => hn _ List.mem_cons_self v hv) hc h
    · next hc =>
      simp only [Res.pure_eq, Res.ok.injEq, Prod.mk.injEq] at h
      obtain ⟨rfl, rfl⟩ := h
      exact ⟨hunf, fun h => absurd h hc, fun _ => rfl⟩

end Cnars
