import Verif.Narsese.LtLemmas

/-!
Helper lemmas: compound construction returns a term or is undefined; it does not throw, the step
bound never runs out, and the bound does not influence the result.
-/

namespace Cnars
open Term

/-- The computation returns or is undefined: it neither throws nor stops for lack of fuel. -/
def NF {α : Type} (x : Res α) : Prop := (∃ a, x = .ok a) ∨ x = .ub

theorem NF.bind {α β : Type} {x : Res α} {f : α → Res β} (hx : NF x)
    (hf : ∀ a, x = .ok a → NF (f a)) : NF (x >>= f) := by
  rcases hx with ⟨a, rfl⟩ | rfl
  · exact hf a rfl
  · exact .inr rfl

@[simp] theorem NF.ok {α : Type} (a : α) : NF (Res.ok a) := .inl ⟨a, rfl⟩
@[simp] theorem NF.ub {α : Type} : NF (Res.ub : Res α) := .inr rfl

theorem nf_lt {a b : Term} (ga : Good a) (gb : Good b) : NF (lt a b) := by
  obtain ⟨r, h⟩ := lt_defined ga gb; rw [h]; simp

theorem nf_checkAbove {x : Term} {l : List Term} (gx : Good x) (gl : ∀ z ∈ l, Good z) :
    NF (checkAbove x l) := by
  induction l with
  | nil => simp [checkAbove]
  | cons z zs ih =>
    unfold checkAbove
    refine (nf_lt gx (gl z (by simp))).bind fun _ _ => (nf_lt (gl z (by simp)) gx).bind fun _ _ => ?_
    split
    · exact ih fun w hw => gl w (by simp [hw])
    · simp

theorem nf_setInsert {x : Term} {s : List Term} (gx : Good x) (gs : ∀ z ∈ s, Good z) :
    NF (setInsert x s) := by
  induction s with
  | nil => simp [setInsert]
  | cons y ys ih =>
    have gy := gs y (by simp)
    have gys : ∀ z ∈ ys, Good z := fun w hw => gs w (by simp [hw])
    unfold setInsert
    refine (nf_lt gy gx).bind fun _ _ => (nf_lt gx gy).bind fun _ _ => ?_
    split
    · simp
    · split
      · exact (ih gys).bind fun _ _ => by simp
      · split
        · exact (nf_checkAbove gx gys).bind fun _ _ => by simp
        · exact (nf_checkAbove gx gys).bind fun _ _ => by simp

theorem good_setInsert {x : Term} {s r : List Term} (gx : Good x) (gs : ∀ z ∈ s, Good z)
    (h : setInsert x s = .ok r) : ∀ z ∈ r, Good z := fun z hz => by
  rcases (setInsert_mem h).1 z hz with rfl | h
  · exact gx
  · exact gs z h

theorem nf_setInsertAll {xs s : List Term} (gx : ∀ z ∈ xs, Good z) (gs : ∀ z ∈ s, Good z) :
    NF (setInsertAll xs s) := by
  induction xs generalizing s with
  | nil => simp [setInsertAll]
  | cons x xs ih =>
    unfold setInsertAll
    have g := gx x (by simp)
    exact (nf_setInsert g gs).bind fun s' h =>
      ih (fun z hz => gx z (by simp [hz])) (good_setInsert g gs h)

theorem nf_ofList {comm : Bool} {xs : List Term} (g : ∀ z ∈ xs, Good z) :
    NF (Terms.ofList comm xs) := by
  cases comm with
  | true => exact (nf_setInsertAll g (by simp)).bind fun _ _ => by simp
  | false => simp [Terms.ofList]

theorem nf_mergeUnion {xs ys : List Term} (gx : ∀ z ∈ xs, Good z) (gy : ∀ z ∈ ys, Good z) :
    NF (Terms.mergeUnion xs ys) := by
  fun_induction Terms.mergeUnion xs ys with
  | case1 => simp
  | case2 => simp
  | case3 x xs y ys ih1 ih2 ih3 =>
    have hx := gx x (by simp)
    have hy := gy y (by simp)
    have hxs : ∀ z ∈ xs, Good z := fun z hz => gx z (by simp [hz])
    have hys : ∀ z ∈ ys, Good z := fun z hz => gy z (by simp [hz])
    refine (nf_lt hx hy).bind fun _ _ => ?_
    split
    · exact (ih1 hxs gy).bind fun _ _ => by simp
    · refine (nf_lt hy hx).bind fun _ _ => ?_
      split
      · exact (ih2 gx hys).bind fun _ _ => by simp
      · exact (ih3 hxs hys).bind fun _ _ => by simp

theorem nf_mergeInter {xs ys : List Term} (gx : ∀ z ∈ xs, Good z) (gy : ∀ z ∈ ys, Good z) :
    NF (Terms.mergeInter xs ys) := by
  fun_induction Terms.mergeInter xs ys with
  | case1 => simp
  | case2 => simp
  | case3 x xs y ys ih1 ih2 ih3 =>
    have hx := gx x (by simp)
    have hy := gy y (by simp)
    have hxs : ∀ z ∈ xs, Good z := fun z hz => gx z (by simp [hz])
    have hys : ∀ z ∈ ys, Good z := fun z hz => gy z (by simp [hz])
    refine (nf_lt hx hy).bind fun _ _ => ?_
    split
    · exact ih1 hxs gy
    · refine (nf_lt hy hx).bind fun _ _ => ?_
      split
      · exact ih2 gx hys
      · exact (ih3 hxs hys).bind fun _ _ => by simp

theorem nf_mergeDiff {xs ys : List Term} (gx : ∀ z ∈ xs, Good z) (gy : ∀ z ∈ ys, Good z) :
    NF (Terms.mergeDiff xs ys) := by
  fun_induction Terms.mergeDiff xs ys with
  | case1 => simp
  | case2 => simp
  | case3 x xs y ys ih1 ih2 ih3 =>
    have hx := gx x (by simp)
    have hy := gy y (by simp)
    have hxs : ∀ z ∈ xs, Good z := fun z hz => gx z (by simp [hz])
    have hys : ∀ z ∈ ys, Good z := fun z hz => gy z (by simp [hz])
    refine (nf_lt hx hy).bind fun _ _ => ?_
    split
    · exact (ih1 hxs gy).bind fun _ _ => by simp
    · refine (nf_lt hy hx).bind fun _ _ => ?_
      split
      · exact ih2 gx hys
      · exact ih3 hxs hys

theorem nf_foldOp {op : List Term → List Term → Res (List Term)}
    (hop : ∀ xs ys, (∀ z ∈ xs, Good z) → (∀ z ∈ ys, Good z) → NF (op xs ys))
    (hmem : ∀ xs ys r, op xs ys = .ok r → ∀ z ∈ r, z ∈ xs ∨ z ∈ ys)
    {acc : List Term} {ts : List Terms} (ga : ∀ z ∈ acc, Good z)
    (gt : ∀ t ∈ ts, ∀ z ∈ t.items, Good z) (hc : ∀ t ∈ ts, t.comm = true) :
    NF (Terms.foldOp op acc ts) := by
  induction ts generalizing acc with
  | nil => simp [Terms.foldOp]
  | cons t ts ih =>
    unfold Terms.foldOp
    split
    · next h => simp [hc t (by simp)] at h
    · have gt' := gt t (by simp)
      refine (hop acc t.items ga gt').bind fun r hr => ?_
      have gr : ∀ z ∈ r, Good z := fun z hz => (hmem _ _ r hr z hz).elim (ga z) (gt' z)
      refine (nf_setInsertAll gr (by simp)).bind fun tmp htmp => ?_
      refine ih (fun z hz => ?_) (fun u hu => gt u (by simp [hu])) (fun u hu => hc u (by simp [hu]))
      rcases (setInsertAll_mem htmp).1 z hz with h | h
      · exact gr z h
      · simp at h

theorem nf_setOp {op : List Term → List Term → Res (List Term)}
    (hop : ∀ xs ys, (∀ z ∈ xs, Good z) → (∀ z ∈ ys, Good z) → NF (op xs ys))
    (hmem : ∀ xs ys r, op xs ys = .ok r → ∀ z ∈ r, z ∈ xs ∨ z ∈ ys)
    {ts : List Terms} (gt : ∀ t ∈ ts, ∀ z ∈ t.items, Good z) (hc : ∀ t ∈ ts, t.comm = true)
    (hne : ts ≠ []) : NF (Terms.setOp op ts) := by
  cases ts with
  | nil => exact absurd rfl hne
  | cons t ts =>
    unfold Terms.setOp
    have gu : ∀ z ∈ t.unordered, Good z := fun z hz => by
      unfold Terms.unordered at hz
      split at hz
      · exact gt t (by simp) z hz
      · simp at hz
    refine (nf_foldOp hop hmem gu (fun u hu => gt u (by simp [hu])) (fun u hu => hc u (by simp [hu]))).bind fun r hr => ?_
    have gr : ∀ z ∈ r, Good z := fun z hz => by
      rcases foldOp_mem hmem hr z hz with h | ⟨u, hu, h⟩
      · exact gu z h
      · exact gt u (by simp [hu]) z h
    unfold Terms.ofList
    simp only [if_true]
    exact (nf_setInsertAll gr (by simp)).bind fun _ _ => by simp

theorem category_comp {t : Term} {c : Connector} (h : category t = some c) :
    ∃ us i, t = .comp c us i ∧ c.isCommutative = true := by
  cases t with
  | comp d us i =>
    simp only [category] at h
    split at h
    · next hc => simp at h; subst h; exact ⟨us, i, rfl, hc⟩
    · simp at h
  | _ => simp [category] at h

theorem nf_mergeCompounds {parent c : Connector} {cs : List Term} (g : ∀ t ∈ cs, Good t)
    (hc : ∀ t ∈ cs, category t = some c) (hne : cs ≠ []) : NF (mergeCompounds parent c cs) := by
  have hcomm : ∀ t ∈ cs.map termsOf, t.comm = true := by
    intro t ht
    obtain ⟨u, hu, rfl⟩ := List.mem_map.1 ht
    obtain ⟨us, i, rfl, h⟩ := category_comp (hc u hu)
    exact h
  have hne' : cs.map termsOf ≠ [] := by simpa using hne
  have gt : ∀ t ∈ cs.map termsOf, ∀ z ∈ t.items, Good z := by
    intro t ht z hz
    obtain ⟨u, hu, rfl⟩ := List.mem_map.1 ht
    exact Good.downClosed u (g u hu) z (mem_termsOf.1 hz)
  unfold mergeCompounds
  split
  · exact (nf_setOp (fun _ _ => nf_mergeInter) (fun _ _ _ h z hz => .inl (mergeInter_mem h z hz)) gt hcomm hne').bind
      fun _ _ => by simp
  · exact (nf_setOp (fun _ _ => nf_mergeUnion) (fun _ _ _ h z hz => mergeUnion_mem h z hz) gt hcomm hne').bind
      fun _ _ => by simp
  · exact (nf_setOp (fun _ _ => nf_mergeDiff) (fun _ _ _ h z hz => .inl (mergeDiff_mem h z hz)) gt hcomm hne').bind
      fun _ _ => by simp
  · refine NF.bind ?_ fun _ _ => by simp
    unfold Terms.ofList
    split
    · refine (nf_setInsertAll ?_ (by simp)).bind fun _ _ => by simp
      intro z hz
      obtain ⟨t, ht, hz⟩ := List.mem_flatMap.1 hz
      exact Good.downClosed t (g t ht) z hz
    · simp
  · simp

theorem mem_keys {ts : List Term} {k : Option Connector} :
    k ∈ keys ts ↔ ∃ t ∈ ts, category t = k := by
  induction ts with
  | nil => simp [keys]
  | cons t ts ih =>
    simp only [keys, List.mem_cons, List.mem_filter, ih, exists_eq_or_imp]
    constructor
    · rintro (rfl | ⟨h, _⟩)
      · exact .inl rfl
      · exact .inr h
    · rintro (rfl | h)
      · exact .inl rfl
      · by_cases e : k = category t
        · exact .inl e
        · exact .inr ⟨h, by simpa using e⟩

theorem nf_normGroup {parent : Connector} {ts : List Term} {k : Option Connector}
    (g : ∀ t ∈ ts, Good t) (hk : k ∈ keys ts) : NF (normGroup parent ts k) := by
  unfold normGroup
  split
  · simp
  · next c =>
    refine (nf_mergeCompounds (fun t ht => g t (List.mem_filter.1 ht).1)
      (fun t ht => by simpa using (List.mem_filter.1 ht).2) ?_).bind fun r _ => ?_
    · obtain ⟨t, ht, hc⟩ := mem_keys.1 hk
      exact List.ne_nil_of_mem (a := t) (List.mem_filter.2 ⟨ht, by simpa using hc⟩)
    · cases r <;> simp

theorem nf_normAll {parent : Connector} {ts : List Term} {ks : List (Option Connector)}
    (g : ∀ t ∈ ts, Good t) (hk : ∀ k ∈ ks, k ∈ keys ts) : NF (normAll parent ts ks) := by
  induction ks with
  | nil => simp [normAll]
  | cons k ks ih =>
    unfold normAll
    exact (nf_normGroup g (hk k (by simp))).bind fun _ _ =>
      (ih fun k h => hk k (by simp [h])).bind fun _ _ => by simp

/-! ### Heights -/

theorem height_le_heights {t : Term} {ts : List Term} (h : t ∈ ts) : t.height ≤ heights ts := by
  induction ts with
  | nil => simp at h
  | cons u ts ih =>
    unfold heights
    rcases List.mem_cons.1 h with rfl | h
    · omega
    · have := ih h; omega

theorem heights_lt {ts : List Term} {n : Nat} (hn : 0 < n) (h : ∀ t ∈ ts, t.height < n) :
    heights ts < n := by
  induction ts with
  | nil => unfold heights; exact hn
  | cons u ts ih =>
    unfold heights
    have h1 := h u (by simp)
    have h2 := ih fun t ht => h t (by simp [ht])
    omega

theorem heights_le {ts us : List Term} (h : ∀ t ∈ ts, t.height ≤ heights us) :
    heights ts ≤ heights us := by
  have := heights_lt (ts := ts) (n := heights us + 1) (by omega) (fun t ht => by have := h t ht; omega)
  omega

theorem heights_congr {ts us : List Term} (h : ∀ t, t ∈ ts ↔ t ∈ us) : heights ts = heights us := by
  have h1 := heights_le (ts := ts) (us := us) fun t ht => height_le_heights ((h t).1 ht)
  have h2 := heights_le (ts := us) (us := ts) fun t ht => height_le_heights ((h t).2 ht)
  omega

theorem height_comps {t z : Term} (h : z ∈ t.comps) : z.height < t.height := by
  cases t with
  | comp c ts i =>
    have := height_le_heights (ts := ts) h
    simp only [Term.height]; omega
  | _ => simp [comps] at h

theorem heights_unfold {parent : Connector} {ts : List Term} :
    heights (unfold parent ts) ≤ heights ts := by
  refine heights_le fun t ht => ?_
  rcases unfold_mem ht with h | ⟨u, hu, h⟩
  · exact height_le_heights h
  · have := height_comps h; have := height_le_heights hu; omega

/-- Where the entries of step 2 come from. -/
theorem normGroup_entry {parent : Connector} {ts : List Term} {k : Option Connector}
    {r : List (Option Connector × List Term)} (h : normGroup parent ts k = .ok r) :
    ∀ q ∈ r, q.1 = k ∧ ∀ c, q.1 = some c → c ≠ parent →
      (∃ t ∈ ts, category t = some c) ∧ ∀ z ∈ q.2, ∃ t ∈ ts, category t = some c ∧ z ∈ t.comps := by
  unfold normGroup at h
  split at h
  · simp only [Res.pure_eq, Res.ok.injEq] at h
    subst h
    intro q hq
    obtain ⟨t, _, rfl⟩ := List.mem_map.1 hq
    exact ⟨rfl, by simp⟩
  · next c =>
    simp only [Res.bind_eq_ok] at h
    obtain ⟨m, hm, h⟩ := h
    have inGroup : ∀ t, t ∈ group (some c) ts → t ∈ ts ∧ category t = some c := fun t ht => by
      simpa using List.mem_filter.1 ht
    cases m with
    | none =>
      simp only [Res.pure_eq, Res.ok.injEq] at h
      subst h
      intro q hq
      obtain ⟨t, ht, rfl⟩ := List.mem_map.1 hq
      refine ⟨rfl, fun c' hc' _ => ?_⟩
      simp only [Option.some.injEq] at hc'; subst hc'
      exact ⟨⟨t, inGroup t ht⟩, fun z hz => ⟨t, (inGroup t ht).1, (inGroup t ht).2, hz⟩⟩
    | some us =>
      simp only [Res.pure_eq, Res.ok.injEq] at h
      subst h
      intro q hq
      simp only [List.mem_singleton] at hq; subst hq
      refine ⟨rfl, fun c' hc' hne => ?_⟩
      simp only [Option.some.injEq] at hc'; subst hc'
      refine ⟨?_, fun z hz => ?_⟩
      · cases hg : group (some c) ts with
        | cons t _ => exact ⟨t, inGroup t (by rw [hg]; simp)⟩
        | nil =>
          exfalso
          rw [hg] at hm
          unfold mergeCompounds at hm
          split at hm <;> simp [Terms.intersection, Terms.union, Terms.difference, Terms.setOp] at hm
          next hk =>
            unfold mergeKind at hk
            split at hk
            · split at hk <;> (try split at hk) <;> simp at hk
            · split at hk
              · split at hk <;> (try split at hk) <;> simp at hk
              · split at hk
                · simp at hk
                · split at hk
                  · simp at hk
                  · split at hk
                    · next e => exact hne e.symm
                    · simp at hk
      · obtain ⟨t, ht, hz⟩ := mergeCompounds_mem hm z hz
        exact ⟨t, (inGroup t ht).1, (inGroup t ht).2, hz⟩

theorem normAll_entry {parent : Connector} {ts : List Term} {ks : List (Option Connector)}
    {r : List (Option Connector × List Term)} (h : normAll parent ts ks = .ok r) :
    ∀ q ∈ r, q.1 ∈ ks ∧ ∀ c, q.1 = some c → c ≠ parent →
      (∃ t ∈ ts, category t = some c) ∧ ∀ z ∈ q.2, ∃ t ∈ ts, category t = some c ∧ z ∈ t.comps := by
  induction ks generalizing r with
  | nil => simp [normAll] at h; subst h; simp
  | cons k ks ih =>
    simp only [normAll, Res.bind_eq_ok, Res.pure_eq, Res.ok.injEq] at h
    obtain ⟨a, ha, b, hb, rfl⟩ := h
    intro q hq
    rcases List.mem_append.1 hq with hq | hq
    · obtain ⟨e, h2⟩ := normGroup_entry ha q hq
      exact ⟨by rw [e]; simp, h2⟩
    · obtain ⟨e, h2⟩ := ih hb q hq
      exact ⟨by simp [e], h2⟩

theorem entry_heights {ts us : List Term} {c : Connector} (h1 : ∃ t ∈ ts, category t = some c)
    (h2 : ∀ z ∈ us, ∃ t ∈ ts, category t = some c ∧ z ∈ t.comps) : heights us < heights ts := by
  obtain ⟨t, ht, hc⟩ := h1
  obtain ⟨vs, i, rfl, _⟩ := category_comp hc
  have h0 := height_le_heights ht
  simp only [Term.height] at h0
  refine heights_lt (by omega) fun z hz => ?_
  obtain ⟨t', ht', _, hz'⟩ := h2 z hz
  have := height_comps hz'
  have := height_le_heights ht'
  omega

theorem collect_congr {mk mk' : Connector → List Term → Res Term} {parent : Connector}
    {norm : List (Option Connector × List Term)}
    (h : ∀ q ∈ norm, ∀ c, q.1 = some c → c ≠ parent → mk c q.2 = mk' c q.2) :
    collect mk parent norm = collect mk' parent norm := by
  induction norm with
  | nil => rfl
  | cons q rest ih =>
    obtain ⟨k, us⟩ := q
    have hr := ih fun q hq => h q (by simp [hq])
    simp only [collect, hr]
    cases k with
    | none => rfl
    | some c =>
      by_cases hc : c = parent
      · simp [hc]
      · have := h (some c, us) (by simp) c rfl hc
        simp only at this
        simp [hc, this]

theorem nf_collect {mk : Connector → List Term → Res Term} {parent : Connector}
    {norm : List (Option Connector × List Term)}
    (h : ∀ q ∈ norm, ∀ c, q.1 = some c → c ≠ parent → NF (mk c q.2)) :
    NF (collect mk parent norm) := by
  induction norm with
  | nil => simp [collect]
  | cons q rest ih =>
    obtain ⟨k, us⟩ := q
    have hr := ih fun q hq => h q (by simp [hq])
    unfold collect
    refine NF.bind ?_ fun _ _ => hr.bind fun _ _ => by simp
    cases k with
    | none => simp
    | some c =>
      by_cases hc : c = parent
      · simp [hc]
      · simp only [hc, if_false]
        split
        · exact (h (some c, us) (by simp) c rfl hc).bind fun _ _ => by simp
        · simp

theorem good_of_setInsertAll {xs r : List Term} (g : ∀ z ∈ xs, Good z)
    (h : setInsertAll xs [] = .ok r) : ∀ z ∈ r, Good z := fun z hz => by
  rcases (setInsertAll_mem h).1 z hz with h | h
  · exact g z h
  · simp at h

theorem good_unfold {parent : Connector} {ts : List Term} (g : ∀ t ∈ ts, Good t) :
    ∀ z ∈ unfold parent ts, Good z := fun z hz => by
  rcases unfold_mem hz with h | ⟨t, ht, h⟩
  · exact g z h
  · exact Good.downClosed t (g t ht) z h

/-- Step 3 calls the constructor only on lower argument lists. -/
theorem prepocess_congr {ord : List (Option Connector) → List (Option Connector)}
    {mk mk' : Connector → List Term → Res Term} {parent : Connector} {terms : List Term}
    (g : ∀ t ∈ terms, Good t)
    (h : ∀ c us, (∀ u ∈ us, Good u) → heights us < heights terms → mk c us = mk' c us) :
    prepocess ord mk parent terms = prepocess ord mk' parent terms := by
  unfold prepocess
  split
  · rfl
  · split
    · cases hts : setInsertAll (unfold parent terms) [] with
      | ok ts =>
        simp only [Res.ok_bind]
        cases hn : normAll parent ts (ord (keys ts)) with
        | ok norm =>
          simp only [Res.ok_bind]
          have gts := good_of_setInsertAll (good_unfold (parent := parent) g) hts
          have hh : heights ts ≤ heights terms := by
            refine Nat.le_trans (heights_le fun t ht => ?_) (heights_unfold (parent := parent))
            rcases (setInsertAll_mem hts).1 t ht with h | h
            · exact height_le_heights h
            · simp at h
          have : collect mk parent norm = collect mk' parent norm := collect_congr fun q hq c hc hne => by
            obtain ⟨h1, h2⟩ := (normAll_entry hn q hq).2 c hc hne
            refine h c q.2 (fun u hu => ?_) ?_
            · obtain ⟨t, ht, _, hz⟩ := h2 u hu
              exact Good.downClosed t (gts t ht) u hz
            · have := entry_heights h1 h2; omega
          rw [this]
        | throw m => rfl
        | ub => rfl
        | outOfFuel => rfl
      | throw m => rfl
      | ub => rfl
      | outOfFuel => rfl
    · rfl

theorem nf_finalStep {parent : Connector} {k : Option Connector} {us : List Term}
    (g : ∀ u ∈ us, Good u) : NF (finalStep parent k us) := by
  unfold finalStep
  refine (nf_setInsertAll g (by simp)).bind fun r _ => ?_
  split
  · split <;> simp
  · split <;> simp
  · simp

theorem nf_prepocess {ord : List (Option Connector) → List (Option Connector)}
    {mk : Connector → List Term → Res Term} {parent : Connector} {terms : List Term}
    (hord : ∀ l, (ord l).Perm l) (g : ∀ t ∈ terms, Good t)
    (hg : ∀ c us t, (∀ u ∈ us, Good u) → mk c us = .ok t → Good t)
    (h : ∀ c us, (∀ u ∈ us, Good u) → heights us < heights terms → NF (mk c us)) :
    NF (prepocess ord mk parent terms) := by
  unfold prepocess
  split
  · simp
  · split
    · refine (nf_setInsertAll (good_unfold g) (by simp)).bind fun ts hts => ?_
      have gts := good_of_setInsertAll (good_unfold (parent := parent) g) hts
      have hh : heights ts ≤ heights terms := by
        refine Nat.le_trans (heights_le fun t ht => ?_) (heights_unfold (parent := parent))
        rcases (setInsertAll_mem hts).1 t ht with h | h
        · exact height_le_heights h
        · simp at h
      refine (nf_normAll gts fun k hk => (hord _).mem_iff.1 hk).bind fun norm hn => ?_
      have gn : ∀ q ∈ norm, ∀ z ∈ q.2, Good z := fun q hq z hz => by
        rcases normAll_mem hn q hq z hz with h | ⟨t, ht, h⟩
        · exact gts z h
        · exact Good.downClosed t (gts t ht) z h
      split
      · refine (nf_collect fun q hq c hc hne => ?_).bind fun all hall => ?_
        · obtain ⟨h1, h2⟩ := (normAll_entry hn q hq).2 c hc hne
          refine h c q.2 (fun u hu => ?_) ?_
          · obtain ⟨t, ht, _, hz⟩ := h2 u hu
            exact Good.downClosed t (gts t ht) u hz
          · have := entry_heights h1 h2; omega
        · have gall : ∀ z ∈ all, Good z := fun z hz => by
            rcases collect_mem hall z hz with ⟨q, hq, h⟩ | ⟨q, hq, c, _, hmk⟩
            · exact gn q hq z h
            · exact hg c q.2 z (gn q hq) hmk
          split
          · exact (nf_setInsertAll gall (by simp)).bind fun _ _ => by simp
          · split
            · simp
            · next t _ =>
              split
              · next us i _ _ => exact nf_finalStep fun u hu => Good.downClosed _ (gall _ List.mem_cons_self) u hu
              · exact nf_finalStep gall
      · split
        · simp
        · exact nf_finalStep fun u hu => gn _ List.mem_cons_self u hu
    · simp

theorem mkCompF_good' {ord : List (Option Connector) → List (Option Connector)} {n : Nat} :
    ∀ c us t, (∀ u ∈ us, Good u) → mkCompF ord n c us false = .ok t → Good t :=
  fun _ _ _ hu h => mkCompF_good hu h

theorem nf_mkCompF {ord : List (Option Connector) → List (Option Connector)} {n : Nat}
    {c : Connector} {terms : List Term} {b : Bool} (hord : ∀ l, (ord l).Perm l)
    (g : ∀ t ∈ terms, Good t) (h : heights terms < n) : NF (mkCompF ord n c terms b) := by
  induction n generalizing c terms b with
  | zero => omega
  | succ n ih =>
    unfold mkCompF
    refine (nf_prepocess hord g mkCompF_good' fun c us gu hu => ih gu (by omega)).bind fun r hr => ?_
    obtain ⟨c', us⟩ := r
    obtain ⟨gus, hc, hnc⟩ := prepocess_closed (P := Good) Good.downClosed
      (fun c vs t gv hmk => mkCompF_good gv hmk) g hr
    refine NF.bind ?_ fun _ _ => by simp
    cases b with
    | true => simp
    | false =>
      simp only [Bool.false_eq_true, if_false]
      rw [clonePush_self (fun t ht => (gus t ht).clone)]
      · simp
      · intro hcc
        cases hb : c.isCommutative with
        | true => exact (hc hb).1
        | false => rw [hnc hb, hb] at hcc; cases hcc

theorem mkCompF_fuel {ord : List (Option Connector) → List (Option Connector)} {n m : Nat}
    {c : Connector} {terms : List Term} {b : Bool} (g : ∀ t ∈ terms, Good t)
    (hn : heights terms < n) (hm : heights terms < m) :
    mkCompF ord n c terms b = mkCompF ord m c terms b := by
  induction n generalizing m c terms b with
  | zero => omega
  | succ n ih =>
    cases m with
    | zero => omega
    | succ m =>
      unfold mkCompF
      rw [prepocess_congr (mk' := fun c us => mkCompF ord m c us false) g
        fun c us gu hu => ih gu (by omega) (by omega)]

end Cnars
