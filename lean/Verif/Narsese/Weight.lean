import Verif.Narsese.CompoundLemmas
import Verif.Narsese.Steady

/-!
Helper lemmas: a quantity that adds up over the components of compounds never grows when a compound
is constructed.
-/

namespace Cnars
open Term

/-- The sum over a list. -/
def total (f : Term → Nat) (ts : List Term) : Nat := (ts.map f).sum

/-- The quantity of a compound is the sum of those of its components. -/
def Adds (f : Term → Nat) : Prop := ∀ c ts i, f (.comp c ts i) = total f ts

variable {f : Term → Nat}

@[simp] theorem total_nil : total f [] = 0 := rfl
@[simp] theorem total_cons (t : Term) (ts : List Term) : total f (t :: ts) = f t + total f ts := rfl
@[simp] theorem total_append (ts us : List Term) : total f (ts ++ us) = total f ts + total f us := by
  simp [total]

theorem total_flatMap {α : Type} (g : α → List Term) (l : List α) :
    total f (l.flatMap g) = (l.map fun x => total f (g x)).sum := by
  induction l with
  | nil => rfl
  | cons x l ih => simp [ih]

theorem Adds.comps (h : Adds f) (t : Term) : total f t.comps ≤ f t := by
  cases t with
  | comp c ts i => rw [h]; exact Nat.le_refl _
  | _ => simp [Term.comps]

theorem setInsert_total {x : Term} {s r : List Term} (h : setInsert x s = .ok r) :
    total f r ≤ f x + total f s := by
  rcases setInsert_inv h with ⟨l1, l2, rfl, rfl, _⟩ | ⟨l1, y, l2, rfl, rfl, _⟩
  · simp; omega
  · omega

theorem setInsertAll_total {xs s r : List Term} (h : setInsertAll xs s = .ok r) :
    total f r ≤ total f xs + total f s := by
  induction xs generalizing s with
  | nil => simp only [setInsertAll, Res.ok.injEq] at h; subst h; simp
  | cons x xs ih =>
    simp only [setInsertAll, Res.bind_eq_ok] at h
    obtain ⟨s', h1, h2⟩ := h
    have := ih h2
    have := setInsert_total (f := f) h1
    simp only [total_cons]
    omega

theorem ofList_total {comm : Bool} {xs : List Term} {r : Terms} (h : Terms.ofList comm xs = .ok r) :
    total f r.items ≤ total f xs := by
  cases comm with
  | true =>
    simp only [Terms.ofList, if_true, Res.bind_eq_ok, Res.pure_eq, Res.ok.injEq] at h
    obtain ⟨s, h, rfl⟩ := h
    simpa using setInsertAll_total (f := f) h
  | false =>
    simp [Terms.ofList] at h; subst h; simp

theorem mergeUnion_total {xs ys r : List Term} (h : Terms.mergeUnion xs ys = .ok r) :
    total f r ≤ total f xs + total f ys := by
  fun_induction Terms.mergeUnion xs ys generalizing r with
  | case1 ys => cases h; simp
  | case2 x xs => cases h; simp
  | case3 x xs y ys ih1 ih2 ih3 =>
    simp only [Res.bind_eq_ok] at h
    obtain ⟨b, _, h⟩ := h
    split at h
    · simp only [Res.bind_eq_ok] at h
      obtain ⟨r', hr, h⟩ := h; cases h
      have := ih1 hr
      simp only [total_cons] at this ⊢; omega
    · simp only [Res.bind_eq_ok] at h
      obtain ⟨b2, _, h⟩ := h
      split at h
      · simp only [Res.bind_eq_ok] at h
        obtain ⟨r', hr, h⟩ := h; cases h
        have := ih2 hr
        simp only [total_cons] at this ⊢; omega
      · simp only [Res.bind_eq_ok] at h
        obtain ⟨r', hr, h⟩ := h; cases h
        have := ih3 hr
        simp only [total_cons] at this ⊢; omega

theorem mergeInter_total {xs ys r : List Term} (h : Terms.mergeInter xs ys = .ok r) :
    total f r ≤ total f xs := by
  fun_induction Terms.mergeInter xs ys generalizing r with
  | case1 ys => cases h; simp
  | case2 x xs => cases h; simp
  | case3 x xs y ys ih1 ih2 ih3 =>
    simp only [Res.bind_eq_ok] at h
    obtain ⟨b, _, h⟩ := h
    split at h
    · have := ih1 h
      simp only [total_cons] at this ⊢; omega
    · simp only [Res.bind_eq_ok] at h
      obtain ⟨b2, _, h⟩ := h
      split at h
      · have := ih2 h
        simp only [total_cons] at this ⊢; omega
      · simp only [Res.bind_eq_ok] at h
        obtain ⟨r', hr, h⟩ := h; cases h
        have := ih3 hr
        simp only [total_cons] at this ⊢; omega

theorem mergeDiff_total {xs ys r : List Term} (h : Terms.mergeDiff xs ys = .ok r) :
    total f r ≤ total f xs := by
  fun_induction Terms.mergeDiff xs ys generalizing r with
  | case1 ys => cases h; simp
  | case2 x xs => cases h; simp
  | case3 x xs y ys ih1 ih2 ih3 =>
    simp only [Res.bind_eq_ok] at h
    obtain ⟨b, _, h⟩ := h
    split at h
    · simp only [Res.bind_eq_ok] at h
      obtain ⟨r', hr, h⟩ := h; cases h
      have := ih1 hr
      simp only [total_cons] at this ⊢; omega
    · simp only [Res.bind_eq_ok] at h
      obtain ⟨b2, _, h⟩ := h
      split at h
      · have := ih2 h
        simp only [total_cons] at this ⊢; omega
      · have := ih3 h
        simp only [total_cons] at this ⊢; omega

theorem foldOp_total {op : List Term → List Term → Res (List Term)}
    (hop : ∀ xs ys r, op xs ys = .ok r → total f r ≤ total f xs + total f ys)
    {acc : List Term} {ts : List Terms} {r : List Term} (h : Terms.foldOp op acc ts = .ok r) :
    total f r ≤ total f acc + total f (ts.flatMap Terms.items) := by
  induction ts generalizing acc with
  | nil => cases h; simp
  | cons t ts ih =>
    simp only [Terms.foldOp] at h
    split at h
    · cases h
    · simp only [Res.bind_eq_ok] at h
      obtain ⟨r1, h1, r2, h2, h3⟩ := h
      have := ih h3
      have := setInsertAll_total (f := f) h2
      have := hop _ _ _ h1
      simp only [List.flatMap_cons, total_append, total_nil] at *
      omega

theorem setOp_total {op : List Term → List Term → Res (List Term)}
    (hop : ∀ xs ys r, op xs ys = .ok r → total f r ≤ total f xs + total f ys)
    {ts : List Terms} {r : Terms} (h : Terms.setOp op ts = .ok r) :
    total f r.items ≤ total f (ts.flatMap Terms.items) := by
  cases ts with
  | nil => cases h
  | cons t ts =>
    simp only [Terms.setOp, Res.bind_eq_ok] at h
    obtain ⟨r1, h1, h2⟩ := h
    have a := ofList_total (f := f) h2
    have b := foldOp_total hop h1
    have c : total f t.unordered ≤ total f t.items := by
      unfold Terms.unordered; split <;> simp
    simp only [List.flatMap_cons, total_append]
    omega

theorem mergeCompounds_total (hf : Adds f) {parent c : Connector} {cs r : List Term}
    (h : mergeCompounds parent c cs = .ok (some r)) : total f r ≤ total f cs := by
  have hc : total f (cs.flatMap Term.comps) ≤ total f cs := by
    induction cs with
    | nil => simp
    | cons t ts ih =>
      have := hf.comps t
      clear h
      have : total f (ts.flatMap Term.comps) ≤ total f ts := by
        clear ih
        induction ts with
        | nil => simp
        | cons u us ih => have := hf.comps u; simp only [List.flatMap_cons, total_append, total_cons]; omega
      simp only [List.flatMap_cons, total_append, total_cons]; omega
  have ht : (cs.map termsOf).flatMap Terms.items = cs.flatMap Term.comps := by
    rw [List.flatMap_map]
    congr 1
    funext t
    cases t <;> rfl
  have aux : ∀ {op : List Term → List Term → Res (List Term)}
      (_ : ∀ xs ys r, op xs ys = .ok r → total f r ≤ total f xs + total f ys) {r' : Terms},
      Terms.setOp op (cs.map termsOf) = .ok r' → total f r'.items ≤ total f cs := by
    intro op hop r' h'
    have := setOp_total hop h'
    rw [ht] at this
    omega
  unfold mergeCompounds at h
  split at h
  · simp only [Res.bind_eq_ok, Res.pure_eq, Res.ok.injEq, Option.some.injEq] at h
    obtain ⟨r', h1, rfl⟩ := h
    exact aux (fun xs ys r h => by have := mergeInter_total (f := f) h; omega) h1
  · simp only [Res.bind_eq_ok, Res.pure_eq, Res.ok.injEq, Option.some.injEq] at h
    obtain ⟨r', h1, rfl⟩ := h
    exact aux (fun xs ys r h => mergeUnion_total h) h1
  · simp only [Res.bind_eq_ok, Res.pure_eq, Res.ok.injEq, Option.some.injEq] at h
    obtain ⟨r', h1, rfl⟩ := h
    exact aux (fun xs ys r h => by have := mergeDiff_total (f := f) h; omega) h1
  · simp only [Res.bind_eq_ok, Res.pure_eq, Res.ok.injEq, Option.some.injEq] at h
    obtain ⟨r', h1, rfl⟩ := h
    have := ofList_total (f := f) h1
    omega
  · simp at h

theorem unfold_total (hf : Adds f) (parent : Connector) (ts : List Term) :
    total f (unfold parent ts) = total f ts := by
  induction ts with
  | nil => rfl
  | cons t ts ih =>
    have : total f (unfold parent (t :: ts)) = total f (unfold parent [t]) + total f (unfold parent ts) := by
      simp [unfold]
    rw [this, ih, total_cons]
    congr 1
    cases t with
    | comp c us i =>
      simp only [unfold, List.flatMap_cons, List.flatMap_nil, List.append_nil]
      split
      · rw [hf]
      · simp
    | _ => simp [unfold]

/-- Of the entries. -/
def entries (f : Term → Nat) (norm : List (Option Connector × List Term)) : Nat :=
  total f (norm.flatMap Prod.snd)

@[simp] theorem entries_nil : entries f [] = 0 := rfl
@[simp] theorem entries_cons (q : Option Connector × List Term) (l : List (Option Connector × List Term)) :
    entries f (q :: l) = total f q.2 + entries f l := by simp [entries]
@[simp] theorem entries_append (l m : List (Option Connector × List Term)) :
    entries f (l ++ m) = entries f l + entries f m := by simp [entries]

theorem normGroup_total (hf : Adds f) {parent : Connector} {ts : List Term} {k : Option Connector}
    {r : List (Option Connector × List Term)} (h : normGroup parent ts k = .ok r) :
    entries f r ≤ total f (group k ts) := by
  unfold normGroup at h
  split at h
  · simp only [Res.pure_eq, Res.ok.injEq] at h; subst h
    simp [entries, List.flatMap_map]
  · next c =>
    simp only [Res.bind_eq_ok] at h
    obtain ⟨m, hm, h⟩ := h
    cases m with
    | none =>
      simp only [Res.pure_eq, Res.ok.injEq] at h; subst h
      induction group (some c) ts with
      | nil => simp
      | cons t us ih =>
        have := hf.comps t
        simp only [List.map_cons, entries_cons, total_cons]; omega
    | some l =>
      simp only [Res.pure_eq, Res.ok.injEq] at h; subst h
      simpa using mergeCompounds_total hf hm

theorem groups_total {ts : List Term} : ∀ {ks : List (Option Connector)}, ks.Nodup →
    (ks.map fun k => total f (group k ts)).sum ≤ total f (ts.filter fun t => decide (category t ∈ ks)) := by
  intro ks hk
  induction ts with
  | nil => simp [group]
  | cons t ts ih =>
    have key : ∀ {ks : List (Option Connector)}, ks.Nodup →
        (ks.map fun k => total f (group k (t :: ts))).sum =
          (if category t ∈ ks then f t else 0) + (ks.map fun k => total f (group k ts)).sum := by
      intro ks hk
      induction ks with
      | nil => simp
      | cons k ks ih =>
        obtain ⟨h1, h2⟩ := List.nodup_cons.mp hk
        simp only [List.map_cons, List.sum_cons]
        rw [ih h2]
        have hg : total f (group k (t :: ts)) = (if category t = k then f t else 0) + total f (group k ts) := by
          unfold group
          rw [List.filter_cons]
          split <;> rename_i hc <;> simp only [decide_eq_true_eq] at hc
          · simp [hc]
          · simp [hc]
        rw [hg]
        by_cases hc : category t = k
        · subst hc
          simp [h1]; omega
        · simp only [hc, if_false, List.mem_cons, false_or]; omega
    rw [key hk, List.filter_cons]
    by_cases hc : category t ∈ ks
    · simp only [hc, if_true, decide_true, total_cons]; omega
    · simp only [hc, if_false, decide_false, Bool.false_eq_true]; omega

theorem keys_nodup : ∀ ts : List Term, (keys ts).Nodup
  | [] => by simp [keys]
  | t :: ts => by
    rw [keys, List.nodup_cons]
    exact ⟨by simp, (keys_nodup ts).filter _⟩

theorem filter_total (p : Term → Bool) (ts : List Term) : total f (ts.filter p) ≤ total f ts := by
  induction ts with
  | nil => simp
  | cons t ts ih =>
    rw [List.filter_cons]
    split
    · simp only [total_cons]; omega
    · simp only [total_cons]; omega

theorem normAll_total (hf : Adds f) {parent : Connector} {ts : List Term} {ks : List (Option Connector)}
    {r : List (Option Connector × List Term)} (h : normAll parent ts ks = .ok r) :
    entries f r ≤ (ks.map fun k => total f (group k ts)).sum := by
  induction ks generalizing r with
  | nil => cases h; simp
  | cons k ks ih =>
    simp only [normAll, Res.bind_eq_ok, Res.pure_eq, Res.ok.injEq] at h
    obtain ⟨a, ha, b, hb, rfl⟩ := h
    have := normGroup_total hf ha
    have := ih hb
    simp only [entries_append, List.map_cons, List.sum_cons]
    omega

theorem collect_total {mk : Connector → List Term → Res Term} {parent : Connector}
    {norm : List (Option Connector × List Term)}
    (hmk : ∀ q ∈ norm, ∀ c t, mk c q.2 = .ok t → f t ≤ total f q.2) {r : List Term}
    (h : collect mk parent norm = .ok r) : total f r ≤ entries f norm := by
  induction norm generalizing r with
  | nil => cases h; simp
  | cons q rest ih =>
    obtain ⟨k, us⟩ := q
    simp only [collect, Res.bind_eq_ok, Res.pure_eq, Res.ok.injEq] at h
    obtain ⟨here, h1, more, h2, rfl⟩ := h
    have hr := ih (fun q hq => hmk q (by simp [hq])) h2
    have hh : total f here ≤ total f us := by
      split at h1
      · cases h1; exact Nat.le_refl _
      · next c =>
        split at h1
        · cases h1; exact Nat.le_refl _
        · split at h1
          · simp only [Res.bind_eq_ok, Res.ok.injEq] at h1
            obtain ⟨t, ht, rfl⟩ := h1
            simpa using hmk (some c, us) (by simp) c t ht
          · cases h1; simp
    simp only [entries_cons, total_append]
    omega

theorem prepocess_total (hf : Adds f) {ord : Order} (hord : ∀ l, (ord l).Perm l)
    {mk : Connector → List Term → Res Term} {parent c' : Connector} {terms us : List Term}
    (hg : ∀ t ∈ terms, Good t)
    (hmk : ∀ c vs t, (∀ v ∈ vs, Good v) → mk c vs = .ok t → f t ≤ total f vs)
    (h : prepocess ord mk parent terms = .ok (c', us)) : total f us ≤ total f terms := by
  have hu := unfold_total hf parent terms
  unfold prepocess at h
  split at h
  · simp only [Res.pure_eq, Res.ok.injEq, Prod.mk.injEq] at h
    rw [h.2]; exact Nat.le_refl _
  · split at h
    · simp only [Res.bind_eq_ok] at h
      obtain ⟨ts, h1, norm, h2, h⟩ := h
      have e1 := setInsertAll_total (f := f) h1
      simp only [total_nil] at e1
      have g1 : ∀ t ∈ ts, Good t := fun t ht => by
        rcases (setInsertAll_mem h1).1 t ht with h | h
        · rcases unfold_mem h with h | ⟨u, hu', h⟩
          · exact hg t h
          · exact Good.downClosed u (hg u hu') t h
        · simp at h
      have gn : ∀ q ∈ norm, ∀ z ∈ q.2, Good z := fun q hq z hz => by
        rcases normAll_mem h2 q hq z hz with h | ⟨u, hu', h⟩
        · exact g1 z h
        · exact Good.downClosed u (g1 u hu') z h
      have e2 : entries f norm ≤ total f ts := by
        refine Nat.le_trans (normAll_total hf h2) ?_
        have hp : (ord (keys ts)).Perm (keys ts) := hord _
        have := groups_total (f := f) (ts := ts) (hp.nodup_iff.mpr (keys_nodup ts))
        exact Nat.le_trans this (filter_total _ _)
      split at h
      · simp only [Res.bind_eq_ok] at h
        obtain ⟨all, h3, h⟩ := h
        have e3 := collect_total (f := f) (fun q hq c t ht => hmk c q.2 t (gn q hq) ht) h3
        split at h
        · simp only [Res.bind_eq_ok, Res.pure_eq, Res.ok.injEq, Prod.mk.injEq] at h
          obtain ⟨r, h4, rfl, rfl⟩ := h
          have e4 := setInsertAll_total (f := f) h4
          simp only [total_nil] at e4
          omega
        · split at h
          · cases h
          · rename_i t rest _
            split at h
            · rename_i _ c vs i
              have e5 := setInsertAll_total (f := f) (finalStep_spec h).1
              rw [total_cons, hf] at e3
              simp only [total_nil] at e5
              omega
            · have e5 := setInsertAll_total (f := f) (finalStep_spec h).1
              simp only [total_nil] at e5
              omega
      · split at h
        · cases h
        · rename_i k vs rest
          have e5 := setInsertAll_total (f := f) (finalStep_spec h).1
          simp only [total_nil, entries_cons] at e5 e2
          omega
    · simp only [Res.pure_eq, Res.ok.injEq, Prod.mk.injEq] at h
      rw [← h.2]; omega

theorem mkCompF_total (hf : Adds f) {ord : Order} (hord : ∀ l, (ord l).Perm l) {n : Nat} :
    ∀ {c : Connector} {terms : List Term} {b : Bool} {r : Term}, (∀ t ∈ terms, Good t) →
    mkCompF ord n c terms b = .ok r → f r ≤ total f terms := by
  induction n with
  | zero => intro c terms b r _ h; simp [mkCompF] at h
  | succ n ih =>
    intro c terms b r hg h
    obtain ⟨m, c', us, hn, hp, _, _, _, rfl⟩ := mkCompF_inv hg h
    obtain rfl : n = m := by omega
    rw [finishComp, hf]
    exact prepocess_total hf hord hg (fun c vs t hv h => ih hv h) hp

/-- A quantity that adds up over components does not grow. -/
theorem mkComp_total (hf : Adds f) {ord : Order} (hord : ∀ l, (ord l).Perm l) {c : Connector}
    {args : List Term} {b : Bool} {r : Term} (hg : ∀ t ∈ args, Good t) (h : mkComp ord c args b = .ok r) :
    f r ≤ total f args := by
  obtain ⟨ts, h1, hm, h2⟩ := mkComp_inv h
  have := ofList_total (f := f) h1
  have := mkCompF_total hf hord (fun t ht => hg t (hm t ht)) h2
  simp only at *
  omega

end Cnars
