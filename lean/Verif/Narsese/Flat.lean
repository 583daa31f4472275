import Verif.Narsese.Keep

/-!
Helper lemmas: which connectors occur in a constructed compound.
-/

namespace Cnars
open Term

theorem collect_mem' {mk : Connector → List Term → Res Term} {parent : Connector}
    {norm : List (Option Connector × List Term)} {r : List Term}
    (h : collect mk parent norm = .ok r) :
    ∀ z ∈ r, (∃ q ∈ norm, z ∈ q.2) ∨
      ∃ q ∈ norm, ∃ c, q.1 = some c ∧ c ≠ parent ∧ mk c q.2 = .ok z := by
  let mk' : Connector → List Term → Res Term := fun c us => if c = parent then .ub else mk c us
  have h' : collect mk' parent norm = .ok r :=
    collect_mono (fun q _ c t _ hne _ e => by simp [mk', hne, e]) h
  intro z hz
  rcases collect_mem h' z hz with h | ⟨q, hq, c, hc, e⟩
  · exact .inl h
  · refine .inr ⟨q, hq, c, hc, ?_⟩
    by_cases hp : c = parent
    · simp [mk', hp] at e
    · exact ⟨hp, by simpa [mk', hp] using e⟩

/-- Closure of the arguments under a predicate, with the recursive calls restricted to the
connectors that occur. -/
theorem prepocess_closed' {P : Term → Prop} {ord : Order}
    {mk : Connector → List Term → Res Term} {parent c' : Connector} {terms us : List Term}
    (hord : ∀ l, (ord l).Perm l)
    (hd : DownClosed P) (hc : parent.isCommutative = true)
    (hmk : ∀ k vs t, (∃ u, P u ∧ category u = some k) → (∀ v ∈ vs, P v) → mk k vs = .ok t → P t)
    (hunf : ∀ t ∈ unfold parent terms, P t) (h : prepocess ord mk parent terms = .ok (c', us)) :
    ∀ u ∈ us, P u := by
  have hfin : ∀ {k vs}, (∀ v ∈ vs, P v) → finalStep parent k vs = .ok (c', us) → ∀ u ∈ us, P u := by
    intro k vs hvs hf u hu
    obtain ⟨hi, _⟩ := finalStep_spec hf
    rcases (setInsertAll_mem hi).1 u hu with hu | hu
    · exact hvs u hu
    · simp at hu
  unfold prepocess at h
  rw [commutative_reducible _ hc, if_neg (by simp), hc, if_pos rfl] at h
  simp only [Res.bind_eq_ok] at h
  obtain ⟨ts, h1, norm, h2, h⟩ := h
  have hts : ∀ t ∈ ts, P t := by
    intro t ht'
    rcases (setInsertAll_mem h1).1 t ht' with h | h
    · exact hunf t h
    · simp at h
  have hn : ∀ q ∈ norm, ∀ z ∈ q.2, P z := by
    intro q hq z hz
    rcases normAll_mem h2 q hq z hz with h | ⟨t, h, hz⟩
    · exact hts z h
    · exact hd t (hts t h) z hz
  split at h
  · simp only [Res.bind_eq_ok] at h
    obtain ⟨all, h3, h⟩ := h
    have hall : ∀ z ∈ all, P z := by
      intro z hz
      rcases collect_mem' h3 z hz with ⟨q, hq, hz⟩ | ⟨q, hq, k, hk, hne, hz⟩
      · exact hn q hq z hz
      · refine hmk k q.2 z ?_ (hn q hq) hz
        obtain ⟨u, hu, hcat⟩ := mem_keys.1 ((hord _).mem_iff.1 (normAll_entry h2 q hq).1)
        exact ⟨u, hts u hu, by rw [hcat, hk]⟩
    split at h
    · simp only [Res.bind_eq_ok, Res.pure_eq, Res.ok.injEq, Prod.mk.injEq] at h
      obtain ⟨r, h4, rfl, rfl⟩ := h
      intro u hu
      rcases (setInsertAll_mem h4).1 u hu with h | h
      · exact hall u h
      · simp at h
    · split at h
      · cases h
      · have ht := hall _ List.mem_cons_self
        split at h
        · exact hfin (fun v hv => hd _ ht v hv) h
        · exact hfin hall h
  · split at h
    · cases h
    · exact hfin (hn _ List.mem_cons_self) h

/-- The connector after normalisation. -/
theorem prepocess_connector {ord : Order} {mk : Connector → List Term → Res Term}
    {k k' : Connector} {vs ws : List Term} (hp : prepocess ord mk k vs = .ok (k', ws)) :
    k' = k ∨ (k' = .extensionalSet ∧ k = .intensionalIntersection) ∨
      (k' = .intensionalSet ∧ k = .extensionalIntersection) := by
  unfold prepocess at hp
  split at hp
  · simp only [Res.pure_eq, Res.ok.injEq, Prod.mk.injEq] at hp; exact .inl hp.1.symm
  · split at hp
    · simp only [Res.bind_eq_ok] at hp
      obtain ⟨ts, _, norm, _, hp⟩ := hp
      split at hp
      · simp only [Res.bind_eq_ok] at hp
        obtain ⟨all, _, hp⟩ := hp
        split at hp
        · simp only [Res.bind_eq_ok, Res.pure_eq, Res.ok.injEq, Prod.mk.injEq] at hp
          obtain ⟨_, _, h, _⟩ := hp; exact .inl h.symm
        · split at hp
          · cases hp
          · split at hp
            · have := (finalStep_spec hp).2; tauto
            · have := (finalStep_spec hp).2; tauto
      · split at hp
        · cases hp
        · have := (finalStep_spec hp).2; tauto
    · simp only [Res.pure_eq, Res.ok.injEq, Prod.mk.injEq] at hp; exact .inl hp.1.symm

/-- Connector `d` occurs nowhere in `t`. -/
def Free (d : Connector) (t : Term) : Prop := ∀ us i, ¬ Under t (.comp d us i)

theorem Free.down {d : Connector} {t u : Term} (h : Free d t) (hu : u ∈ t.comps) : Free d u :=
  fun us i hn => h us i (.step hu hn)

theorem Free.comp {d k : Connector} {vs : List Term} (hk : k ≠ d) (h : ∀ v ∈ vs, Free d v) :
    Free d (finishComp k vs) := by
  intro us i hu
  generalize ht : finishComp k vs = t at hu
  cases hu with
  | refl => simp only [finishComp, Term.comp.injEq] at ht; exact hk ht.1
  | step hv hu => subst ht; exact h _ hv us i hu

theorem Free.category {d k : Connector} {t : Term} (h : Free d t) (hk : category t = some k) : k ≠ d := by
  obtain ⟨vs, i, rfl, _⟩ := category_comp hk
  rintro rfl
  exact h vs i (.refl _)

/-- The connectors that can turn into `c`. -/
def Avoids (c : Connector) (t : Term) : Prop :=
  Good t ∧ Free c t ∧ (c = .extensionalSet → Free .intensionalIntersection t) ∧
  (c = .intensionalSet → Free .extensionalIntersection t)

theorem Avoids.down {c : Connector} : DownClosed (Avoids c) := fun t ht u hu =>
  ⟨Good.downClosed t ht.1 u hu, ht.2.1.down hu, fun e => (ht.2.2.1 e).down hu,
    fun e => (ht.2.2.2 e).down hu⟩

theorem mkCompF_avoids {ord : Order} (hord : ∀ l, (ord l).Perm l) {n : Nat} {c k : Connector}
    {vs : List Term} {b : Bool} {t : Term} (hu : ∃ u, Avoids c u ∧ category u = some k)
    (hv : ∀ v ∈ vs, Avoids c v) (h : mkCompF ord n k vs b = .ok t) : Avoids c t := by
  induction n generalizing k vs b t with
  | zero => simp [mkCompF] at h
  | succ n ih =>
    have g := mkCompF_good (fun v hv' => (hv v hv').1) h
    obtain ⟨m, k', ws, hn, hp, _, _, _, rfl⟩ := mkCompF_inv (fun v hv' => (hv v hv').1) h
    obtain rfl : n = m := by omega
    obtain ⟨u, au, hcat⟩ := hu
    have hkc : k.isCommutative = true := by
      obtain ⟨_, _, _, h⟩ := category_comp hcat; exact h
    have hws := prepocess_closed' hord Avoids.down hkc (fun k vs t hu hv h => ih hu hv h)
      (fun z hz => by
        rcases unfold_mem hz with h | ⟨t, ht, h⟩
        · exact hv z h
        · exact Avoids.down t (hv t ht) z h) hp
    have h1 : k ≠ c := au.2.1.category hcat
    have h2 : c = .extensionalSet → k ≠ .intensionalIntersection := fun e => (au.2.2.1 e).category hcat
    have h3 : c = .intensionalSet → k ≠ .extensionalIntersection := fun e => (au.2.2.2 e).category hcat
    have hk' := prepocess_connector hp
    refine ⟨g, Free.comp ?_ fun v hv => (hws v hv).2.1, fun e => Free.comp ?_ fun v hv => (hws v hv).2.2.1 e,
      fun e => Free.comp ?_ fun v hv => (hws v hv).2.2.2 e⟩
    · rcases hk' with rfl | ⟨rfl, rfl⟩ | ⟨rfl, rfl⟩
      · exact h1
      · exact fun e => h2 e.symm rfl
      · exact fun e => h3 e.symm rfl
    · rcases hk' with rfl | ⟨rfl, rfl⟩ | ⟨rfl, rfl⟩
      · exact h2 e
      · simp
      · simp
    · rcases hk' with rfl | ⟨rfl, rfl⟩ | ⟨rfl, rfl⟩
      · exact h3 e
      · simp
      · simp

theorem mkCompF_flat {ord : Order} (hord : ∀ l, (ord l).Perm l) {n : Nat} {c : Connector}
    (hc : c.isCommutative = true) {vs : List Term} {b : Bool} {t : Term}
    (g : ∀ v ∈ vs, Good v) (hv : ∀ v ∈ unfold c vs, Avoids c v)
    (h : mkCompF ord n c vs b = .ok t) : ∀ v ∈ t.comps, Avoids c v := by
  obtain ⟨m, k', ws, hn, hp, _, _, _, rfl⟩ := mkCompF_inv g h
  exact prepocess_closed' hord Avoids.down hc (fun k vs t hu hv h => mkCompF_avoids hord hu hv h) hv hp

end Cnars
