import Verif.Interp.PrintLemmas
import Verif.Narsese.Mingled

/-!
Helper lemmas: what constructing commutative compounds does to terms that can be printed.
-/

namespace Cnars.Print
open Cnars Cnars.Term

/-- Printable except for commutative compounds without components, in commutative compounds at most. -/
inductive Nearly : Term → Prop
  | whole {t : Term} : Printable t → Nearly t
  | comp {c : Connector} {us : List Term} {i : Info} : c.isCommutative = true → (∀ u ∈ us, Nearly u) →
      Nearly (.comp c us i)

theorem Printable.comps {t : Term} (h : Printable t) : ∀ u ∈ t.comps, Printable u := by
  cases h with
  | comp c i _ h => exact h
  | _ => simp [Term.comps]

theorem Nearly.downClosed : DownClosed Nearly := by
  intro t h u hu
  cases h with
  | whole h => exact .whole (h.comps u hu)
  | comp _ h => exact h u hu

theorem Nearly.printable {c : Connector} {a t : Term} (hm : Mingled c a t) (h : Nearly t) : Printable t := by
  have flat : ∀ {t}, category t = none → Nearly t → Printable t := by
    intro t hc h
    cases h with
    | whole h => exact h
    | comp h1 _ => simp [category, h1] at hc
  induction hm with
  | other hc => exact flat hc h
  | @comp us i h1 _ ih =>
    exact .comp _ _ h1 fun u hu => ih u hu (Nearly.downClosed _ h u hu)
  | @shallow k us i _ _ hs =>
    exact .comp _ _ (valid_ne hs.valid) fun u hu => flat (hs.plain u hu) (Nearly.downClosed _ h u hu)

theorem keys_commutative {ts : List Term} {c : Connector} (h : some c ∈ keys ts) : c.isCommutative = true := by
  induction ts with
  | nil => simp [keys] at h
  | cons t ts ih =>
    simp only [keys, List.mem_cons, List.mem_filter] at h
    rcases h with h | h
    · unfold category at h
      split at h
      · split at h
        · cases h; assumption
        · cases h
      · cases h
    · exact ih h.1

theorem normAll_keys {parent : Connector} {ts : List Term} {ks : List (Option Connector)}
    {r : List (Option Connector × List Term)} (h : normAll parent ts ks = .ok r) : ∀ q ∈ r, q.1 ∈ ks := by
  induction ks generalizing r with
  | nil => cases h; simp
  | cons k ks ih =>
    simp only [normAll, Res.bind_eq_ok, Res.pure_eq, Res.ok.injEq] at h
    obtain ⟨a, ha, b, hb, rfl⟩ := h
    intro q hq
    rcases List.mem_append.1 hq with hq | hq
    · suffices q.1 = k by simp [this]
      unfold normGroup at ha
      split at ha
      · cases ha
        obtain ⟨t, _, rfl⟩ := List.mem_map.1 hq
        rfl
      · simp only [Res.bind_eq_ok] at ha
        obtain ⟨m, _, ha⟩ := ha
        cases m with
        | none =>
          cases ha
          obtain ⟨t, _, rfl⟩ := List.mem_map.1 hq
          rfl
        | some l =>
          cases ha
          rw [List.mem_singleton.mp hq]
    · exact List.mem_cons_of_mem _ (ih hb q hq)

/-- `prepocess_closed` for commutative connectors, which only make compounds with such connectors. -/
theorem prepocess_nearly {P : Term → Prop} {ord : Order} (hord : ∀ l, (ord l).Perm l)
    {mk : Connector → List Term → Res Term} {parent c' : Connector} (hc : parent.isCommutative = true)
    {terms us : List Term} (hd : DownClosed P)
    (hmk : ∀ c vs t, c.isCommutative = true → (∀ v ∈ vs, P v) → mk c vs = .ok t → P t)
    (ht : ∀ t ∈ terms, P t) (h : prepocess ord mk parent terms = .ok (c', us)) : ∀ u ∈ us, P u := by
  refine (prepocess_closed (ord := ord) (parent := parent) (c' := c') (mk := fun c vs => if c.isCommutative then mk c vs else .ub) hd (fun c vs t hv e => ?_)
    ht ?_).1
  · split at e
    · exact hmk c vs t (by assumption) hv e
    · cases e
  · have hcol : ∀ {norm : List (Option Connector × List Term)}, (∀ q ∈ norm, ∀ c, q.1 = some c → c.isCommutative = true) →
        collect (fun c vs => if c.isCommutative then mk c vs else .ub) parent norm = collect mk parent norm := by
      intro norm
      induction norm with
      | nil => intro _; rfl
      | cons q rest ih =>
        intro hq
        obtain ⟨k, vs⟩ := q
        simp only [collect, ih fun q hm => hq q (List.mem_cons_of_mem _ hm)]
        cases k with
        | none => rfl
        | some c => simp only [hq (some c, vs) List.mem_cons_self c rfl, if_true]
    unfold prepocess at h ⊢
    split
    · rename_i hr
      rw [if_pos hr] at h
      exact h
    · rename_i hr
      rw [if_neg hr, if_pos hc] at h
      obtain ⟨ts, h1, h⟩ := Res.bind_eq_ok.mp h
      obtain ⟨norm, h2, h⟩ := Res.bind_eq_ok.mp h
      rw [h1, Res.ok_bind, h2, Res.ok_bind, hcol]
      · exact h
      · intro q hq c e
        have := normAll_keys h2 q hq
        rw [e, (hord _).mem_iff] at this
        exact keys_commutative this

/-- A commutative compound of terms that can be printed. -/
theorem mkComp_nearly {ord : Order} (hord : ∀ l, (ord l).Perm l) {c : Connector} (hc : c.isCommutative = true)
    {args : List Term} {b : Bool} {r : Term} (g : ∀ t ∈ args, Good t) (hp : ∀ t ∈ args, Printable t)
    (h : mkComp ord c args b = .ok r) : Nearly r := by
  let P : Term → Prop := fun t => Good t ∧ Nearly t
  have hd : DownClosed P := fun t ht u hu => ⟨Good.downClosed t ht.1 u hu, Nearly.downClosed t ht.2 u hu⟩
  have key : ∀ n c vs b t, c.isCommutative = true → (∀ v ∈ vs, P v) → mkCompF ord n c vs b = .ok t → P t := by
    intro n
    induction n with
    | zero => intro c vs b t _ _ h; simp [mkCompF] at h
    | succ n ih =>
      intro c vs b t hc hv h
      have g := mkCompF_good (fun v hv' => (hv v hv').1) h
      obtain ⟨m, c', us, hn, hp, _, hcc, _, rfl⟩ := mkCompF_inv (fun v hv' => (hv v hv').1) h
      obtain rfl : n = m := by omega
      have hus := prepocess_nearly hord hc hd (fun c vs t hc hv h => ih c vs false t hc hv h) hv hp
      exact ⟨g, .comp (hcc hc).2 fun u hu => (hus u hu).2⟩
  obtain ⟨ts, _, hm, h2⟩ := mkComp_inv h
  exact (key _ _ _ _ _ hc (fun t ht => ⟨g t (hm t ht), .whole (hp t (hm t ht))⟩) h2).2

end Cnars.Print
