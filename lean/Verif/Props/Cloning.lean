import Verif.Narsese.Heap
import Verif.Narsese.LtLemmas
import Verif.Props.TermEq

/-!
# C29: cloning
-/

namespace Cnars.Props
open Cnars Term

/-- A clone is equal in every field: constants, variable kinds and names, hash, complexity, flags
and index tables at every level. -/
theorem C29_same_value {t : Term} (h : Constructed t) : clone t = .ok t := h.good.clone

theorem Good_at {o u : Obj} {path : List Nat} (h : Good o.val) (hu : o.at? path = some u) :
    Good u.val := by
  induction path generalizing o with
  | nil => simp [Obj.at?] at hu; subst hu; exact h
  | cons k ks ih =>
    simp only [Obj.at?] at hu
    split at hu
    · next s hs =>
      refine ih ?_ hu
      cases o with
      | stmt a x c y i =>
        have := Good.stmt_inv (by simpa only [Obj.val] using h)
        have hm := List.mem_of_getElem? hs
        simp only [Obj.sons, List.mem_cons, List.not_mem_nil, or_false] at hm
        rcases hm with rfl | rfl
        · exact this.1
        · exact this.2
      | comp a c os i =>
        have := (Good.comp_inv (by simpa only [Obj.val] using h)).1
        rw [Obj.vals_eq] at this
        exact this _ (List.mem_map_of_mem (List.mem_of_getElem? hs))
      | _ => simp [Obj.sons] at hs
    · cases hu

/-- Components of a variable-free object are variable-free. -/
theorem leaves_at {o u : Obj} {path : List Nat} (hu : o.at? path = some u) {l : Shape}
    (hl : l ∈ (shape u.val).leaves) : l ∈ (shape o.val).leaves := by
  induction path generalizing o with
  | nil => simp [Obj.at?] at hu; subst hu; exact hl
  | cons k ks ih =>
    simp only [Obj.at?] at hu
    split at hu
    · next s hs =>
      have h1 := ih hu
      cases o with
      | stmt a x c y i =>
        have hm := List.mem_of_getElem? hs
        simp only [Obj.sons, List.mem_cons, List.not_mem_nil, or_false] at hm
        simp only [Obj.val, shape, Shape.leaves, List.mem_append]
        rcases hm with rfl | rfl
        · exact .inl h1
        · exact .inr h1
      | comp a c os i =>
        have hm := List.mem_of_getElem? hs
        simp only [Obj.val, shape, Shape.leaves, leavesAll_eq, shapes_eq_map, Obj.vals_eq,
          List.mem_flatMap, List.mem_map]
        exact ⟨_, ⟨_, ⟨s, hm, rfl⟩, rfl⟩, h1⟩
      | _ => simp [Obj.sons] at hs
    · cases hu

theorem cloned_at {n : Nat} {o o' : Obj} (h : Cloned n o o') (hg : Good o.val) {path : List Nat}
    {u : Obj} (hu : o.at? path = some u) : ∃ u', o'.at? path = some u' ∧ Cloned n u u' := by
  induction path generalizing o o' with
  | nil => simp [Obj.at?] at hu; subst hu; exact ⟨o', rfl, h⟩
  | cons k ks ih =>
    cases h with
    | same _ hv =>
      refine ⟨u, hu, .same u ?_⟩
      rw [← Bool.not_eq_true, (Good_at hg hu).hasVar_iff]
      rintro ⟨k, i, hl⟩
      have := hg.hasVar_iff.2 ⟨k, i, leaves_at hu hl⟩
      rw [hv] at this; cases this
    | var a b kk nm i hv hb => simp [Obj.at?, Obj.sons] at hu
    | @stmt a b s s' p p' c i hv hb h1 h2 =>
      have hg' := Good.stmt_inv (by simpa only [Obj.val] using hg)
      simp only [Obj.at?, Obj.sons] at hu ⊢
      match k, hu with
      | 0, hu => exact ih h1 hg'.1 hu
      | 1, hu => exact ih h2 hg'.2 hu
      | k + 2, hu => simp at hu
    | @comp a b os os' c i hv hb hl hk =>
      have hg' := (Good.comp_inv (by simpa only [Obj.val] using hg)).1
      rw [Obj.vals_eq] at hg'
      simp only [Obj.at?, Obj.sons] at hu ⊢
      split at hu
      · next s hs =>
        have hlt : k < os'.length := by rw [← hl]; exact (List.getElem?_eq_some_iff.1 hs).1
        have hs' : os'[k]? = some os'[k] := by simp [hlt]
        rw [hs']
        exact ih (hk k s _ hs hs') (hg' _ (List.mem_map_of_mem (List.mem_of_getElem? hs))) hu
      · cases hu

theorem addr_mem (o : Obj) : o.addr ∈ o.addrs := by
  cases o <;> simp [Obj.addr, Obj.addrs]

/-- The clone of any object structure (with any sharing inside): it succeeds; at every place the
value is that of the original; where the original contains a variable, the clone has an object that
does not occur anywhere in the original; where it contains none, the clone has the very same
object. -/
theorem C29_sharing {o : Obj} {n : Nat} (h : Constructed o.val) (hn : ∀ a ∈ o.addrs, a < n) :
    ∃ o' n', cloneO n o = .ok (o', n') ∧ o'.val = o.val ∧
      ∀ path u, o.at? path = some u → ∃ u', o'.at? path = some u' ∧ u'.val = u.val ∧
        ((∃ k i, Shape.var k i ∈ (shape u.val).leaves) → u'.addr ∉ o.addrs) ∧
        ((∀ k i, Shape.var k i ∉ (shape u.val).leaves) → u' = u) := by
  obtain ⟨o', n', e, v, k, _⟩ := cloneO_spec o n h.good
  refine ⟨o', n', e, v, fun path u hu => ?_⟩
  have gu := Good_at h.good hu
  have cloned_val : ∀ {a b : Obj}, Cloned n a b → Good a.val → b.val = a.val := by
    intro a b hab
    induction hab with
    | same => intro _; rfl
    | var => intro _; rfl
    | stmt a b c i hv hb _ _ ih1 ih2 =>
      intro hg
      have := Good.stmt_inv (by simpa only [Obj.val] using hg)
      simp only [Obj.val, ih1 this.1, ih2 this.2]
    | @comp a b os os' c i hv hb hl hk ih =>
      intro hg
      have hg' := (Good.comp_inv (by simpa only [Obj.val] using hg)).1
      rw [Obj.vals_eq] at hg'
      simp only [Obj.val]
      congr 1
      rw [Obj.vals_eq, Obj.vals_eq]
      apply List.ext_getElem (by simp [hl])
      intro j h1 h2
      simp only [List.getElem_map]
      simp at h1 h2
      exact ih j _ _ (by simp [h2]) (by simp [h1]) (hg' _ (List.mem_map_of_mem (List.getElem_mem h2)))
  have hasv : ∀ {w : Obj}, Good w.val → (w.val.info.hasVar = true ↔
      ∃ k i, Shape.var k i ∈ (shape w.val).leaves) := fun hw => by
    rw [hw.hasVar_iff]; rfl
  obtain ⟨u', hu', hcl⟩ := cloned_at k h.good hu
  · refine ⟨u', hu', cloned_val hcl gu, ?_, ?_⟩
    · intro hv
      have hv' := (hasv gu).2 hv
      have : n ≤ u'.addr := by
        cases hcl with
        | same _ hv2 => rw [hv2] at hv'; cases hv'
        | var _ _ _ _ _ _ hb => exact hb
        | stmt _ _ _ _ _ hb _ _ => exact hb
        | comp _ _ _ _ _ hb _ _ => exact hb
      intro hm; have := hn _ hm; omega
    · intro hv
      have hv' : u.val.info.hasVar = false := by
        rw [← Bool.not_eq_true, hasv gu]; push Not; exact hv
      cases hcl with
      | same => rfl
      | var _ _ _ _ _ h1 => simp [Obj.val, Term.info] at hv'; rw [h1] at hv'; cases hv'
      | stmt _ _ _ _ h1 => simp [Obj.val, Term.info] at hv'; rw [h1] at hv'; cases hv'
      | comp _ _ _ _ h1 => simp [Obj.val, Term.info] at hv'; rw [h1] at hv'; cases hv'

/-- Cloning leaves the original alone and the value of a clone of a clone is again the same. -/
theorem C29_iterated {o : Obj} {n : Nat} (h : Constructed o.val) :
    ∃ o1 n1 o2 n2, cloneO n o = .ok (o1, n1) ∧ cloneO n1 o1 = .ok (o2, n2) ∧ o2.val = o.val := by
  obtain ⟨o1, n1, e1, v1, _⟩ := cloneO_spec o n h.good
  obtain ⟨o2, n2, e2, v2, _⟩ := cloneO_spec o1 n1 (by rw [v1]; exact h.good)
  exact ⟨o1, n1, o2, n2, e1, e2, by rw [v2, v1]⟩

/-- `<<$x --> A> ==> <$x --> A>>`, both sides being the same object. -/
def oXA : Obj := .stmt 2 (.var 0 .independent "x" sX.info) .inheritance (.atom 1 0x555555581eb0#64 sA.info)
  sXA.info
def oImp : Obj := .stmt 3 oXA .implication oXA (mkStmt sXA .implication sXA).info

theorem oImp_c : Constructed oImp.val :=
  .stmt (s := sXA) (p := sXA) .implication true sXA_c sXA_c rfl

example : ∃ o' n', cloneO 4 oImp = .ok (o', n') ∧ ∃ u', o'.at? [1, 0] = some u' ∧
    u'.addr ∉ oImp.addrs ∧ o'.at? [1, 1] = some (.atom 1 0x555555581eb0#64 sA.info) := by
  obtain ⟨o', n', e, _, hp⟩ := C29_sharing (o := oImp) (n := 4) oImp_c (by decide +kernel)
  obtain ⟨u', hu', _, hv, _⟩ := hp [1, 0] (.var 0 .independent "x" sX.info) rfl
  obtain ⟨w', hw', _, _, hs⟩ := hp [1, 1] (.atom 1 0x555555581eb0#64 sA.info) rfl
  refine ⟨o', n', e, u', hu', hv ⟨.independent, some 0, ?_⟩, ?_⟩
  · have : shape (Obj.var 0 .independent "x" sX.info).val = .var .independent (some 0) := rfl
    rw [this]; simp [Shape.leaves]
  · rw [hw', hs]
    intro k i hm
    have : shape (Obj.atom 1 0x555555581eb0#64 sA.info).val = .const 0x555555581eb0#64 := rfl
    rw [this] at hm; simp [Shape.leaves] at hm

end Cnars.Props
