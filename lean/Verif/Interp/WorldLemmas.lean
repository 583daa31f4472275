import Verif.Interp.World
import Verif.Interp.StoreLemmas
import Mathlib.Data.List.Nodup

/-!
# Invariants of named atoms and their handles
-/

namespace Cnars.World

/-- The name atom `t` was created under. -/
def nameOf (w : World) (t : Nat) : Option String := w.atoms[t]?.map (·.name)

/-- The dictionaries have exactly the existing dictionary handles, each under its own key and
name. -/
structure Tidy (w : World) : Prop where
  lt : ∀ t ∈ w.dictH, t < w.atoms.length
  nodup : w.dictH.Nodup
  sub : ∀ t ∈ w.handles, t ∈ w.dictH
  keyInj : ∀ t ∈ w.dictH, ∀ u ∈ w.dictH, w.key t = w.key u → t = u
  dict : ∀ k n, w.store.dict k = some n ↔ ∃ t ∈ w.dictH, w.key t = k ∧ w.nameOf t = some n
  objs : ∀ k p, w.store.objs k = some p ↔ ∃ t ∈ w.dictH, w.key t = k ∧ p = some t
  inv : ∀ n k, w.store.inv n = some k ↔ ∃ t ∈ w.dictH, w.key t = k ∧ w.nameOf t = some n

theorem Tidy.init : Tidy init := by
  constructor <;> simp [World.init, Store.init, Map.empty]

variable {w : World}

theorem Tidy.name_some (h : Tidy w) {t : Nat} (ht : t ∈ w.dictH) : ∃ n, w.nameOf t = some n := by
  have := h.lt t ht
  exact ⟨w.atoms[t].name, by simp [nameOf, List.getElem?_eq_getElem this]⟩

theorem Tidy.nameInj (h : Tidy w) {t u : Nat} (ht : t ∈ w.dictH) (hu : u ∈ w.dictH) {n : String}
    (h1 : w.nameOf t = some n) (h2 : w.nameOf u = some n) : t = u := by
  have a := (h.inv n (w.key t)).2 ⟨t, ht, rfl, h1⟩
  have b := (h.inv n (w.key u)).2 ⟨u, hu, rfl, h2⟩
  rw [a] at b
  exact h.keyInj t ht u hu (Option.some.inj b)

theorem Tidy.inv_none (h : Tidy w) {n : String} :
    w.store.inv n = none ↔ ∀ t ∈ w.dictH, w.nameOf t ≠ some n := by
  constructor
  · intro e t ht hn
    have := (h.inv n (w.key t)).2 ⟨t, ht, rfl, hn⟩
    rw [e] at this; cases this
  · intro e
    cases hk : w.store.inv n with
    | none => rfl
    | some k => obtain ⟨t, ht, _, hn⟩ := (h.inv n k).1 hk; exact absurd hn (e t ht)

theorem Tidy.lookup_ok (h : Tidy w) {n : String} {t : Nat} (ht : t ∈ w.dictH)
    (hn : w.nameOf t = some n) : w.lookup n = .ok { w with handles := w.handles ++ [t] } := by
  have h1 := (h.inv n (w.key t)).2 ⟨t, ht, rfl, hn⟩
  have h2 := (h.objs (w.key t) (some t)).2 ⟨t, ht, rfl, rfl⟩
  simp [lookup, Store.getByName, h1, Store.getObject, h2, ht]

theorem Tidy.add_handle (h : Tidy w) {l : List Nat} (hl : ∀ t ∈ l, t ∈ w.dictH) :
    Tidy { w with handles := l } :=
  { lt := h.lt, nodup := h.nodup, sub := hl, keyInj := h.keyInj, dict := h.dict, objs := h.objs,
    inv := h.inv }

theorem alloc_key_old (w : World) (n : String) (a : Word) (b : Bool) {t : Nat}
    (ht : t < w.atoms.length) : (w.alloc n a b).key t = w.key t := by
  simp [key, alloc, List.getElem?_append_left ht]

theorem alloc_name_old (w : World) (n : String) (a : Word) (b : Bool) {t : Nat}
    (ht : t < w.atoms.length) : (w.alloc n a b).nameOf t = w.nameOf t := by
  simp [nameOf, alloc, List.getElem?_append_left ht]

theorem alloc_key_new (w : World) (n : String) (a : Word) (b : Bool) :
    (w.alloc n a b).key w.atoms.length = keyOf (Term.atomHash a) := by
  simp [key, alloc]

theorem alloc_name_new (w : World) (n : String) (a : Word) (b : Bool) :
    (w.alloc n a b).nameOf w.atoms.length = some n := by
  simp [nameOf, alloc]

theorem Tidy.alloc (h : Tidy w) {n : String} {a : Word} (b : Bool) (hn : w.store.inv n = none)
    (hk : ∀ t ∈ w.dictH, w.key t ≠ keyOf (Term.atomHash a)) : Tidy (w.alloc n a b) := by
  have pd := put_dict w.store (keyOf (Term.atomHash a)) n (some w.atoms.length)
  have pi := put_inv w.store (keyOf (Term.atomHash a)) n (some w.atoms.length)
  have po := put_objs w.store (keyOf (Term.atomHash a)) n (some w.atoms.length)
  have mem : ∀ t, t ∈ (w.alloc n a b).dictH ↔ t ∈ w.dictH ∨ t = w.atoms.length := by
    intro t; simp [World.alloc]
  have hn' := h.inv_none.1 hn
  have ok : ∀ t ∈ w.dictH, (w.alloc n a b).key t = w.key t := fun t ht => alloc_key_old _ _ _ _ (h.lt t ht)
  have on : ∀ t ∈ w.dictH, (w.alloc n a b).nameOf t = w.nameOf t :=
    fun t ht => alloc_name_old _ _ _ _ (h.lt t ht)
  have nk := alloc_key_new w n a b
  have nn := alloc_name_new w n a b
  constructor
  · intro t ht
    rcases (mem t).1 ht with ht | rfl
    · have := h.lt t ht; simp [World.alloc]; omega
    · simp [World.alloc]
  · have : w.atoms.length ∉ w.dictH := fun hh => absurd (h.lt _ hh) (by omega)
    simp only [World.alloc]
    rw [List.nodup_append]
    refine ⟨h.nodup, by simp, ?_⟩
    intro x hx y hy e
    simp at hy; subst e; subst hy; exact this hx
  · intro t ht
    simp [World.alloc] at ht ⊢
    rcases ht with ht | ht
    · exact .inl (h.sub t ht)
    · exact .inr ht
  · intro t ht u hu e
    rcases (mem t).1 ht with ht | rfl <;> rcases (mem u).1 hu with hu | rfl
    · rw [ok t ht, ok u hu] at e; exact h.keyInj t ht u hu e
    · rw [ok t ht, nk] at e; exact absurd e (hk t ht)
    · rw [ok u hu, nk] at e; exact absurd e.symm (hk u hu)
    · rfl
  · intro k m
    show (w.store.put _ _ _).dict k = some m ↔ _
    rw [pd, Map.set_apply]
    by_cases e : k = keyOf (Term.atomHash a)
    · rw [if_pos e]
      constructor
      · intro hm; cases hm
        exact ⟨_, (mem _).2 (.inr rfl), by rw [nk, e], nn⟩
      · rintro ⟨t, ht, h1, h2⟩
        rcases (mem t).1 ht with ht | rfl
        · rw [ok t ht] at h1; exact absurd (h1.trans e) (hk t ht)
        · rw [nn] at h2; exact h2
    · rw [if_neg e, h.dict k m]
      constructor
      · rintro ⟨t, ht, h1, h2⟩
        exact ⟨t, (mem t).2 (.inl ht), by rw [ok t ht, h1], by rw [on t ht, h2]⟩
      · rintro ⟨t, ht, h1, h2⟩
        rcases (mem t).1 ht with ht | rfl
        · exact ⟨t, ht, by rw [← ok t ht, h1], by rw [← on t ht, h2]⟩
        · rw [nk] at h1; exact absurd h1.symm e
  · intro k p
    show (w.store.put _ _ _).objs k = some p ↔ _
    rw [po, Map.set_apply]
    by_cases e : k = keyOf (Term.atomHash a)
    · rw [if_pos e]
      constructor
      · intro hm; cases hm
        exact ⟨_, (mem _).2 (.inr rfl), by rw [nk, e], rfl⟩
      · rintro ⟨t, ht, h1, h2⟩
        rcases (mem t).1 ht with ht | rfl
        · rw [ok t ht] at h1; exact absurd (h1.trans e) (hk t ht)
        · rw [h2]
    · rw [if_neg e, h.objs k p]
      constructor
      · rintro ⟨t, ht, h1, h2⟩
        exact ⟨t, (mem t).2 (.inl ht), by rw [ok t ht, h1], h2⟩
      · rintro ⟨t, ht, h1, h2⟩
        rcases (mem t).1 ht with ht | rfl
        · exact ⟨t, ht, by rw [← ok t ht, h1], h2⟩
        · rw [nk] at h1; exact absurd h1.symm e
  · intro m k
    show (w.store.put _ _ _).inv m = some k ↔ _
    rw [pi, Map.set_apply]
    by_cases e : m = n
    · subst e
      rw [if_pos rfl]
      constructor
      · intro hm; cases hm
        exact ⟨_, (mem _).2 (.inr rfl), by rw [nk], nn⟩
      · rintro ⟨t, ht, h1, h2⟩
        rcases (mem t).1 ht with ht | rfl
        · rw [on t ht] at h2; exact absurd h2 (hn' t ht)
        · rw [nk] at h1; rw [h1]
    · rw [if_neg e, h.inv m k]
      constructor
      · rintro ⟨t, ht, h1, h2⟩
        exact ⟨t, (mem t).2 (.inl ht), by rw [ok t ht, h1], by rw [on t ht, h2]⟩
      · rintro ⟨t, ht, h1, h2⟩
        rcases (mem t).1 ht with ht | rfl
        · exact ⟨t, ht, by rw [← ok t ht, h1], by rw [← on t ht, h2]⟩
        · rw [nn] at h2; exact absurd (Option.some.inj h2).symm e

/-- What `remove` leaves when everything is tidy. -/
def without (w : World) (t : Nat) (n : String) : World :=
  { w with
    store := { dict := w.store.dict.erase (w.key t), objs := w.store.objs.erase (w.key t),
               inv := w.store.inv.erase n, count := w.store.count.erase (w.key t) }
    dictH := w.dictH.erase t }

theorem Tidy.removeF (h : Tidy w) {t : Nat} (ht : t ∈ w.dictH) {n : String}
    (hn : w.nameOf t = some n) (fuel : Nat) :
    w.removeF (fuel + 2) (w.key t) = .ok (w.without t n) := by
  have h1 := (h.dict (w.key t) n).2 ⟨t, ht, rfl, hn⟩
  have h2 := (h.objs (w.key t) (some t)).2 ⟨t, ht, rfl, rfl⟩
  have h3 := (h.inv n (w.key t)).2 ⟨t, ht, rfl, hn⟩
  simp only [World.removeF, Store.startRemove, h1, h2, h3, ht, if_true, Option.isSome_some]
  have hk : ∀ s, ({ w with store := s } : World).key t = w.key t := fun _ => rfl
  have hc : ∀ s, ({ w with store := s } : World).useCount t = w.useCount t := fun _ => rfl
  simp only [hk, hc, Map.erase_self]
  split <;> simp [Store.finishRemove, without, ht]

theorem Tidy.without (h : Tidy w) {t : Nat} (ht : t ∈ w.dictH) {n : String}
    (hn : w.nameOf t = some n) {l : List Nat} (hl : ∀ u ∈ l, u ∈ w.dictH ∧ u ≠ t) :
    Tidy { w.without t n with handles := l } := by
  have mem : ∀ u, u ∈ w.dictH.erase t ↔ u ≠ t ∧ u ∈ w.dictH := fun u => h.nodup.mem_erase_iff
  have hkey : ∀ u, ({ w.without t n with handles := l } : World).key u = w.key u := fun _ => rfl
  have hname : ∀ u, ({ w.without t n with handles := l } : World).nameOf u = w.nameOf u := fun _ => rfl
  constructor
  · intro u hu; exact h.lt u ((mem u).1 hu).2
  · exact h.nodup.erase t
  · intro u hu; exact (mem u).2 ⟨(hl u hu).2, (hl u hu).1⟩
  · intro u hu v hv e
    exact h.keyInj u ((mem u).1 hu).2 v ((mem v).1 hv).2 e
  · intro k m
    simp only [hkey, hname]
    show (w.store.dict.erase (w.key t)) k = some m ↔ ∃ u ∈ w.dictH.erase t, _
    rw [Map.erase_apply]
    split
    · next e =>
      simp only [reduceCtorEq, false_iff, not_exists, not_and]
      intro u hu h1
      obtain ⟨h2, h3⟩ := (mem u).1 hu
      exact absurd (h.keyInj u h3 t ht (h1.trans e)) h2
    · next e =>
      rw [h.dict k m]
      constructor
      · rintro ⟨u, hu, h1, h2⟩
        exact ⟨u, (mem u).2 ⟨by rintro rfl; exact e h1.symm, hu⟩, h1, h2⟩
      · rintro ⟨u, hu, h1, h2⟩
        exact ⟨u, ((mem u).1 hu).2, h1, h2⟩
  · intro k p
    simp only [hkey]
    show (w.store.objs.erase (w.key t)) k = some p ↔ ∃ u ∈ w.dictH.erase t, _
    rw [Map.erase_apply]
    split
    · next e =>
      simp only [reduceCtorEq, false_iff, not_exists, not_and]
      intro u hu h1
      obtain ⟨h2, h3⟩ := (mem u).1 hu
      exact absurd (h.keyInj u h3 t ht (h1.trans e)) h2
    · next e =>
      rw [h.objs k p]
      constructor
      · rintro ⟨u, hu, h1, h2⟩
        exact ⟨u, (mem u).2 ⟨by rintro rfl; exact e h1.symm, hu⟩, h1, h2⟩
      · rintro ⟨u, hu, h1, h2⟩
        exact ⟨u, ((mem u).1 hu).2, h1, h2⟩
  · intro m k
    simp only [hkey, hname]
    show (w.store.inv.erase n) m = some k ↔ ∃ u ∈ w.dictH.erase t, _
    rw [Map.erase_apply]
    split
    · next e =>
      simp only [reduceCtorEq, false_iff, not_exists, not_and]
      intro u hu h1 h4
      obtain ⟨h2, h3⟩ := (mem u).1 hu
      exact absurd (h.nameInj h3 ht (h4.trans (by rw [e])) hn) h2
    · next e =>
      rw [h.inv m k]
      constructor
      · rintro ⟨u, hu, h1, h2⟩
        exact ⟨u, (mem u).2 ⟨by rintro rfl; rw [hn] at h2; exact e (Option.some.inj h2).symm, hu⟩, h1, h2⟩
      · rintro ⟨u, hu, h1, h2⟩
        exact ⟨u, ((mem u).1 hu).2, h1, h2⟩

theorem mem_eraseIdx_of_count {l : List Nat} {i t : Nat} (hi : l[i]? = some t) :
    (l.eraseIdx i).count t = l.count t - 1 := by
  induction l generalizing i with
  | nil => simp at hi
  | cons a l ih =>
    cases i with
    | zero => simp at hi; subst hi; simp
    | succ i =>
      have hi : l[i]? = some t := by simpa using hi
      have hm : 0 < l.count t := List.count_pos_iff.2 (List.mem_of_getElem? hi)
      rw [List.eraseIdx_cons_succ, List.count_cons, List.count_cons, ih hi]
      omega

theorem mem_eraseIdx_ne {l : List Nat} {i t u : Nat} (hi : l[i]? = some t) (hu : u ∈ l) (hne : u ≠ t) :
    u ∈ l.eraseIdx i := by
  have hlt : i < l.length := by
    by_contra hh; rw [List.getElem?_eq_none (by omega)] at hi; cases hi
  rw [List.getElem?_eq_getElem hlt] at hi
  have := Option.some.inj hi
  rw [List.mem_eraseIdx_iff_getElem]
  obtain ⟨j, hj, rfl⟩ := List.getElem_of_mem hu
  refine ⟨j, hj, ?_, rfl⟩
  rintro rfl; exact hne this

/-- Dropping a handle. -/
theorem Tidy.drop (h : Tidy w) {i t : Nat} (hi : w.handles[i]? = some t) :
    ∃ w', w.drop i = .ok w' ∧ Tidy w' ∧ w'.handles = w.handles.eraseIdx i ∧
      w'.atoms = w.atoms ∧
      w'.dictH = if w.handles.count t = 1 then w.dictH.erase t else w.dictH := by
  have htm : t ∈ w.handles := List.mem_of_getElem? hi
  have ht := h.sub t htm
  obtain ⟨n, hn⟩ := h.name_some ht
  have hc : w.dictH.count t = 1 := List.count_eq_one_of_mem h.nodup ht
  simp only [World.drop, hi, useCount, hc]
  by_cases h1 : w.handles.count t = 1
  · rw [h1, if_pos rfl, if_pos rfl]
    have := h.removeF ht hn (w.atoms.length)
    simp only [fuel, this, Res.ok_bind]
    refine ⟨_, rfl, ?_, rfl, rfl, rfl⟩
    refine h.without ht hn ?_
    intro u hu
    refine ⟨h.sub u (List.mem_of_mem_eraseIdx hu), ?_⟩
    rintro rfl
    have c := mem_eraseIdx_of_count hi
    rw [h1] at c
    exact absurd hu (List.count_eq_zero.1 c)
  · rw [if_neg (by omega), if_neg h1]
    refine ⟨_, rfl, ?_, rfl, rfl, rfl⟩
    exact h.add_handle fun u hu => h.sub u (List.mem_of_mem_eraseIdx hu)

end Cnars.World
