import Verif.Interp.WorldLemmas
import Verif.Props.Dictionary

/-!
# C30, C31, C36: names, handles and lifetimes
-/

namespace Cnars.Props
open Cnars World

/-- The address differs in the low 32 bits from that of every atom that still has a handle. -/
def FreshAddr (w : World) (a : Word) : Prop :=
  ∀ t x, w.atoms[t]? = some x → 0 < w.useCount t → x.addr.setWidth 32 ≠ a.setWidth 32

/-- The histories of the `_partial` theorems: new addresses are fresh in the low 32 bits, `operation`
is called with both or none of `name` and `^name` in the dictionary, handles exist.  Assignments to
handles only if `asg`. -/
def Allowed (asg : Bool) (w : World) : WorldOp → Prop
  | .create _ a => FreshAddr w a
  | .operation n a => FreshAddr w a ∧ w.store.checkByName n = w.store.checkByName ("^" ++ n)
  | .copy i | .drop i => i < w.handles.length
  | .assign i j => asg = true ∧ i < w.handles.length ∧ j < w.handles.length

/-- Worlds reachable by such histories. -/
inductive Reach (asg : Bool) : World → Prop
  | init : Reach asg World.init
  | step {w w' : World} (op : WorldOp) : Reach asg w → Allowed asg w op → w.step op = .ok w' →
      Reach asg w'

/-- Every dictionary handle has a user beside it. -/
def Held (w : World) : Prop := ∀ t ∈ w.dictH, t ∈ w.handles

theorem FreshAddr.keys {w : World} (h : Tidy w) {a : Word} (hf : FreshAddr w a) :
    ∀ t ∈ w.dictH, w.key t ≠ keyOf (Term.atomHash a) := by
  intro t ht e
  have hlt := h.lt t ht
  have hx := List.getElem?_eq_getElem hlt
  refine hf t _ hx ?_ ?_
  · have : 0 < w.dictH.count t := List.count_pos_iff.2 ht
    simp only [useCount]; omega
  · simp only [key, hx] at e
    exact (C35_keys _ _).1 e

theorem step_create {w : World} (h : Tidy w) {n : String} {a : Word} (hf : FreshAddr w a) :
    ∃ w', w.create n a = .ok w' ∧ Tidy w' ∧ (Held w → Held w') ∧
      ∃ r, w'.handles = w.handles ++ [r] ∧ w'.nameOf r = some n ∧
        (∀ t ∈ w.dictH, w'.nameOf t = w.nameOf t) ∧ ∀ t ∈ w.dictH, w.nameOf t = some n → r = t := by
  unfold create
  by_cases hc : w.store.checkByName n
  · rw [if_pos hc]
    obtain ⟨k, hk⟩ := Option.isSome_iff_exists.1 hc
    obtain ⟨t, ht, _, hn⟩ := (h.inv n k).1 hk
    refine ⟨_, h.lookup_ok ht hn, h.add_handle ?_, ?_, t, rfl, hn, fun _ _ => rfl, ?_⟩
    · intro u hu; rw [List.mem_append] at hu
      rcases hu with hu | hu
      · exact h.sub u hu
      · rw [List.mem_singleton] at hu; exact hu ▸ ht
    · intro hh u hu; exact List.mem_append_left _ (hh u hu)
    · intro u hu hun; exact h.nameInj ht hu hn hun
  · rw [if_neg hc]
    have hn : w.store.inv n = none := by simpa [Store.checkByName] using hc
    refine ⟨_, rfl, h.alloc false hn (hf.keys h), ?_, w.atoms.length, rfl, alloc_name_new _ _ _ _,
      fun t ht => alloc_name_old _ _ _ _ (h.lt t ht), fun t ht e => absurd e (h.inv_none.1 hn t ht)⟩
    intro hh u hu
    simp only [alloc, List.mem_append, List.mem_singleton] at hu ⊢
    exact hu.imp (hh u) id

theorem step_operation {w : World} (h : Tidy w) {n : String} {a : Word} (hf : FreshAddr w a)
    (hg : w.store.checkByName n = w.store.checkByName ("^" ++ n)) :
    ∃ w', w.operation n a = .ok w' ∧ Tidy w' ∧ (Held w → Held w') ∧
      ∃ r, w'.handles = w.handles ++ [r] ∧ w'.nameOf r = some ("^" ++ n) ∧
        (∀ t ∈ w.dictH, w'.nameOf t = w.nameOf t) ∧
        ∀ t ∈ w.dictH, w.nameOf t = some ("^" ++ n) → r = t := by
  unfold operation
  rw [hg]
  by_cases hc : w.store.checkByName ("^" ++ n)
  · rw [if_pos hc]
    obtain ⟨k, hk⟩ := Option.isSome_iff_exists.1 hc
    obtain ⟨t, ht, _, hn⟩ := (h.inv _ k).1 hk
    refine ⟨_, h.lookup_ok ht hn, h.add_handle ?_, ?_, t, rfl, hn, fun _ _ => rfl, ?_⟩
    · intro u hu; rw [List.mem_append] at hu
      rcases hu with hu | hu
      · exact h.sub u hu
      · rw [List.mem_singleton] at hu; exact hu ▸ ht
    · intro hh u hu; exact List.mem_append_left _ (hh u hu)
    · intro u hu hun; exact h.nameInj ht hu hn hun
  · rw [if_neg hc]
    have hn : w.store.inv ("^" ++ n) = none := by simpa [Store.checkByName] using hc
    refine ⟨_, rfl, h.alloc true hn (hf.keys h), ?_, w.atoms.length, rfl, alloc_name_new _ _ _ _,
      fun t ht => alloc_name_old _ _ _ _ (h.lt t ht), fun t ht e => absurd e (h.inv_none.1 hn t ht)⟩
    intro hh u hu
    simp only [alloc, List.mem_append, List.mem_singleton] at hu ⊢
    exact hu.imp (hh u) id

theorem step_tidy {asg : Bool} {w : World} (h : Tidy w) (hh : asg = false → Held w) {op : WorldOp}
    (ha : Allowed asg w op) : ∃ w', w.step op = .ok w' ∧ Tidy w' ∧ (asg = false → Held w') := by
  cases op with
  | create n a =>
    obtain ⟨w', h1, h2, h3, _⟩ := step_create h (n := n) (a := a) ha
    exact ⟨w', h1, h2, fun e => h3 (hh e)⟩
  | operation n a =>
    obtain ⟨w', h1, h2, h3, _⟩ := step_operation h (n := n) (a := a) ha.1 ha.2
    exact ⟨w', h1, h2, fun e => h3 (hh e)⟩
  | copy i =>
    have hi := List.getElem?_eq_getElem (show i < w.handles.length from ha)
    refine ⟨{ w with handles := w.handles ++ [w.handles[i]] }, by simp [World.step, copy, hi]; rfl,
      h.add_handle ?_, ?_⟩
    · intro u hu; rw [List.mem_append] at hu
      rcases hu with hu | hu
      · exact h.sub u hu
      · rw [List.mem_singleton] at hu
        exact hu ▸ h.sub _ (List.getElem_mem _)
    · intro e u hu; exact List.mem_append_left _ (hh e u hu)
  | drop i =>
    have hi := List.getElem?_eq_getElem (show i < w.handles.length from ha)
    obtain ⟨w', h1, h2, h3, h4, h5⟩ := h.drop hi
    refine ⟨w', h1, h2, ?_⟩
    intro e u hu
    rw [h3]
    rw [h5] at hu
    split at hu
    · next hc =>
      obtain ⟨h6, h7⟩ := h.nodup.mem_erase_iff.1 hu
      exact mem_eraseIdx_ne hi (hh e u h7) h6
    · next hc =>
      by_cases hu' : u = w.handles[i]
      · have h8 := mem_eraseIdx_of_count hi
        have h9 : 0 < w.handles.count w.handles[i] := List.count_pos_iff.2 (List.getElem_mem _)
        rw [hu']
        exact List.count_pos_iff.1 (by omega)
      · exact mem_eraseIdx_ne hi (hh e u hu) hu'
  | assign i j =>
    have hj' : j < w.handles.length := ha.2.2
    have hi := List.getElem?_eq_getElem (show i < w.handles.length from ha.2.1)
    have hj := List.getElem?_eq_getElem (show j < w.handles.length from ha.2.2)
    refine ⟨{ w with handles := w.handles.set i w.handles[j] },
      by simp [World.step, assign, hi, hj], h.add_handle ?_, ?_⟩
    · intro u hu
      rcases List.mem_or_eq_of_mem_set hu with hu | hu
      · exact h.sub u hu
      · exact hu ▸ h.sub _ (List.getElem_mem _)
    · intro e; rw [ha.1] at e; cases e

theorem Reach.tidy {asg : Bool} {w : World} (h : Reach asg w) :
    Tidy w ∧ (asg = false → Held w) := by
  induction h with
  | init => exact ⟨Tidy.init, fun _ t ht => absurd ht (by simp [World.init])⟩
  | step op _ ha hs ih =>
    obtain ⟨w', h1, h2, h3⟩ := step_tidy ih.1 ih.2 ha
    rw [h1] at hs; cases hs
    exact ⟨h2, h3⟩

/-- Every step of an allowed history is defined: no null or deleted handle is followed and the
recursion of `remove` ends. -/
theorem C30_defined_partial {asg : Bool} {w : World} (h : Reach asg w) {op : WorldOp}
    (ha : Allowed asg w op) : ∃ w', w.step op = .ok w' :=
  let ⟨w', h1, _⟩ := step_tidy h.tidy.1 h.tidy.2 ha
  ⟨w', h1⟩

/-- While a term created from a name is held, creating one from that name returns it, and creating
one from another name returns another term.  Histories of any length, with assignments, whose new
addresses do not collide in the low 32 bits with living ones; missing: colliding ones. -/
theorem C30_interning_partial {asg : Bool} {w : World} (h : Reach asg w) (n : String) {a : Word}
    (ha : FreshAddr w a) :
    ∃ w' r, w.create n a = .ok w' ∧ w'.handles = w.handles ++ [r] ∧ w'.nameOf r = some n ∧
      ∀ t ∈ w.handles, w'.nameOf t = w.nameOf t ∧ (r = t ↔ w.nameOf t = some n) := by
  obtain ⟨w', h1, _, _, r, h2, h3, h4, h5⟩ := step_create h.tidy.1 (n := n) ha
  refine ⟨w', r, h1, h2, h3, fun t ht => ?_⟩
  have htd := h.tidy.1.sub t ht
  refine ⟨h4 t htd, ?_, h5 t htd⟩
  rintro rfl
  rw [← h4 r htd, h3]

/-- Two addresses 4 GiB apart: creating `b` while `a` is held takes over its dictionary entry, and
asking for `a` again returns the term called `b`. -/
theorem C30_counterexample :
    ∃ w w', World.run World.init [.create "a" 0x555555581eb0, .create "b" 0x555655581eb0] = .ok w ∧
      w.handles = [0, 1] ∧ w.nameOf 0 = some "a" ∧ w.nameOf 1 = some "b" ∧
      w.create "a" 0x555555581f90 = .ok w' ∧ w'.handles = [0, 1, 1] := by
  refine ⟨_, _, rfl, ?_, ?_, ?_, rfl, ?_⟩ <;> decide +kernel

/-- … and if `b` is dropped first, asking for `a` reads a null pointer. -/
theorem C30_null_counterexample :
    World.run World.init [.create "a" 0x555555581eb0, .create "b" 0x555655581eb0, .drop 1,
      .create "a" 0x555555581f90] = .ub := by rfl

example : Reach true (((World.init.alloc "a" 0x555555581eb0 false).alloc "b" 0x555555581f90 false)) :=
  .step (.create "b" 0x555555581f90) (.step (.create "a" 0x555555581eb0) .init
    (by intro t x hx; simp [World.init] at hx) rfl)
    (by
      intro t x hx _
      simp [World.init, World.alloc] at hx
      rcases t with _ | t
      · simp at hx; subst hx; decide
      · simp at hx) rfl

/-! ## C31 -/

/-- After any allowed history without assignments, dictionary entries are exactly those of the held
terms, each with a handle that has not been deleted; missing: assignments and colliding
addresses. -/
theorem C31_entries_partial {w : World} (h : Reach false w) :
    (∀ n, w.store.checkByName n = true ↔ ∃ t ∈ w.handles, w.nameOf t = some n) ∧
    (∀ k, w.store.check k = true ↔ ∃ t ∈ w.handles, w.key t = k) ∧
    (∀ k p, w.store.objs k = some p ↔ ∃ t ∈ w.handles, w.key t = k ∧ p = some t) ∧
    (∀ t ∈ w.handles, t ∈ w.dictH) := by
  obtain ⟨ht, hh⟩ := h.tidy
  have hh := hh rfl
  refine ⟨fun n => ?_, fun k => ?_, fun k p => ?_, ht.sub⟩
  · rw [Store.checkByName, Option.isSome_iff_exists]
    constructor
    · rintro ⟨k, hk⟩
      obtain ⟨t, h1, _, h2⟩ := (ht.inv n k).1 hk
      exact ⟨t, hh t h1, h2⟩
    · rintro ⟨t, h1, h2⟩
      exact ⟨w.key t, (ht.inv n _).2 ⟨t, ht.sub t h1, rfl, h2⟩⟩
  · rw [Store.check, Option.isSome_iff_exists]
    constructor
    · rintro ⟨n, hn⟩
      obtain ⟨t, h1, h2, _⟩ := (ht.dict k n).1 hn
      exact ⟨t, hh t h1, h2⟩
    · rintro ⟨t, h1, h2⟩
      obtain ⟨n, hn⟩ := ht.name_some (ht.sub t h1)
      exact ⟨n, (ht.dict k n).2 ⟨t, ht.sub t h1, h2, hn⟩⟩
  · rw [ht.objs k p]
    constructor
    · rintro ⟨t, h1, h2⟩; exact ⟨t, hh t h1, h2⟩
    · rintro ⟨t, h1, h2⟩; exact ⟨t, ht.sub t h1, h2⟩

/-- With assignments, entries still stay while a handle is held, and never refer to a deleted
handle; missing: that they disappear (`C31_assign_counterexample`). -/
theorem C31_stay_partial {w : World} (h : Reach true w) :
    (∀ t ∈ w.handles, ∀ n, w.nameOf t = some n →
      w.store.checkByName n = true ∧ w.store.dict (w.key t) = some n) ∧
    (∀ k p, w.store.objs k = some p → ∃ t ∈ w.dictH, p = some t) := by
  obtain ⟨ht, _⟩ := h.tidy
  refine ⟨fun t h1 n hn => ⟨?_, ?_⟩, fun k p hk => ?_⟩
  · rw [Store.checkByName, (ht.inv n _).2 ⟨t, ht.sub t h1, rfl, hn⟩]; rfl
  · exact (ht.dict _ n).2 ⟨t, ht.sub t h1, rfl, hn⟩
  · obtain ⟨t, h1, _, h2⟩ := (ht.objs k p).1 hk
    exact ⟨t, h1, h2⟩

/-- Overwriting the last handle on `a` leaves its dictionary entries, and dropping everything else
does not help. -/
theorem C31_assign_counterexample :
    ∃ w, World.run World.init [.create "a" 0x555555581eb0, .create "b" 0x555555581f90, .assign 0 1,
        .drop 0, .drop 0] = .ok w ∧
      w.handles = [] ∧ w.store.checkByName "a" = true ∧ w.dictH = [0] := by
  refine ⟨_, rfl, ?_, ?_, ?_⟩ <;> decide +kernel

/-- Colliding addresses: after dropping `b`, the name `a` points to a key without an entry although
`a` is held. -/
theorem C31_collision_counterexample :
    ∃ w, World.run World.init [.create "a" 0x555555581eb0, .create "b" 0x555655581eb0, .drop 1] = .ok w ∧
      w.handles = [0] ∧ w.store.check (w.key 0) = false ∧ w.store.checkByName "a" = true := by
  refine ⟨_, rfl, ?_, ?_, ?_⟩ <;> decide +kernel

/-! ## C36 -/

/-- With both or none of `name` and `^name` in the dictionary, mentioning a held operation again
returns it; missing: the other two cases, which are wrong. -/
theorem C36_interning_partial {asg : Bool} {w : World} (h : Reach asg w) (n : String) {a : Word}
    (ha : FreshAddr w a) (hg : w.store.checkByName n = w.store.checkByName ("^" ++ n)) :
    ∃ w' r, w.operation n a = .ok w' ∧ w'.handles = w.handles ++ [r] ∧
      w'.nameOf r = some ("^" ++ n) ∧
      ∀ t ∈ w.handles, (r = t ↔ w.nameOf t = some ("^" ++ n)) := by
  obtain ⟨w', h1, _, _, r, h2, h3, h4, h5⟩ := step_operation h.tidy.1 (n := n) ha hg
  refine ⟨w', r, h1, h2, h3, fun t ht => ?_⟩
  have htd := h.tidy.1.sub t ht
  refine ⟨?_, h5 t htd⟩
  rintro rfl
  rw [← h4 r htd, h3]

/-- An ordinary term called `go` is held and `^go` is not: mentioning `^go` reads a null pointer. -/
theorem C36_null_counterexample :
    World.run World.init [.create "go" 0x555555581eb0, .operation "go" 0x555555581f90] = .ub := by
  rfl

/-- `^go` is mentioned twice: two different operations, and the name belongs to the second. -/
theorem C36_twice_counterexample :
    ∃ w, World.run World.init [.operation "go" 0x555555581eb0, .operation "go" 0x555555581f90] = .ok w ∧
      w.handles = [0, 1] ∧ w.nameOf 0 = some "^go" ∧ w.nameOf 1 = some "^go" ∧
      w.store.inv "^go" = some (w.key 1) := by
  refine ⟨_, rfl, ?_, ?_, ?_, ?_⟩ <;> decide +kernel

/-- The case in which it works: the operation, an ordinary term of the same name, the operation
again. -/
example : ∃ w, World.run World.init [.operation "go" 0x555555581eb0, .create "go" 0x555555581f90,
    .operation "go" 0x555555582070] = .ok w ∧ w.handles = [0, 1, 0] := by
  refine ⟨_, rfl, ?_⟩; decide +kernel

end Cnars.Props
