import Verif.Interp.SharedLemmas

/-!
# C94: what a Python program refers to

Variables of a program keep statements, compounds and atoms, and these keep their parts.  Model: `Interp/Shared.lean`.
-/

namespace Cnars.Props
open Cnars.Shared

/-- Every operation is defined: no handle is counted below zero, nothing is used after it was deleted.  Programs
of any length and terms of any depth.  Missing: addresses that collide in the low 32 bits, operations of which
one name is known (C36), and elements of `terms` of a compound that is gone, see the counterexample. -/
theorem C94_defined_partial {g : Graph} (h : Reached g) {op : Op} (ha : Permitted g op) : ∃ g', g.step op = .ok g' :=
  let ⟨g', h1, _⟩ := h.tally.1.step h.tally.2 ha
  ⟨g', h1⟩

/-- A name is known exactly while some variable keeps a term that contains it, at whatever depth.  The object that
the name stands for is that atom.  Missing: as above. -/
theorem C94_known_partial {g : Graph} (h : Reached g) :
    (∀ n, g.world.store.checkByName n = true ↔ ∃ j, Holds g (.atom j) ∧ g.world.nameOf j = some n) ∧
    (∀ k p, g.world.store.objs k = some p ↔ ∃ j, Holds g (.atom j) ∧ g.world.key j = k ∧ p = some j) := by
  obtain ⟨h1, _, h3, _⟩ := C31_entries_partial h.tally.1.reach
  have ha := fun {j} => h.tally.1.atoms (j := j)
  refine ⟨fun n => (h1 n).trans ?_, fun k p => (h3 k p).trans ?_⟩ <;> simp only [ha]

/-- The count of every object is the number of variables and of members of objects that refer to it.  It is
positive exactly while some variable keeps the object. -/
theorem C94_counts_partial {g : Graph} (h : Reached g) {i : Nat} {n : Node} (hn : g.nodes[i]? = some n) :
    n.uses = g.vars.count (.own (.obj i)) + (g.nodes.map fun m => m.members.count (.obj i)).sum ∧
    (n.uses ≠ 0 ↔ Holds g (.obj i)) := by
  refine ⟨?_, h.tally.1.alive hn⟩
  rw [h.tally.1.uses i n hn, Graph.all, List.nil_append, List.count_append, Graph.inner, List.count_flatMap]
  congr 1
  rw [Graph.owned]
  generalize g.vars = vs
  induction vs with
  | nil => rfl
  | cons v vs ih =>
    cases v with
    | own r =>
      rw [List.filterMap_cons]
      simp only [Var.own?, List.count_cons, ih, beq_iff_eq, Var.own.injEq]
    | borrow k m =>
      rw [List.filterMap_cons]
      simp only [Var.own?, List.count_cons, ih, beq_iff_eq, reduceCtorEq, if_false, Nat.add_zero]

/-- What a program keeps does not change, whatever else it makes and drops: a term that there was, and that is
still kept, was kept all the time, and has the parts that it had, with the names that they had. -/
theorem C94_stays_partial {g g' : Graph} (h : Reached g) (hl : Later g g') :
    (∀ (i : Nat) (n n' : Node), g.nodes[i]? = some n → g'.nodes[i]? = some n' → Holds g' (.obj i) →
      Holds g (.obj i) ∧ n'.kind = n.kind ∧ n'.members = n.members) ∧
    (∀ i, i < g.nodes.length → Holds g' (.obj i) → ∀ path, g'.follow (.obj i) path = g.follow (.obj i) path) ∧
    (∀ j n, g.world.nameOf j = some n → g'.world.nameOf j = some n) := by
  obtain ⟨h', hk⟩ := h.later hl
  have one : ∀ (i : Nat) (n n' : Node), g.nodes[i]? = some n → g'.nodes[i]? = some n' → Holds g' (.obj i) →
      Holds g (.obj i) ∧ n'.kind = n.kind ∧ n'.members = n.members := by
    intro i n n' hn hn' hh
    obtain ⟨m, k1, k2, k3, k4⟩ := hk.same i n' (List.getElem?_eq_some_iff.mp hn).1 hn' ((h'.tally.1.alive hn').mpr hh)
    rw [hn] at k1
    cases k1
    exact ⟨(h.tally.1.alive hn).mp k2, k3, k4⟩
  refine ⟨one, ?_, ?_⟩
  · intro i hi hh path
    induction path generalizing i with
    | nil => rfl
    | cons m path ih =>
      have hi' : i < g'.nodes.length := Nat.lt_of_lt_of_le hi hk.nodes
      have hn := List.getElem?_eq_getElem hi
      have hn' := List.getElem?_eq_getElem hi'
      obtain ⟨_, _, e⟩ := one i _ _ hn hn' hh
      rw [Graph.follow, Graph.follow, hn, hn']
      simp only [e]
      cases hm : g.nodes[i].members[m]? with
      | none => rfl
      | some r =>
        cases r with
        | atom j => cases path <;> simp only [Graph.follow]
        | obj j =>
          have hj := h.tally.1.down i _ hn j (List.mem_of_getElem? hm)
          exact ih j (by omega) (.member hh hn' (by rw [e]; exact List.mem_of_getElem? hm))
  · intro j n hj
    obtain ⟨l, hl⟩ := hk.atoms
    unfold World.nameOf at hj ⊢
    rw [← hl]
    cases hx : g.world.atoms[j]? with
    | none => rw [hx] at hj; cases hj
    | some x =>
      rw [List.getElem?_append_left (List.getElem?_eq_some_iff.mp hx).1, hx]
      rw [hx] at hj
      exact hj

/-- When no variable owns anything, everything was deleted and no name is known. -/
theorem C94_freed_partial {g : Graph} (h : Reached g) (hv : ∀ r, .own r ∉ g.vars) :
    (∀ n ∈ g.nodes, n.uses = 0 ∧ n.members = []) ∧ g.world.handles = [] ∧ g.world.dictH = [] ∧
    (∀ n, g.world.store.checkByName n = false) ∧ (∀ k, g.world.store.objs k = none) := by
  have hno : ∀ r, ¬ Holds g r := by
    intro r hr
    induction hr with
    | var h => exact hv _ h
    | member _ _ _ ih => exact ih
  have hh : g.world.handles = [] :=
    List.eq_nil_iff_forall_not_mem.mpr fun j hj => hno _ (h.tally.1.atoms.mp hj)
  obtain ⟨k1, k2⟩ := C94_known_partial h
  refine ⟨fun n hn => ?_, hh, ?_, fun n => ?_, fun k => ?_⟩
  · obtain ⟨i, hi⟩ := List.mem_iff_getElem?.mp hn
    have h0 : n.uses = 0 := by
      by_contra h0
      exact hno _ ((h.tally.1.alive hi).mp h0)
    exact ⟨h0, h.tally.1.dead i n hi h0⟩
  · refine List.eq_nil_iff_forall_not_mem.mpr fun j hj => ?_
    have := h.tally.1.reach.tidy.2 rfl j hj
    rw [hh] at this
    cases this
  · rw [← Bool.not_eq_true, k1]
    rintro ⟨j, hj, _⟩
    exact hno _ hj
  · cases hk : g.world.store.objs k with
    | none => rfl
    | some p =>
      obtain ⟨j, hj, _⟩ := (k2 k p).mp hk
      exact (hno _ hj).elim

/-- Does not ask a compound for its `terms`. -/
def AsksNoCompound (g : Graph) : Op → Prop
  | .terms k path => ∀ (i : Nat) (n : Node), g.get k path = .ok (some (.obj i)) → g.nodes[i]? = some n → n.kind ≠ .compound
  | _ => True

/-- The addresses are fresh and an operation is known under both names or none. -/
def FreshAndPaired (g : Graph) : Op → Prop
  | .create _ a => FreshAddr g.world a
  | .operation n a => FreshAddr g.world a ∧ g.world.store.checkByName n = g.world.store.checkByName ("^" ++ n)
  | _ => True

/-- The programs that ask no compound for its `terms`. -/
inductive Owning : Graph → Prop where
  | init : Owning Graph.init
  | step {g g' : Graph} (op : Op) : Owning g → FreshAndPaired g op → AsksNoCompound g op → g.step op = .ok g' → Owning g'

/-- A program that asks no compound for its `terms` may do with its variables what it likes: copies, `subject`,
`predicate` and the `terms` of statements keep what they refer to. -/
theorem C94_owning_partial {g : Graph} (h : Owning g) {op : Op} (hp : FreshAndPaired g op) :
    Reached g ∧ ∃ g', g.step op = .ok g' := by
  have key : ∀ {g : Graph} {op : Op}, (∀ v ∈ g.vars, ∃ r, v = .own r) → FreshAndPaired g op → Permitted g op := by
    intro g op hv hp
    have hu : ∀ k, Usable g k := fun k i m e => by
      obtain ⟨r, hr⟩ := hv _ (List.mem_of_getElem? e)
      cases hr
    cases op with
    | create n a => exact hp
    | operation n a => exact hp
    | build kind srcs => exact fun s _ => hu s.1
    | take k path => exact hu k
    | terms k path => exact hu k
    | drop k => trivial
  suffices hh : Reached g ∧ ∀ v ∈ g.vars, ∃ r, v = .own r from ⟨hh.1, C94_defined_partial hh.1 (key hh.2 hp)⟩
  clear hp op
  induction h with
  | init => exact ⟨.init, fun v hv => nomatch hv⟩
  | @step g g' op _ hp hpl hs ih =>
    refine ⟨.step op ih.1 (key ih.2 hp) hs, ?_⟩
    intro v hv
    cases v with
    | own r => exact ⟨r, rfl⟩
    | borrow i m =>
      rcases step_borrow hs hv with hb | ⟨k, path, n, rfl, h1, h2, h3⟩
      · obtain ⟨r, hr⟩ := ih.2 _ hb
        cases hr
      · exact (hpl i n h1 h2 h3).elim

/-- The program of the counterexample. -/
private def borrowed : List Op :=
  [.create "A" 0x555555581eb0, .create "B" 0x555555581f90, .build .compound [(0, []), (1, [])], .terms 2 [], .drop 2]

/-- The elements of `terms` of a compound do not keep the compound, nor themselves: `x, y = Compound(…).terms` and
then any use of `x` reads memory that was freed. -/
theorem C94_terms_counterexample :
    (∃ g, Graph.run .init borrowed = .ok g ∧ Reached g ∧ g.vars[2]? = some (.borrow 0 0)) ∧
    Graph.run .init (borrowed ++ [.take 2 []]) = .ub := by
  refine ⟨⟨_, rfl, Reached.tested (ops := borrowed) .init rfl, by decide +kernel⟩, rfl⟩

/-! ## Cases -/

/-- `a`, `b`, a statement with both, a compound with that statement and `a`; the compound alone is kept.  Its part
`[0, 1]` is `b`. -/
private def nested : List Op :=
  [.create "a" 0x555555581eb0, .create "b" 0x555555581f90, .build .statement [(0, []), (1, [])],
   .build .compound [(2, []), (0, [])], .drop 2, .drop 1, .drop 0]

/-- Both names are known, the counts are one, three handles on atoms are left, all in objects. -/
example : ∃ g, Graph.run .init nested = .ok g ∧ Reached g ∧ g.vars = [.own (.obj 1)] ∧
    g.nodes.map (·.uses) = [1, 1] ∧ g.world.handles.length = 3 ∧ g.world.store.checkByName "a" = true ∧
    g.world.store.checkByName "b" = true ∧ g.follow (.obj 1) [0, 1] = some (.atom 1) :=
  ⟨_, rfl, Reached.tested (ops := nested) .init rfl, by decide +kernel, by decide +kernel, by decide +kernel,
    by decide +kernel, by decide +kernel, by decide +kernel⟩

/-- The predicate of the statement in it is taken and the compound dropped: `b` is known, `a` is not. -/
example : ∃ g, Graph.run .init (nested ++ [.take 0 [0, 1], .drop 0]) = .ok g ∧ Reached g ∧
    g.vars = [.own (.atom 1)] ∧ g.nodes.map (·.uses) = [0, 0] ∧
    g.world.store.checkByName "a" = false ∧ g.world.store.checkByName "b" = true :=
  ⟨_, rfl, Reached.tested (ops := nested ++ [.take 0 [0, 1], .drop 0]) .init rfl, by decide +kernel, by decide +kernel,
    by decide +kernel, by decide +kernel⟩

/-- Everything dropped. -/
example : ∃ g, Graph.run .init (nested ++ [.terms 0 [0], .drop 0, .drop 0, .drop 0]) = .ok g ∧ Reached g ∧
    g.vars = [] ∧ g.nodes.length = 2 ∧ g.world.atoms.length = 2 :=
  ⟨_, rfl, Reached.tested (ops := nested ++ [.terms 0 [0], .drop 0, .drop 0, .drop 0]) .init rfl, by decide +kernel,
    by decide +kernel, by decide +kernel⟩

/-- The elements of a compound that is kept can be used. -/
example : ∃ g, Graph.run .init (nested ++ [.terms 0 []]) = .ok g ∧ Reached g ∧ Permitted g (.take 1 [0]) ∧
    g.vars[1]? = some (.borrow 1 0) := by
  have hr := Reached.tested (ops := nested ++ [.terms 0 []]) .init rfl
  exact ⟨_, rfl, hr, permitted_spec hr.tally.1 (by decide +kernel), by decide +kernel⟩

/-- The program `nested` asks no compound; it asks the statement in the compound for its terms and goes on. -/
example : ∃ g, Graph.run .init (nested ++ [.terms 0 [0]]) = .ok g ∧ Owning g ∧ FreshAndPaired g (.drop 0) ∧
    g.vars = [.own (.obj 1), .own (.atom 0), .own (.atom 1)] := by
  have h1 := Owning.step (.create "a" 0x555555581eb0) .init (fresh_spec (by decide +kernel)) trivial rfl
  have h2 := Owning.step (.create "b" 0x555555581f90) h1 (fresh_spec (by decide +kernel)) trivial rfl
  have h3 := Owning.step (.build .statement [(0, []), (1, [])]) h2 trivial trivial rfl
  have h4 := Owning.step (.build .compound [(2, []), (0, [])]) h3 trivial trivial rfl
  have h5 := Owning.step (.drop 2) h4 trivial trivial rfl
  have h6 := Owning.step (.drop 1) h5 trivial trivial rfl
  have h7 := Owning.step (.drop 0) h6 trivial trivial rfl
  refine ⟨_, rfl, Owning.step (.terms 0 [0]) h7 trivial ?_ rfl, trivial, by decide +kernel⟩
  intro i n h1 h2
  cases (show (Res.ok (some (Ref.obj 0))) = .ok (some (.obj i)) from h1)
  cases (show some (⟨.statement, 1, _⟩ : Node) = some n from h2)
  simp

/-- Two states of one program. -/
example : ∃ g g', Reached g ∧ Later g g' ∧ Holds g' (.obj 0) ∧ ¬ Holds g' (.obj 1) ∧ g.nodes.length = 2 := by
  have hr := Reached.tested (ops := nested) .init rfl
  have hl := Later.tested (ops := [.take 0 [0], .drop 0]) hr (.refl _) rfl
  refine ⟨_, _, hr, hl, .var (by decide +kernel), ?_, by decide +kernel⟩
  rw [← (hr.later hl).1.tally.1.alive (i := 1) (n := ⟨.compound, 0, []⟩) rfl]
  simp

end Cnars.Props
