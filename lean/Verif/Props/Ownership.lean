import Verif.Parser.MemorySim
import Verif.Props.Handles

/-!
# C81, C82: every object made while a line is read is given back once
-/

namespace Cnars.Props
open Cnars Cnars.Parser Cnars.Term

/-! ### C81 -/

/-- The objects of a task: the task, its budget, its sentence, the stamp of that and, if it has one,
its truth value.  The sentence is of a subclass of `Sentence`. -/
inductive TaskCells (t : Task) : Mem.Ptr → List (Nat × Mem.Obj) → Prop where
  | asked (n b k m : Nat) : t.sentence.truth = none →
      t.sentence.cls ≠ .sentence → TaskCells t (.obj n)
      [(n, .task (.obj b) (.obj k)), (b, .budget t.budget),
        (k, .sentence t.sentence.cls t.sentence.term t.sentence.punct .null (.obj m)),
        (m, .stamp t.sentence.stamp)]
  | believed (n b k m j : Nat) (tr : Truth ℚ) : t.sentence.truth = some tr →
      t.sentence.cls ≠ .sentence → TaskCells t (.obj n)
      [(n, .task (.obj b) (.obj k)), (b, .budget t.budget),
        (k, .sentence t.sentence.cls t.sentence.term t.sentence.punct (.obj j) (.obj m)),
        (m, .stamp t.sentence.stamp), (j, .truth tr)]

theorem taskCells_iff {p : Mem.Ptr} {t : Task} {fp : Mem.Fp} :
    Mem.Rep p (.task t) fp ↔ TaskCells t p fp := by
  constructor
  · intro h
    cases h with
    | task n b s _ fp hs =>
      cases hs with
      | asked k m _ hn hc => exact .asked n b k m hn hc
      | believed k m j _ tr hn hc => exact .believed n b k m j tr hn hc
  · intro h
    cases h with
    | asked n b k m hn hc => exact .task n b _ t _ (.asked k m _ hn hc)
    | believed n b k m j tr hn hc => exact .task n b _ t _ (.believed k m j _ tr hn hc)

theorem sim_of_line {b : Buf} (hb : Reached b) {d : Nat} (hd : d < 3) {strict : Bool} {fuel : Nat}
    {text : List WChar} {r : Parsed} (h : parseText strict fuel b text d = .ok r) {a : List Ast}
    (ha : r.ast = some a) (M : Mach) {fit : Mem.Cls → Mem.Cls → Bool} (hfit : ∀ c, fit c c = true)
    (hm : Mem.MarksFit fit (emitsAll a)) :
    Mem.Sim [] (evalTask M undefined a) (Mem.evalTask M fit a) fun p t fp => TaskCells t p fp := by
  obtain ⟨x, rfl, hx, ht⟩ := narsese_typed (C43_tree hb hd h ha)
  have hm' : Mem.MarksFit fit x.emits := by simpa [emitsAll] using hm
  exact (Mem.sim_evalTask hfit hx ht hm').mono fun p t fp h => taskCells_iff.mp h

/-- C81: reading an accepted line with its `new`s and `delete`s.  Whatever the state and whatever else
is on the heap, it ends like reading it without them, so nothing is read or deleted that is not there
or not what it is read as; the objects from before are as they were; if a task is returned, its
objects are the only new ones; so no argument vector, no string, number, mark or term that was passed
between the actions is left, and none was deleted twice. -/
theorem C81_line {b : Buf} (hb : Reached b) {d : Nat} (hd : d < 3) {strict : Bool} {fuel : Nat}
    {text : List WChar} {r : Parsed} (h : parseText strict fuel b text d = .ok r) {a : List Ast}
    (ha : r.ast = some a) (M : Mach) {fit : Mem.Cls → Mem.Cls → Bool} (hfit : ∀ c, fit c c = true)
    (h1 : fit .tupleInt .tupleVoid = true) (h2 : fit .tupleTruth .tupleVoid = true) {s : Mem.St}
    (hs : (s.heap.cells.map (·.1)).Nodup) (hn : ∀ c ∈ s.heap.cells, c.1 < s.heap.next) :
    (∀ p s', Mem.evalTask M fit a s = (.ok p, s') → ∃ t cells,
      evalTask M undefined a s.env = (.ok t, s'.env) ∧ TaskCells t p cells ∧
      s'.heap.cells.Perm (cells ++ s.heap.cells) ∧ (s'.heap.cells.map (·.1)).Nodup ∧
      ∀ c ∈ s'.heap.cells, c.1 < s'.heap.next) ∧
    (∀ m s', Mem.evalTask M fit a s = (.throw m, s') →
      evalTask M undefined a s.env = (.throw m, s'.env) ∧
      ∃ left, s'.heap.cells.Perm (left ++ s.heap.cells)) ∧
    (∀ s', Mem.evalTask M fit a s = (.ub, s') → evalTask M undefined a s.env = (.ub, s'.env)) := by
  have hsim := sim_of_line hb hd h ha M hfit ⟨fun _ _ _ => h1, fun _ _ _ => h2⟩ s.heap.cells s
    ⟨hs, hn⟩ (List.Perm.refl _)
  generalize evalTask M undefined a s.env = o at hsim ⊢
  generalize Mem.evalTask M fit a s = o' at hsim ⊢
  obtain ⟨r1, e⟩ := o
  obtain ⟨r2, s2⟩ := o'
  refine ⟨?_, ?_, ?_⟩
  · rintro p s' ⟨⟩
    cases r1 <;> try exact hsim.elim
    obtain ⟨rfl, hw, fp, hp, ht⟩ := hsim
    exact ⟨_, fp, rfl, ht, hp, hw.nodup, hw.below⟩
  · rintro m s' ⟨⟩
    cases r1 <;> try exact hsim.elim
    obtain ⟨rfl, rfl, hw, fp, hp⟩ := hsim
    exact ⟨rfl, fp, hp⟩
  · rintro s' ⟨⟩
    cases r1 <;> try exact hsim.elim
    obtain rfl := hsim
    rfl

/-- C81, the end of the task, as far as it goes: if the task is read as in C79 and the classes under
which objects are deleted do not matter (see C82), then when the last pointer to the task goes, all
of its objects are deleted and nothing else, and the names are held as before the line was read.
Missing from the full statement: what is missing from C79; lines during which an action throws, see
the counterexample. -/
theorem C81_end_partial {b : Buf} (hb : Reached b) {d : Nat} (hd : d < 3) {strict : Bool}
    {fuel : Nat} {text : List WChar} {r : Parsed} (h : parseText strict fuel b text d = .ok r)
    {a : List Ast} (ha : r.ast = some a) {M : Mach} (hord : ∀ l, (M.ord l).Perm l) {N : Nat}
    (hM : FreshBelow M N) {fit : Mem.Cls → Mem.Cls → Bool} (hfit : ∀ c c', fit c c' = true)
    {s : Mem.St} (hs : (s.heap.cells.map (·.1)).Nodup) (hn : ∀ c ∈ s.heap.cells, c.1 < s.heap.next)
    {p : Mem.Ptr} {s' : Mem.St} (he : Mem.evalTask M fit a s = (.ok p, s'))
    (hw : Reach false s.env.world)
    (hN : s.env.world.dictH.length + (Ast.mentionsAll a).length ≤ N)
    (hops : Paired s.env.world [] (Ast.mentionsAll a)) :
    ∃ s'', Mem.dropTask fit p s' = (.ok (), s'') ∧ s''.heap.cells.Perm s.heap.cells ∧
      s''.env.world.handles.Perm s.env.world.handles ∧
      ∀ n, s''.env.world.store.checkByName n = s.env.world.store.checkByName n := by
  obtain ⟨t, cells, h1, h2, h3, h4, h5⟩ :=
    (C81_line hb hd h ha M (fun c => hfit c c) (hfit _ _) (hfit _ _) hs hn).1 p s' he
  obtain ⟨_, _, ⟨w, k1, _, k3, k4⟩, _⟩ := C79_handles_partial hb hd h ha hord hM h1 hw hN hops
  have hd := Mem.sim_dropTask hfit (taskCells_iff.mpr h2) s.heap.cells s' ⟨h4, h5⟩ h3
  have hx : Act.onWorld (fun w => (addrs t.sentence.term).foldlM (fun w a => dropAddr a w) w) s'.env
      = (.ok (), { s'.env with world := w }) := by
    simp only [Act.onWorld, k1]
  rw [hx] at hd
  generalize Mem.dropTask fit p s' = o' at hd ⊢
  obtain ⟨r2, s2⟩ := o'
  cases r2 <;> try exact hd.elim
  obtain ⟨e1, _, fp, e2, rfl⟩ := hd
  refine ⟨s2, rfl, by simpa using e2, ?_⟩
  rw [e1]
  exact ⟨k3, k4⟩

/-- An empty heap. -/
def noHeap : Mem.St := ⟨⟨[], 0⟩, env0⟩

/-- What reading a tree leaves on an empty heap. -/
def leftBy (M : Mach) (fit : Mem.Cls → Mem.Cls → Bool) (tree : List Ast) :
    Option (Bool × List Mem.Cls) :=
  match Mem.evalTask M fit tree noHeap with
  | (.ok _, s) => some (true, s.heap.cells.map (·.2.cls))
  | (.throw _, s) => some (false, s.heap.cells.map (·.2.cls))
  | _ => none

/-- `$0.5$ <A --> (*,B,+1)>. :|: %0.9%` -/
def ownedText : List Char := ['$', '0', '.', '5', '$', ' ', '<', 'A', ' ', '-', '-', '>', ' ', '(', '*',
  ',', 'B', ',', '+', '1', ')', '>', '.', ' ', ':', '|', ':', ' ', '%', '0', '.', '9', '%']

/-- The hypotheses of C81 are met, and of all that is made for this line … -/
example : (ownedText ≠ [] ∧ ∀ c, Mem.layout c c = true) ∧ Mem.layout .tupleInt .tupleVoid = true ∧
    Mem.layout .tupleTruth .tupleVoid = true ∧
    accepted? (parseText true 1000 freshBuf (bytes ownedText) 0) = true :=
  ⟨⟨by decide, fun c => by simp [Mem.layout]⟩, rfl, rfl, by decide +kernel⟩

/-- … this is left; a question has no truth value. -/
example : leftBy roomy Mem.layout (treeOf ownedText) =
      some (true, [.task, .budget, .sentence .judgement, .truth, .stamp]) ∧
    leftBy roomy Mem.layout (treeOf ['A', '?', ':', '|', ':']) =
      some (true, [.task, .budget, .sentence .question, .stamp]) := by decide +kernel

/-- And after the end of the task nothing. -/
example : (match Mem.evalTask roomy (fun _ _ => true) (treeOf ownedText) noHeap with
    | (.ok p, s) =>
      match Mem.dropTask (fun _ _ => true) p s with
      | (.ok _, s) => some (s.heap.cells.map (·.1), s.env.world.handles)
      | _ => none
    | _ => none) = some ([], []) := by decide +kernel

/-- The further hypotheses of `C81_end_partial` are met by this line. -/
example : Paired env0.world [] (Ast.mentionsAll (treeOf ownedText)) ∧
    env0.world.dictH.length + (Ast.mentionsAll (treeOf ownedText)).length ≤ 2 ^ 26 ∧
    Reach false env0.world := by
  have h1 : paired env0.world [] (Ast.mentionsAll (treeOf ownedText)) = true := by decide +kernel
  have h2 : env0.world.dictH.length + (Ast.mentionsAll (treeOf ownedText)).length = 3 := by
    decide +kernel
  generalize Ast.mentionsAll (treeOf ownedText) = ms at h1 h2
  exact ⟨paired_sound h1, by omega, .init⟩

/-- `<A-->+10…0>.`, with 350 zeros -/
def hugeText : List Char := ['<', 'A', '-', '-', '>', '+', '1'] ++ List.replicate 350 '0' ++ ['>', '.']

/-- C81 is false: the line is accepted, `std::stod` throws, and the five argument vectors and the
`pTerm` for `A` that were made before are never deleted; so `A` is known for ever. -/
theorem C81_leak_counterexample :
    accepted? (parseText true 1000 freshBuf (bytes hugeText) 0) = true ∧
    leftBy roomy Mem.layout (treeOf hugeText) =
      some (false, [.args, .args, .handle, .args, .args, .args]) := by decide +kernel

/-! ### C82 -/

/-- The names of nodes for tense and truth value. -/
def markNames : List Emit := [.truth, .tense_time, .tense_future, .tense_present, .tense_past]

/-- C82, as far as it goes: while a line without tense and truth value is read, every object is
deleted as what it was created as.  Missing from the full statement: lines with tense or truth value,
and the end of the task, see the counterexamples. -/
theorem C82_line_partial {b : Buf} (hb : Reached b) {d : Nat} (hd : d < 3) {strict : Bool} {fuel : Nat}
    {text : List WChar} {r : Parsed} (h : parseText strict fuel b text d = .ok r) {a : List Ast}
    (ha : r.ast = some a) (hm : ∀ e ∈ emitsAll a, e ∉ markNames) (M : Mach) {s s' : Mem.St}
    (hs : (s.heap.cells.map (·.1)).Nodup) (hn : ∀ c ∈ s.heap.cells, c.1 < s.heap.next)
    (he : Mem.evalTask M Mem.exact a s = (.ub, s')) :
    evalTask M undefined a s.env = (.ub, s'.env) := by
  have hmk : ∀ e : Emit, e.res = .tense ∨ e.res = .truth → e ∈ markNames := by
    intro e; cases e <;> simp [Emit.res, markNames]
  have hsim := sim_of_line hb hd h ha M (fit := Mem.exact) (fun c => by simp [Mem.exact])
    ⟨fun e he ht => absurd (hmk e (.inl ht)) (hm e he),
      fun e he ht => absurd (hmk e (.inr ht)) (hm e he)⟩ s.heap.cells s ⟨hs, hn⟩ (List.Perm.refl _)
  rw [he] at hsim
  generalize evalTask M undefined a s.env = o at hsim ⊢
  obtain ⟨r1, e⟩ := o
  cases r1 <;> try exact hsim.elim
  obtain rfl := hsim
  rfl

/-- There are such lines. -/
example : (∀ e ∈ emitsAll (treeOf ['(', '*', ',', 'A', ',', '+', '1', ')', '!']), e ∉ markNames) ∧
    leftBy roomy Mem.exact (treeOf ['(', '*', ',', 'A', ',', '+', '1', ')', '!']) =
      some (true, [.task, .budget, .sentence .goal, .truth, .stamp]) := by decide +kernel

/-- C82 is false, 1: the pairs for tense and truth value, created as `std::tuple<int, signed int *>`
and `std::tuple<int, Truth *>`, are read and deleted as `std::tuple<int, void *>`. -/
theorem C82_marks_counterexample :
    leftBy roomy Mem.exact (treeOf ['A', '.', ':', '|', ':']) = none ∧
    leftBy roomy Mem.exact (treeOf ['A', '.', '%', '1', '%']) = none ∧
    leftBy roomy Mem.layout (treeOf ['A', '.', ':', '|', ':']) =
      some (true, [.task, .budget, .sentence .judgement, .truth, .stamp]) ∧
    leftBy roomy Mem.layout (treeOf ['A', '.', '%', '1', '%']) =
      some (true, [.task, .budget, .sentence .judgement, .truth, .stamp]) := by decide +kernel

/-- C82 is false, 2: no task that was read can end properly, because its sentence, a `Judgement`,
`Question`, `Goal` or `Quest`, is deleted as a `Sentence` without virtual destructor. -/
theorem C82_end_counterexample {b : Buf} (hb : Reached b) {d : Nat} (hd : d < 3) {strict : Bool}
    {fuel : Nat} {text : List WChar} {r : Parsed} (h : parseText strict fuel b text d = .ok r)
    {a : List Ast} (ha : r.ast = some a) (M : Mach) {s s' s'' : Mem.St}
    (hs : (s.heap.cells.map (·.1)).Nodup) (hn : ∀ c ∈ s.heap.cells, c.1 < s.heap.next) {p : Mem.Ptr}
    (he : Mem.evalTask M Mem.layout a s = (.ok p, s')) : Mem.dropTask Mem.exact p s' ≠ (.ok (), s'') := by
  obtain ⟨t, cells, h1, h2, h3, h4, h5⟩ := (C81_line hb hd h ha M (fit := Mem.layout)
    (fun c => by simp [Mem.layout]) rfl rfl hs hn).1 p s' he
  have hc : t.sentence.cls ≠ .sentence := by
    cases h2 <;> assumption
  obtain ⟨x, hx⟩ := Mem.sim_dropTask_bad (fit := Mem.exact) (fun c => by simp [Mem.exact])
    (taskCells_iff.mpr h2) (.inl (by simpa [Mem.exact] using hc))
  intro hd
  have := hx s.heap.cells s' ⟨h4, h5⟩ h3
  rw [hd] at this
  generalize x s'.env = o at this
  obtain ⟨r1, e⟩ := o
  cases r1 <;> first | exact this.elim | exact (this.2.2.elim fun _ h => h.2)

/-- C82 is false, 3: not even if it does not matter that a tuple of another type is deleted, or an
object of a class that only adds constructors to `Sentence`: the terms of the task, unless they are
atoms, are deleted as `Term`s without virtual destructor. -/
theorem C82_terms_counterexample {b : Buf} (hb : Reached b) {d : Nat} (hd : d < 3) {strict : Bool}
    {fuel : Nat} {text : List WChar} {r : Parsed} (h : parseText strict fuel b text d = .ok r)
    {a : List Ast} (ha : r.ast = some a) (M : Mach) {s s' s'' : Mem.St}
    (hs : (s.heap.cells.map (·.1)).Nodup) (hn : ∀ c ∈ s.heap.cells, c.1 < s.heap.next) {p : Mem.Ptr}
    (he : Mem.evalTask M Mem.layout a s = (.ok p, s')) (hd' : Mem.dropTask Mem.layout p s' = (.ok (), s'')) :
    ∃ t, evalTask M undefined a s.env = (.ok t, s'.env) ∧ t.sentence.cls ≠ .goal ∧
      ∃ x i, t.sentence.term = .atom x i := by
  obtain ⟨t, cells, h1, h2, h3, h4, h5⟩ := (C81_line hb hd h ha M (fit := Mem.layout)
    (fun c => by simp [Mem.layout]) rfl rfl hs hn).1 p s' he
  have hbad : ¬ (Mem.layout (.sentence t.sentence.cls) (.sentence .sentence) = false ∨
      ∃ c ∈ Mem.classes t.sentence.term, Mem.layout (.term c) (.term .term) = false) := by
    intro hb
    obtain ⟨x, hx⟩ := Mem.sim_dropTask_bad (fit := Mem.layout) (fun c => by simp [Mem.layout])
      (taskCells_iff.mpr h2) hb
    have := hx s.heap.cells s' ⟨h4, h5⟩ h3
    rw [hd'] at this
    generalize x s'.env = o at this
    obtain ⟨r1, e⟩ := o
    cases r1 <;> first | exact this.elim | exact (this.2.2.elim fun _ h => h.2)
  refine ⟨t, h1, fun hg => hbad (.inl (by rw [hg]; rfl)), ?_⟩
  cases ht : t.sentence.term with
  | atom x i => exact ⟨x, i, rfl⟩
  | stmt =>
    rw [ht] at hbad
    exact (hbad (.inr ⟨.statement, by simp [Mem.classes], rfl⟩)).elim
  | comp =>
    rw [ht] at hbad
    exact (hbad (.inr ⟨.compound, by simp [Mem.classes], rfl⟩)).elim
  | interval =>
    rw [ht] at hbad
    exact (hbad (.inr ⟨.interval, by simp [Mem.classes], rfl⟩)).elim
  | var =>
    rw [ht] at hbad
    exact (hbad (.inr ⟨.variable, by simp [Mem.classes], rfl⟩)).elim

/-- Read and dropped on an empty heap. -/
def endOf (M : Mach) (fit : Mem.Cls → Mem.Cls → Bool) (tree : List Ast) : Option Bool :=
  match Mem.evalTask M Mem.layout tree noHeap with
  | (.ok p, s) => match Mem.dropTask fit p s with
    | (.ok _, s) => some s.heap.cells.isEmpty
    | _ => some false
  | _ => none

/-- Tasks that end in these ways. -/
example : endOf roomy Mem.layout (treeOf ['A', '.']) = some true ∧
    endOf roomy Mem.exact (treeOf ['A', '.']) = some false ∧
    endOf roomy Mem.layout (treeOf ['A', '!']) = some false ∧
    endOf roomy Mem.layout (treeOf ['<', 'A', '-', '-', '>', '#', 'x', '>', '.']) = some false := by decide +kernel

end Cnars.Props
