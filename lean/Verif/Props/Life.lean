import Verif.Parser.Life
import Verif.Props.Again

/-!
# C88: the dictionary of a program that reads lines and drops tasks
-/

namespace Cnars.Props
open Cnars Cnars.Parser Cnars.Term

/-- C88: in every state of a program that reads lines, some of which are rejected or make an action throw,
and drops tasks, in any order and number:

* there is one handle for each occurrence of a constant or operation in a task that lives, and no other but
  those left behind by lines that threw, on constants and operations with names in these lines;
* a name is known exactly if it is the name of one of these;
* two of these have the same address exactly if they have the same name;
* not more names are held than there are handles;
* any task that lives can be dropped;
* if all tasks have been dropped, only names in lines that threw are known, and if there was no such line
  the dictionaries are empty.

Missing from the full statement: that lines that threw leave nothing behind (counterexample), lines with an
operation of which only one of `go` and `^go` is known (counterexample), allocators that return addresses
equal in the low 32 bits to those of living terms (C30). -/
theorem C88_dictionary_partial {M : Mach} (hord : ∀ l, (M.ord l).Perm l) {strict : Bool} {N : Nat}
    (hM : FreshBelow M N) {g : Stamp.Globals} {p : Prog} (h : Prog.Steps M strict N (Prog.start g) p) :
    ∃ left : List (Word × Bool),
    (∀ x ∈ left, ∃ n ∈ p.odd, Called p.ses.env.world x n) ∧
    (∃ js, p.ses.env.world.handles.Perm js ∧
      List.Forall₂ (fun j x => ∃ n, p.ses.env.world.atoms[j]? = some ⟨x.1, n, x.2⟩) js
        (atomsAll p.terms ++ left)) ∧
    (∀ n, p.ses.env.world.store.checkByName n = true ↔
      ∃ x ∈ atomsAll p.terms ++ left, Called p.ses.env.world x n) ∧
    (∀ x n y m, Called p.ses.env.world x n → Called p.ses.env.world y m → (x.1 = y.1 ↔ n = m)) ∧
    p.ses.env.world.dictH.length ≤ (atomsAll p.terms ++ left).length ∧
    (∀ i t, p.tasks[i]? = some (some t) → ∃ q, Prog.Step M strict N p q ∧ q.tasks = p.tasks.set i none) ∧
    ((∀ t ∈ p.tasks, t = none) → (∀ n, p.ses.env.world.store.checkByName n = true → n ∈ p.odd) ∧
      (p.odd = [] → p.ses.env.world.handles = [] ∧ p.ses.env.world.dictH = [] ∧
        ∀ n k, p.ses.env.world.store.checkByName n = false ∧ p.ses.env.world.store.check k = false)) := by
  obtain ⟨lost, hI⟩ := (Prog.Inv.start g).steps hord hM h
  rw [List.nil_append] at hI
  obtain ⟨ht, hh⟩ := hI.acct.reach.tidy
  have hh := hh rfl
  have hent := C31_entries_partial hI.acct.reach
  obtain ⟨js, hp, hf⟩ := hI.acct.bal
  have hp : p.ses.env.world.handles.Perm js := by simpa [World.init] using hp
  rw [Parser.atomsAll_append] at hf
  have hlen : p.ses.env.world.handles.length = (atomsAll p.terms ++ atomsAll lost).length :=
    hp.length_eq.trans hf.length_eq
  have hknown : ∀ n, p.ses.env.world.store.checkByName n = true ↔
      ∃ x ∈ atomsAll p.terms ++ atomsAll lost, Called p.ses.env.world x n := by
    intro n
    rw [hent.1]
    constructor
    · rintro ⟨j, hj, hn⟩
      obtain ⟨x, hx, m, _, hm⟩ := forall₂_left hf (hp.mem_iff.mp hj)
      simp only [World.nameOf, hm, Option.map_some, Option.some.injEq] at hn
      exact ⟨x, hx, j, hj, hn ▸ hm⟩
    · rintro ⟨x, _, j, hj, hn⟩
      exact ⟨j, hj, by simp [World.nameOf, hn]⟩
  refine ⟨atomsAll lost, hI.left, ⟨js, hp, hf.imp fun j x ⟨n, _, k⟩ => ⟨n, k⟩⟩, hknown, ?_, ?_, ?_, ?_⟩
  · intro x n y m hx hy
    refine ⟨fun e => (Called.inj ht hx hy e).2, ?_⟩
    rintro rfl
    obtain ⟨i, hi, h1⟩ := hx
    obtain ⟨j, hj, h2⟩ := hy
    have := ht.nameInj (ht.sub i hi) (ht.sub j hj) (n := n) (by simp [World.nameOf, h1]) (by simp [World.nameOf, h2])
    subst this
    rw [h1] at h2
    simp only [Option.some.injEq, Named.mk.injEq] at h2
    exact h2.1
  · rw [← hlen]
    exact (ht.nodup.subperm fun j hj => hh j hj).length_le
  · intro i t hi
    obtain ⟨l1, l2, e1, e2⟩ := Prog.terms_set hi
    have hA := hI.acct
    rw [Prog.terms, e1, List.append_assoc, List.cons_append] at hA
    obtain ⟨w', k1, _⟩ := hA.dropped
    obtain ⟨s, ts, o⟩ := p
    exact ⟨_, .drop hi k1, rfl⟩
  · intro hall
    have e : p.terms = [] := by
      rw [Prog.terms, List.filterMap_eq_nil_iff]
      intro t ht
      rw [hall t ht]; rfl
    have e' : atomsAll p.terms = [] := by rw [e]; rfl
    rw [e', List.nil_append] at hlen hknown
    constructor
    · intro n hn
      obtain ⟨x, hx, hc⟩ := (hknown n).mp hn
      obtain ⟨m, hm, hc'⟩ := hI.left x hx
      rwa [(Called.inj ht hc hc' rfl).2]
    · intro hodd
      have hl : atomsAll lost = [] := by
        rw [List.eq_nil_iff_forall_not_mem]
        intro x hx
        obtain ⟨n, hn, _⟩ := hI.left x hx
        rw [hodd] at hn
        cases hn
      rw [hl] at hlen
      have h0 : p.ses.env.world.handles = [] := List.length_eq_zero_iff.mp hlen
      refine ⟨h0, ?_, fun n k => ⟨?_, ?_⟩⟩
      · rw [List.eq_nil_iff_forall_not_mem]
        intro j hj
        have := hh j hj
        rw [h0] at this
        cases this
      · rw [Bool.eq_false_iff, Ne, hent.1, h0]; simp
      · rw [Bool.eq_false_iff, Ne, hent.2.1, h0]; simp

/-- C88: a name that is known though no task that lives has it is never forgotten: whatever lines are read
and whatever tasks are dropped later, it stays known, and it was in a line that threw. -/
theorem C88_never_partial {M : Mach} (hord : ∀ l, (M.ord l).Perm l) {strict : Bool} {N : Nat}
    (hM : FreshBelow M N) {g : Stamp.Globals} {p q : Prog} (hp : Prog.Steps M strict N (Prog.start g) p)
    (hq : Prog.Steps M strict N p q) {n : String} (hn : p.ses.env.world.store.checkByName n = true)
    (hno : ∀ x ∈ atomsAll p.terms, ¬ Called p.ses.env.world x n) :
    n ∈ p.odd ∧ q.ses.env.world.store.checkByName n = true := by
  obtain ⟨lost, hI⟩ := (Prog.Inv.start g).steps hord hM hp
  rw [List.nil_append] at hI
  obtain ⟨more, hJ⟩ := hI.steps hord hM hq
  obtain ⟨j, hj, hjn⟩ := ((C31_entries_partial hI.acct.reach).1 n).mp hn
  obtain ⟨js, hpm, hf⟩ := hI.acct.bal
  have hpm : p.ses.env.world.handles.Perm js := by simpa [World.init] using hpm
  obtain ⟨x, hx, m, _, hm⟩ := forall₂_left hf (hpm.mem_iff.mp hj)
  simp only [World.nameOf, hm, Option.map_some, Option.some.injEq] at hjn
  subst hjn
  have hc : Called p.ses.env.world x m := ⟨j, hj, hm⟩
  rw [Parser.atomsAll_append] at hx
  rcases List.mem_append.mp hx with hx | hx
  · exact absurd hc (hno x hx)
  · obtain ⟨m', hm', hc'⟩ := hI.left x hx
    refine ⟨by rwa [(Called.inj hI.acct.reach.tidy.1 hc hc' rfl).2], ?_⟩
    obtain ⟨i, hi, hi'⟩ := hq.lost hord hM hI hx hc
    exact ((C31_entries_partial hJ.acct.reach).1 m).mpr ⟨i, hi, by simp [World.nameOf, hi']⟩

/-- C88: as long as a task lives it keeps its atoms and their names, whatever else is read and dropped,
and its term is printed with the same text, with and without colour.

Missing from the full statement: as before, and hashes of statements and compounds that clash with the
key of an atom (C33). -/
theorem C88_printed_partial {M : Mach} (hord : ∀ l, (M.ord l).Perm l) {strict : Bool} {N : Nat}
    (hM : FreshBelow M N) {g : Stamp.Globals} {p q : Prog} (hp : Prog.Steps M strict N (Prog.start g) p)
    (hq : Prog.Steps M strict N p q) {i : Nat} {t u : Task} (ht : p.tasks[i]? = some (some t))
    (hu : q.tasks[i]? = some (some u)) :
    u = t ∧
    (∀ x ∈ atomsAll [t.sentence.term], ∃ n, Called p.ses.env.world x n ∧ Called q.ses.env.world x n) ∧
    (Print.NoClash p.ses.env.world.store.dict t.sentence.term →
      Print.NoClash q.ses.env.world.store.dict t.sentence.term → ∀ colored,
      Print.term q.ses.env.world.store.dict colored u.sentence.term =
        Print.term p.ses.env.world.store.dict colored t.sentence.term) := by
  obtain ⟨lost, hI⟩ := (Prog.Inv.start g).steps hord hM hp
  obtain ⟨more, hJ⟩ := hI.steps hord hM hq
  obtain ⟨rfl, k⟩ := hq.called hord hM hI ht hu
  have hn : ∀ x ∈ atomsAll [u.sentence.term],
      ∃ n, Called p.ses.env.world x n ∧ Called q.ses.env.world x n := fun x hx => by
    obtain ⟨n, _, hn⟩ := hI.acct.called (x := x) (by
      rw [Parser.atomsAll_append]
      exact List.mem_append_left _ (atomsAll_mem (Prog.mem_terms ht) hx))
    exact ⟨n, hn, k x hx n hn⟩
  refine ⟨rfl, hn, fun c1 c2 colored => ?_⟩
  refine print_congr _ _ _ _ fun v hv => ?_
  rcases hv with hv | hv
  · obtain ⟨x, hx, e⟩ := Parser.Good.atoms_leaf (hI.good _ (Prog.mem_terms ht)) v hv
    obtain ⟨n, h1, h2⟩ := hn x hx
    rw [e, h1.dict hI.acct.reach.tidy.1, h2.dict hJ.acct.reach.tidy.1]
  · rw [c1 v hv, c2 v hv]

/-! ### A program -/

/-- Commands to a program. -/
inductive Cmd where
  | read (text : List Char)
  | drop (i : Nat)

/-- Checks what `Fits` says. -/
def fits (N : Nat) (s : Session) (text : List WChar) : Bool :=
  match parseText true 6000 s.buf text 0 with
  | .ok r => match s.ast.after r.ast with
    | .tree a => decide (s.env.world.dictH.length + (Ast.mentionsAll a).length ≤ N) &&
        paired s.env.world [] (Ast.mentionsAll a)
    | _ => true
  | _ => true

/-- Carries out a command, checking what the theorems assume. -/
def runCmd (M : Mach) (N : Nat) (c : Cmd) (p : Prog) : Option Prog :=
  match c with
  | .read text =>
    if fits N p.ses (bytes text) = true then
      match parseTask M undefined true 6000 0 p.ses (bytes text) with
      | (.ok (some t), s) => some ⟨s, p.tasks ++ [some t], p.odd⟩
      | (.ok none, s) => some ⟨s, p.tasks, p.odd⟩
      | (.throw _, s) => some ⟨s, p.tasks, p.odd ++ s.ast.names⟩
      | _ => none
    else none
  | .drop i =>
    match p.tasks[i]? with
    | some (some t) => match (addrs t.sentence.term).foldlM (fun w a => dropAddr a w) p.ses.env.world with
      | .ok w => some ⟨{ p.ses with env := { p.ses.env with world := w } }, p.tasks.set i none, p.odd⟩
      | _ => none
    | _ => none

theorem runCmd_sound {M : Mach} {N : Nat} {c : Cmd} {p q : Prog} (h : runCmd M N c p = some q) :
    Prog.Step M true N p q := by
  obtain ⟨s, ts, o⟩ := p
  cases c with
  | read text =>
    simp only [runCmd] at h
    split at h
    · rename_i hc
      have hf : Fits true N 6000 0 s (bytes text) := by
        intro r a h1 h2
        simp only [fits, h1, h2, Bool.and_eq_true, decide_eq_true_eq] at hc
        exact ⟨hc.1, paired_sound hc.2⟩
      split at h
      · rename_i ht
        cases h
        exact .read (by omega) hf ht
      · rename_i ht
        cases h
        exact .reject (by omega) ht
      · rename_i ht
        cases h
        exact .threw (by omega) hf ht
      · cases h
    · cases h
  | drop i =>
    simp only [runCmd] at h
    split at h
    · rename_i hi
      split at h
      · rename_i hw
        cases h
        exact .drop hi hw
      · cases h
    · cases h

theorem runCmds_sound {M : Mach} {N : Nat} {cs : List Cmd} {p q r : Prog}
    (hp : Prog.Steps M true N p q) (h : cs.foldlM (fun p c => runCmd M N c p) q = some r) :
    Prog.Steps M true N p r := by
  induction cs generalizing q with
  | nil => cases h; exact hp
  | cons c cs ih =>
    rw [List.foldlM_cons] at h
    obtain ⟨q', h1, h2⟩ := Option.bind_eq_some_iff.mp h
    exact ih (.step hp (runCmd_sound h1)) h2

/-- What can be seen of a program: names known among `A`, `B`, `C`, `^go`; the number of handles; the
texts of the tasks. -/
def viewOf (p : Prog) : List Bool × Nat × List (Option String) :=
  (["A", "B", "C", "^go"].map p.ses.env.world.store.checkByName, p.ses.env.world.handles.length,
    p.tasks.map fun
      | some t => (match Print.term p.ses.env.world.store.dict false t.sentence.term with
        | .ok u => some (String.ofList u)
        | _ => none)
      | none => none)

/-- `<A-->B>.`, `(*,B,go(C),B).`, a line that is rejected, and `{A,C}.` are read and dropped. -/
def sampleCmds : List Cmd := [.read ['<', 'A', '-', '-', '>', 'B', '>', '.'],
  .read ['(', '*', ',', 'B', ',', 'g', 'o', '(', 'C', ')', ',', 'B', ')', '.'], .drop 0, .read ['A', '&'],
  .read ['{', 'A', ',', 'C', '}', '.'], .drop 1, .drop 2]

/-- The program reaches these states, and each meets the hypotheses. -/
example : (List.range 8).map (fun n => ((sampleCmds.take n).foldlM (fun p c => runCmd roomy (2 ^ 26) c p)
      (Prog.start env0.globals)).map viewOf) =
    [some ([false, false, false, false], 0, []),
      some ([true, true, false, false], 2, [some "<A --> B>"]),
      some ([true, true, true, true], 6, [some "<A --> B>", some "(*, B, (^go, C), B)"]),
      some ([false, true, true, true], 4, [none, some "(*, B, (^go, C), B)"]),
      some ([false, true, true, true], 4, [none, some "(*, B, (^go, C), B)"]),
      some ([true, true, true, true], 6, [none, some "(*, B, (^go, C), B)", some "{C, A}"]),
      some ([true, false, true, false], 2, [none, none, some "{C, A}"]),
      some ([false, false, false, false], 0, [none, none, none])] := by decide +kernel

/-- `(*,A,+1000…0).` with 350 zeros throws, the line `A&.` that is rejected then evaluates the same tree
again, and `<A-->B>.` is read and dropped. -/
def oddCmds : List Cmd := [.read (['(', '*', ',', 'A', ',', '+', '1'] ++ List.replicate 350 '0' ++ [')', '.']),
  .read ['A', '&', '.'], .read ['<', 'A', '-', '-', '>', 'B', '>', '.'], .drop 0]

/-- The program reaches these states, and each meets the hypotheses: the handles left behind stay, and so
does the name `A`. -/
example : (List.range 5).map (fun n => ((oddCmds.take n).foldlM (fun p c => runCmd roomy (2 ^ 26) c p)
      (Prog.start env0.globals)).map viewOf) =
    [some ([false, false, false, false], 0, []),
      some ([true, false, false, false], 1, []),
      some ([true, false, false, false], 2, []),
      some ([true, true, false, false], 4, [some "<A --> B>"]),
      some ([true, false, false, false], 2, [none])] := by decide +kernel

example : (oddCmds.foldlM (fun p c => runCmd roomy (2 ^ 26) c p) (Prog.start env0.globals)).map Prog.odd =
    some ["A", "A"] := by decide +kernel

/-- C88 is false for operations: if `(^go,A).` is read twice, and then one of the two tasks is dropped, the
operation is not known any more though the other task lives. -/
theorem C88_operation_counterexample :
    (match parseTask roomy undefined true 1000 0 new (bytes goText) with
    | (.ok (some t1), s1) => match parseTask roomy undefined true 1000 0 s1 (bytes goText) with
      | (.ok (some t2), s2) => [t1, t2].map fun t =>
        match (addrs t.sentence.term).foldlM (fun w a => dropAddr a w) s2.env.world with
        | .ok w => (w.handles.map w.nameOf, w.store.checkByName "^go")
        | _ => ([], true)
      | _ => []
    | _ => []) = [([some "^go", some "A"], false), ([some "^go", some "A"], false)] := by decide +kernel

/-- C88 is false if an action throws: after `(*,A,+1000…0).` there is no task, but `A` is known and held. -/
theorem C88_throw_counterexample :
    (match parseTask roomy undefined true 6000 0 new (bytes (['(', '*', ',', 'A', ',', '+', '1'] ++
      List.replicate 350 '0' ++ [')', '.'])) with
    | (.throw _, s) => (s.env.world.handles.map s.env.world.nameOf, s.env.world.store.checkByName "A")
    | _ => ([], false)) = ([some "A"], true) := by decide +kernel

end Cnars.Props
