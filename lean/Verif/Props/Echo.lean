import Verif.Parser.Echo
import Verif.Props.Life

/-!
# C89: a program prints a task it holds and reads the line
-/

namespace Cnars.Props
open Cnars Cnars.Parser Term Print

/-- What is asked of the name of an atom: printable characters, and if it is `^go`, that `go` is known too. -/
def NameKnown (w : World) (x : Word × Bool) : Prop :=
  ∀ n, Called w x n → Ascii n.toList ∧ (x.2 = true → ∀ v, n = "^" ++ v → w.store.checkByName v = true)

/-- C89: at any moment a program prints a task it holds and reads the line.  Let

* intervals not be negative, compounds have as many components as the grammar wants, statements about an
  operation be calls (`readable`), and the compounds have nothing left to reduce (`Steady`),
* variables be numbered in the order of their occurrence (`InOrder`), and hashes not clash (`NoClash`),
* names have printable characters, and for operations the name without `^` be known too (`NameKnown`),
* the durability not be printed as 0.00 or 1.00, and the confidence not as 0.000 or 1.000.

Then the line is accepted (if it fits the memory as in C80, by the driver as it is), the task that is
read agrees with the first as in C80, the dictionaries are left as they were, and reading it is again a
step of the program if there is memory: the task is the last the program holds, and all of C88 holds
after it.

Unlike in C80 nothing is assumed about the session, the sentence, the range of its truth value, whether its
atoms are held, whether names are words of the grammar, its intervals' upper end or its copulas: all this
follows from the task having been read.  Missing from the full statement: the other tasks; see the
counterexamples here, of C41 and of C80. -/
theorem C89_echo_partial {M : Mach} (hm : Machine M) {fix : Nat → ℚ → Str} (hf : Fixed fix) {strict : Bool}
    {N : Nat} (hM : FreshBelow M N) {g : Stamp.Globals} {p : Prog}
    (h : Prog.Steps M strict N (Prog.start g) p) {i : Nat} {k : Task} (hk : p.tasks[i]? = some (some k))
    (hr : readable k.sentence.term = true) (st : Steady k.sentence.term) (ho : InOrder k.sentence.term)
    (hc : NoClash p.ses.env.world.store.dict k.sentence.term)
    (hn : ∀ x ∈ Parser.atomsAll [k.sentence.term], NameKnown p.ses.env.world x)
    (hd : fix 2 ((shownBudget k.budget).durability.shown M.R) ≠ ['0', '.', '0', '0'] ∧
      fix 2 ((shownBudget k.budget).durability.shown M.R) ≠ ['1', '.', '0', '0'])
    (hu : ∀ v, k.sentence.truth = some v →
      fix 3 v.c ≠ ['0', '.', '0', '0', '0'] ∧ fix 3 v.c ≠ ['1', '.', '0', '0', '0'])
    (bg : Fin 3 → ℚ → Str) (time : Nat) :
    ∃ text, Print.task M.R fix bg time p.ses.env.world.store.dict false (shownBudget k.budget) k.sentence =
        .ok text ∧
      ∀ d < 3, ∀ fuel, 24 * text.length + 6 ≤ fuel → (strict = true → LineFits text k.sentence.term) →
        ∃ k' s', parseTask M undefined strict fuel d p.ses (codes text) = (.ok (some k'), s') ∧
          k'.sentence.punct = k.sentence.punct ∧ k'.sentence.cls = k.sentence.cls ∧
          shape k'.sentence.term = shape k.sentence.term ∧ k'.sentence.term.info = k.sentence.term.info ∧
          s'.env.world.store = p.ses.env.world.store ∧
          k'.sentence.stamp.isEternal = k.sentence.stamp.isEternal ∧
          (k.sentence.stamp.isEternal = false →
            k'.sentence.stamp.tOccurrence = tenseRead k.sentence.stamp time) ∧
          (0 ≤ k.budget.priority → k.budget.priority ≤ 1 →
            |k'.budget.priority - k.budget.priority| ≤ 56 / 10000) ∧
          (0 ≤ k.budget.durability → k.budget.durability ≤ 1 →
            |k'.budget.durability - k.budget.durability| ≤ 56 / 10000) ∧
          (0 ≤ k.budget.quality → k.budget.quality ≤ 1 →
            |k'.budget.quality - k.budget.quality| ≤ 56 / 10000) ∧
          (k.sentence.truth = none → k'.sentence.truth = none) ∧
          (∀ v, k.sentence.truth = some v → ∃ v', k'.sentence.truth = some v' ∧
            |v'.f - v.f| ≤ 51 / 100000 ∧ |v'.c - v.c| ≤ 51 / 100000 ∧ v'.k = 1) ∧
          (k.sentence.stamp.isEternal = true ∨ time = 0 →
            Print.task M.R fix bg time s'.env.world.store.dict false (shownBudget k'.budget) k'.sentence =
              .ok text) ∧
          (p.ses.env.world.dictH.length + (leafTerms k.sentence.term).length ≤ N →
            Prog.Step M strict N p ⟨s', p.tasks ++ [some k'], p.odd⟩) := by
  obtain ⟨_, hI⟩ := (Prog.Inv.start g).steps hm.ord hM h
  have hT := (Prog.Told.start g).steps hm hM (Prog.Inv.start g) h
  have hS := hT.tasks k (List.mem_of_getElem? hk)
  have ht := hI.acct.reach.tidy.1
  have hG := hS.constructed.good
  have hname : ∀ a j, .atom a j ∈ leafTerms k.sentence.term → ∃ n, NameText n ∧
      Called p.ses.env.world (a, j.isOperation) n ∧ (j.isOperation = true ↔ n.toList.head? = some '^') ∧
      Ascii n.toList ∧ (j.isOperation = true → ∀ v, n = "^" ++ v → p.ses.env.world.store.checkByName v = true) ∧
      p.ses.env.world.store.dict (keyOf j.hash) = some n := by
    intro a j hl
    obtain ⟨n, h1, h2, h3⟩ := hT.named (atomsAll_mem (Prog.mem_terms hk) (atom_mem hl))
    obtain ⟨h4, h5⟩ := hn _ (atom_mem hl) n h2
    refine ⟨n, h1, h2, h3, h4, h5, ?_⟩
    rw [Parser.Good.atom_hash hG a j hl]
    exact h2.dict ht
  have hl : Legible p.ses.env.world.store.dict k.sentence.term := by
    refine legible_of _ hr fun l hl => ⟨?_, ?_⟩
    · rintro a j rfl
      obtain ⟨n, h1, _, h3, h4, _, h6⟩ := hname a j hl
      refine ⟨n, h6, fun e => (h1.word h4).1 fun e' => ?_, fun e => (h1.word h4).2 (h3.mp e)⟩
      rw [h3.mpr e'] at e
      cases e
    · rintro v x j rfl
      exact hS.vars v x j hl
  have hh : AtomsHeld p.ses.env.world k.sentence.term := by
    intro a j hl
    obtain ⟨n, _, ⟨m, h2, h3⟩, _, _, h5, _⟩ := hname a j hl
    exact ⟨m, ht.sub m h2, n, h3, h5⟩
  have hu' : ∀ v, k.sentence.truth = some v → 0 ≤ v.f ∧ v.f ≤ 1 ∧ 0 ≤ v.c ∧ v.c ≤ 1 ∧
      fix 3 v.c ≠ ['0', '.', '0', '0', '0'] ∧ fix 3 v.c ≠ ['1', '.', '0', '0', '0'] := by
    intro v hv
    obtain ⟨a, b, c, d⟩ := hS.truth v hv
    exact ⟨a, b, c, d, hu v hv⟩
  obtain ⟨text, e1, e2⟩ := C80_task_partial hm hf hI.buf hI.acct.reach hS.formed hS.constructed hl hS.sayable hc
    st hS.plain ho hh hd hu' bg time
  refine ⟨text, e1, fun d hd3 fuel hfuel hstr => ?_⟩
  obtain ⟨k', s', a1, a2, a3, a4, a5, _, a7, a8, a9, b1, b2, b3, b4, b5, b6⟩ :=
    e2 d hd3 fuel hfuel strict hstr undefined
  refine ⟨k', s', a1, a2, a3, a4, a5, a7, a8, a9, b1, b2, b3, b4, b5, b6, fun hN => ?_⟩
  have hfit : Fits strict N fuel d p.ses (codes text) := by
    intro r a p1 p2
    obtain ⟨k1, k2, k3, hk1, hk2, hk2', hk3, q1, q2, q3, _⟩ := printed_budget hm hf k.budget hd
    obtain ⟨w, hw1, hw2, _, hw4⟩ := printed_marks hm hf hS.formed hu'
    have htext := task_text hS.formed M.R fix bg time p.ses.env.world.store.dict (hl.plain.text hG hc)
      (shownBudget k.budget)
    rw [q1, q2, q3, hw1, e1] at htext
    obtain ⟨a', ha', hm⟩ := printed_mentions hI.buf hl hS.sayable k.sentence.punct (k.sentence.stamp.tense time) hk1 hk2 hk2' hk3
      hw2 (fun h => (hw4 h).1) (Res.ok.inj htext) hd3 hfuel hstr p1
    rw [ha'] at p2
    cases p2
    rw [hm]
    refine ⟨le_trans (Nat.add_le_add_left (synOf_length _ _) _) hN, paired_known fun u hu => ?_⟩
    obtain ⟨a, j, h1, h2, h3⟩ := synOf_op _ _ _ hu
    obtain ⟨n, n1, ⟨m, n2, n3⟩, n4, n5, n6, n7⟩ := hname a j h1
    obtain ⟨v, hv, _⟩ := (n1.word n5).2 (n4.mp h2)
    have hlab : Print.label p.ses.env.world.store.dict (.atom a j) = n.toList := by
      simp only [Print.label, n7]
    rw [hlab, hv, List.tail_cons] at h3
    subst h3
    have en : n = "^" ++ String.ofList u := String.toList_inj.mp (by simp [hv])
    refine ⟨n6 h2 _ en, ?_⟩
    rw [← en]
    exact ((C31_entries_partial hI.acct.reach).1 n).2 ⟨m, n2, by simp [World.nameOf, n3]⟩
  obtain ⟨s, ts, o⟩ := p
  exact .read hd3 hfit a1

/-! ### A program -/

theorem roomy_ok : Machine roomy where
  ord := mach_ok.ord
  ints := mach_ok.ints
  sound := mach_ok.sound
  intExact := mach_ok.intExact
  minus := mach_ok.minus
  cfg := mach_ok.cfg
  range := mach_ok.range
  float := mach_ok.float
  double := mach_ok.double

/-- `Inert`, computed. -/
def inert (c : Connector) : Term → Bool
  | .comp k us _ => k != c && (!k.isCommutative || (mergeKind c k == .none && k.checkValid us.length))
  | _ => true

theorem inert_sound {c : Connector} {t : Term} (h : inert c t = true) : Inert c t := by
  cases t with
  | comp k us i =>
    simp only [inert, Bool.and_eq_true, bne_iff_ne, ne_eq, Bool.or_eq_true, Bool.not_eq_true', beq_iff_eq] at h
    refine ⟨fun _ _ e => ?_, fun _ _ _ e hc => ?_⟩
    · cases e; exact h.1 rfl
    · cases e
      rcases h.2 with h | h
      · rw [h] at hc; cases hc
      · exact h
  | _ => exact ⟨fun _ _ e => (nomatch e), fun _ _ _ e => (nomatch e)⟩

/-- A compound with this connector. -/
def isComp (c : Connector) : Term → Bool
  | .comp k _ _ => k == c
  | _ => false

mutual
/-- `Steady`, computed. -/
def steady : Term → Bool
  | .atom .. => true
  | .interval .. => true
  | .var .. => true
  | .stmt s _ p _ => steady s && steady p
  | .comp c ts _ => steadyAll ts && (!c.isReducible || c.isCommutative || ts.all fun t => !isComp c t) &&
      (!c.isCommutative || (!ts.isEmpty && ts.all (inert c) && (ts.length != 1 || ts.all fun t => (category t).isNone)))
/-- All of them. -/
def steadyAll : List Term → Bool
  | [] => true
  | t :: ts => steady t && steadyAll ts
end

mutual
theorem steady_sound : ∀ t : Term, steady t = true → Steady t
  | .atom .., _ => .atom _ _
  | .interval .., _ => .interval _ _
  | .var .., _ => .var _ _ _
  | .stmt s c p i, h => by
    rw [steady, Bool.and_eq_true] at h
    exact .stmt _ _ (steady_sound s h.1) (steady_sound p h.2)
  | .comp c ts i, h => by
    rw [steady, Bool.and_eq_true, Bool.and_eq_true] at h
    obtain ⟨⟨h1, h2⟩, h3⟩ := h
    refine .comp _ _ (steadyAll_sound ts h1) (fun hr hc t ht us j e => ?_) (fun hc => ⟨?_, fun t ht => ?_, ?_⟩)
    · simp only [hr, hc, Bool.not_true, Bool.or_false, Bool.false_or, List.all_eq_true] at h2
      have := h2 t ht
      simp [e, isComp] at this
    · rintro rfl
      simp [hc] at h3
    · simp only [hc, Bool.not_true, Bool.false_or, Bool.and_eq_true, List.all_eq_true] at h3
      exact inert_sound (h3.1.2 t ht)
    · rintro t rfl
      simp only [hc, Bool.not_true, Bool.false_or, Bool.and_eq_true, List.all_cons, List.all_nil, List.length_cons,
        List.length_nil, Bool.or_eq_true, bne_iff_ne, ne_eq, Option.isNone_iff_eq_none] at h3
      have := h3.2
      simpa using this
theorem steadyAll_sound : ∀ ts : List Term, steadyAll ts = true → ∀ t ∈ ts, Steady t
  | [], _ => by simp
  | t :: ts, h => by
    rw [steadyAll, Bool.and_eq_true] at h
    have ht := steady_sound t h.1
    have hts := steadyAll_sound ts h.2
    intro u hu
    rcases List.mem_cons.mp hu with rfl | hu
    · exact ht
    · exact hts u hu
end

/-- `InOrder`, computed. -/
def inOrder (t : Term) : Bool :=
  [VarKind.independent, .dependent, .query].all fun k =>
    (varNums k t).eraseDups == (List.range (varNums k t).eraseDups.length).map Int.ofNat

theorem inOrder_sound {t : Term} (h : inOrder t = true) : InOrder t := by
  intro k
  rw [inOrder, List.all_eq_true] at h
  exact ⟨_, beq_iff_eq.mp (h k (by cases k <;> simp))⟩

/-- `NameKnown`, computed. -/
def nameKnown (w : World) (x : Word × Bool) : Bool :=
  w.handles.any fun j => match w.atoms[j]? with
    | some a => a.addr == x.1 && (a.isOp == x.2) && (a.name.toList.all fun c => 32 ≤ c.toNat && c.toNat < 127) &&
        (!x.2 || w.store.checkByName (String.ofList a.name.toList.tail))
    | none => false

theorem nameKnown_sound {w : World} (ht : World.Tidy w) {x : Word × Bool} (h : nameKnown w x = true) :
    NameKnown w x := by
  rw [nameKnown, List.any_eq_true] at h
  obtain ⟨j, hj, h⟩ := h
  split at h
  · rename_i a ha
    simp only [Bool.and_eq_true, beq_iff_eq, List.all_eq_true, decide_eq_true_eq, Bool.or_eq_true,
      Bool.not_eq_true'] at h
    obtain ⟨⟨⟨h1, h2⟩, h3⟩, h4⟩ := h
    intro n hn
    have := (Called.inj ht hn (y := x) (m := a.name) ⟨j, hj, by rw [ha, ← h1, ← h2]⟩ rfl).2
    subst this
    refine ⟨h3, fun hx v e => ?_⟩
    rcases h4 with h4 | h4
    · rw [hx] at h4; cases h4
    · rw [e] at h4; simpa using h4
  · cases h

/-- What C89 assumes about a task, computed. -/
def echoes (M : Mach) (fix : Nat → ℚ → Str) (p : Prog) (i : Nat) : Bool :=
  match p.tasks[i]? with
  | some (some k) => readable k.sentence.term && steady k.sentence.term && inOrder k.sentence.term &&
      ((complexes k.sentence.term).all fun u => (p.ses.env.world.store.dict (keyOf u.hash)).isNone) &&
      ((Parser.atomsAll [k.sentence.term]).all (nameKnown p.ses.env.world)) &&
      (fix 2 ((shownBudget k.budget).durability.shown M.R) != ['0', '.', '0', '0']) &&
      (fix 2 ((shownBudget k.budget).durability.shown M.R) != ['1', '.', '0', '0']) &&
      (match k.sentence.truth with
        | some v => fix 3 v.c != ['0', '.', '0', '0', '0'] && fix 3 v.c != ['1', '.', '0', '0', '0']
        | none => true)
  | _ => false

/-- A task of a program is printed, and the line read, as another step of the program; what is seen of the
task and of the one that is read. -/
def echoed (p : Prog) (i : Nat) : Option (String × Option String) :=
  match p.tasks[i]? with
  | some (some k) =>
    match Print.task roomy.R fixed (fun _ _ => []) 0 p.ses.env.world.store.dict false (shownBudget k.budget)
        k.sentence with
    | .ok text => some (String.ofList text,
      match runCmd roomy (2 ^ 26) (.read text) p with
      | some q => match q.tasks[p.tasks.length]? with
        | some (some k') => match Print.task roomy.R fixed (fun _ _ => []) 0 q.ses.env.world.store.dict false
            (shownBudget k'.budget) k'.sentence with
          | .ok text' => some (String.ofList text')
          | _ => none
        | _ => none
      | none => none)
    | _ => none
  | _ => none

theorem echoes_sound {M : Mach} {fix : Nat → ℚ → Str} {p : Prog} (ht : World.Tidy p.ses.env.world) {i : Nat}
    (h : echoes M fix p i = true) : ∃ k, p.tasks[i]? = some (some k) ∧ readable k.sentence.term = true ∧
      Steady k.sentence.term ∧ InOrder k.sentence.term ∧ NoClash p.ses.env.world.store.dict k.sentence.term ∧
      (∀ x ∈ Parser.atomsAll [k.sentence.term], NameKnown p.ses.env.world x) ∧
      (fix 2 ((shownBudget k.budget).durability.shown M.R) ≠ ['0', '.', '0', '0'] ∧
        fix 2 ((shownBudget k.budget).durability.shown M.R) ≠ ['1', '.', '0', '0']) ∧
      ∀ v, k.sentence.truth = some v →
        fix 3 v.c ≠ ['0', '.', '0', '0', '0'] ∧ fix 3 v.c ≠ ['1', '.', '0', '0', '0'] := by
  unfold echoes at h
  split at h
  · rename_i k hk
    simp only [Bool.and_eq_true, List.all_eq_true, Option.isNone_iff_eq_none, bne_iff_ne] at h
    obtain ⟨⟨⟨⟨⟨⟨⟨h1, h2⟩, h3⟩, h4⟩, h5⟩, h6⟩, h7⟩, h8⟩ := h
    refine ⟨k, hk, h1, steady_sound _ h2, inOrder_sound h3, h4, fun x hx => nameKnown_sound ht (h5 x hx),
      ⟨h6, h7⟩, fun v hv => ?_⟩
    rw [hv] at h8
    simpa only [Bool.and_eq_true, bne_iff_ne] using h8
  · cases h

/-- `go(A).`, `go.` and `$0.5;0.4;0.3$ <(*,go(B),$x) ==> {go,$x}>! :/: %0.3;0.6%` are read. -/
def echoCmds : List Cmd := [.read ['g', 'o', '(', 'A', ')', '.'],
  .read ['g', 'o', '.'],
  .read ['$', '0', '.', '5', ';', '0', '.', '4', ';', '0', '.', '3', '$', ' ', '<', '(', '*', ',', 'g', 'o', '(', 'B', ')', ',', '$', 'x', ')', ' ', '=', '=', '>', ' ', '{', 'g', 'o', ',', '$', 'x', '}', '>', '!', ' ', ':', '/', ':', ' ', '%', '0', '.', '3', ';', '0', '.', '6', '%']]

/-- The third task meets the hypotheses: it is printed, the line is read, and the program goes on with four
tasks. -/
example : ∃ p q, Prog.Steps roomy true (2 ^ 26) (Prog.start env0.globals) p ∧
    Prog.Step roomy true (2 ^ 26) p q ∧ p.tasks.length = 3 ∧ q.tasks.length = 4 := by
  have h : (match echoCmds.foldlM (fun p c => runCmd roomy (2 ^ 26) c p) (Prog.start env0.globals) with
      | some p => echoes roomy fixed p 2 && p.tasks.length == 3 && decide (p.ses.env.world.dictH.length ≤ 100) &&
        (match p.tasks[2]? with
          | some (some k) => decide ((leafTerms k.sentence.term).length ≤ 100) &&
            (match Print.task roomy.R fixed (fun _ _ => []) 0 p.ses.env.world.store.dict false
              (shownBudget k.budget) k.sentence with
              | .ok text => decide (text.length ≤ 121)
              | _ => false)
          | _ => false)
      | none => false) = true := by decide +kernel
  cases hp : echoCmds.foldlM (fun p c => runCmd roomy (2 ^ 26) c p) (Prog.start env0.globals) with
  | none => rw [hp] at h; cases h
  | some p =>
    rw [hp] at h
    simp only [Bool.and_eq_true, beq_iff_eq, decide_eq_true_eq] at h
    obtain ⟨⟨⟨h1, h2⟩, h3⟩, h4⟩ := h
    have hs := runCmds_sound (.refl _) hp
    obtain ⟨_, hI⟩ := (Prog.Inv.start env0.globals).steps roomy_ok.ord roomy_fresh hs
    obtain ⟨k, hk, a1, a2, a3, a4, a5, a6, a7⟩ := echoes_sound hI.acct.reach.tidy.1 h1
    obtain ⟨text, e1, e2⟩ := C89_echo_partial roomy_ok fixed_ok roomy_fresh hs hk a1 a2 a3 a4 a5 a6 a7
      (fun _ _ => []) 0
    rw [hk] at h4
    simp only [e1, Bool.and_eq_true, decide_eq_true_eq] at h4
    obtain ⟨k', s', _, _, _, _, _, _, _, _, _, _, _, _, _, _, b⟩ := e2 0 (by omega) _ (le_refl _) fun _ => .inl h4.2
    refine ⟨p, _, hs, b ?_, h2, by simp [h2]⟩
    have : (200 : Nat) ≤ 2 ^ 26 := by norm_num
    omega

/-- The text, and that of the task that was read from it. -/
example : (echoCmds.foldlM (fun p c => runCmd roomy (2 ^ 26) c p) (Prog.start env0.globals)).bind
      (fun p => echoed p 2) =
    some ("$0.50;0.40;0.30$ <(*, (^go, B), $0) ==> {go, $0}>! :/: %0.300;0.600%",
      some "$0.50;0.40;0.30$ <(*, (^go, B), $0) ==> {go, $0}>! :/: %0.300;0.600%") := by decide +kernel

/-- C89 is false for compounds left with one component: the task read from `(&&,A,A).` is printed as
`$0.80;0.80;0.50$ (&&, A). %1.000;0.900%`, which is rejected. -/
theorem C89_single_counterexample :
    (runCmd roomy (2 ^ 26) (.read ['(', '&', '&', ',', 'A', ',', 'A', ')', '.']) (Prog.start env0.globals)).bind
      (fun p => echoed p 0) = some ("$0.80;0.80;0.50$ (&&, A). %1.000;0.900%", none) := by decide +kernel

end Cnars.Props
