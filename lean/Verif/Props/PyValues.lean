import Verif.Nal.PyValues
import Verif.Nal.Ieee
import Verif.Props.TruthFns

/-!
# C101: truth values and budgets as Python objects
-/

namespace Cnars.Props

open PyValues Ieee

variable {K : Type}

/-- **C101 (proved).**  In every program, a member of an object has the value that was given to it by the last line that gave
it one: the line that made the object, or an assignment to this member through any name that was bound to the object then.
No line after it, through whatever name, gave this member of this object a value. -/
theorem C101_last {R : Rnd K} {cs : List (Cmd K)} {s : State K} (h : run R start cs = .ok s) {v a : Nat}
    (hv : s.vars v = some a) {m : Slot} {y : K} (hy : s.read v m = some y) :
    ∃ pre c post s1, cs = pre ++ c :: post ∧ run R start pre = .ok s1 ∧ c.target s1 = some a ∧ c.gives R m = some y ∧
      ∀ mid c' post' s2, post = mid ++ c' :: post' → run R start (pre ++ c :: mid) = .ok s2 → c'.target s2 = some a →
        c'.gives R m = none := by
  have hy' : (s.heap[a]?).bind (fun o => o.get m) = some y := by
    simpa [State.read, hv] using hy
  clear hy hv
  induction cs using List.reverseRecOn generalizing s with
  | nil =>
    simp only [run, Res.ok.injEq] at h
    subst h
    simp [start] at hy'
  | append_singleton cs c ih =>
    have hrun := h
    rw [run_append, Res.bind_eq_ok] at h
    obtain ⟨s1, h1, h2⟩ := h
    simp only [run, Res.bind_eq_ok] at h2
    obtain ⟨s2, h2, h3⟩ := h2
    simp only [Res.ok.injEq] at h3
    subst h3
    rcases step_get h2 a m hy' with ⟨ht, hg⟩ | ⟨hn, hold⟩
    · exact ⟨cs, c, [], s1, rfl, h1, ht, hg, fun mid c' post' s2 e => by simp at e⟩
    · obtain ⟨pre, c0, post, t1, e, r1, r2, r3, r4⟩ := ih h1 hold
      refine ⟨pre, c0, post ++ [c], t1, by simp [e], r1, r2, r3, ?_⟩
      intro mid c' post' s3 e3 hr ht
      rcases List.eq_nil_or_concat post' with rfl | ⟨post'', b, rfl⟩
      · have := List.append_inj' e3 rfl
        simp only [List.cons.injEq, and_true] at this
        obtain ⟨rfl, rfl⟩ := this
        rw [← e, h1, Res.ok.injEq] at hr
        subst hr
        exact hn ht
      · rw [List.concat_eq_append, ← List.cons_append, ← List.append_assoc] at e3
        have := List.append_inj' e3 rfl
        exact r4 mid c' post'' s3 this.1 hr ht

/-- **C101 (proved).**  After `v.m = x` the member is read as given through every name of the same object; every other member
of it, and every member of every other object, is as before. -/
theorem C101_alias {R : Rnd K} {s s' : State K} {v : Nat} {m : Slot} {x : K} (h : step R s (.set v m x) = .ok s')
    (u : Nat) (m' : Slot) :
    s'.vars = s.vars ∧
    s'.read u m' = if s.vars u = s.vars v ∧ m' = m then some (if m = .p ∨ m = .d then x else R.s x) else s.read u m' := by
  simp only [step] at h
  split at h
  · cases h
  · rename_i a ha
    split at h
    · rename_i o ho
      obtain ⟨o1, h1, h2⟩ := Option.bind_eq_some_iff.mp ho
      have hlt : a < s.heap.length := (List.getElem?_eq_some_iff.mp h1).1
      simp only [Res.ok.injEq] at h
      subst h
      refine ⟨rfl, ?_⟩
      simp only [State.read, ha]
      cases hu : s.vars u with
      | none => simp
      | some b =>
        by_cases hab : a = b
        · subst hab
          simp only [Option.bind_eq_bind, Option.bind_some, List.getElem?_set_self hlt, h1, true_and]
          rw [Obj.set_get h2]
          by_cases e : m = m'
          · simp [e]
          · rw [if_neg e, if_neg (Ne.symm e)]
        · have : b ≠ a := Ne.symm hab
          simp only [Option.bind_eq_bind, Option.bind_some, List.getElem?_set_ne hab, Option.some.injEq, this, false_and, if_false]
    · cases h

/-- **C101 (proved).**  A sentence shows the truth value as it is: whatever is done after the sentence was made with the truth
value of the name `u`, what is printed for the sentence is the present contents of that object, under any name it has by
then. -/
theorem C101_sentence {R : Rnd K} {cs ds : List (Cmd K)} {v u w x : Nat} {s1 s2 s : State K}
    (h1 : run R start cs = .ok s1) (h2 : step R s1 (.sentence v (some u)) = .ok s2) (h3 : run R s2 ds = .ok s)
    (hw : s.vars w = s2.vars v) (hx : s.vars x = s1.vars u) :
    ∃ t, s.truthOf w = .ok t ∧ s.read x .f = some t.f ∧ s.read x .c = some t.c ∧ s.read x .k = some t.k := by
  have htidy : Tidy s := ((tidy_start.run h1).step h2).run h3
  simp only [step] at h2
  split at h2
  · cases h2
  · rename_i a ha
    split at h2
    · rename_i t0 ht0
      simp only [Res.ok.injEq] at h2
      subst h2
      have hs : s.heap[s1.heap.length]? = some (.sentence (some a)) :=
        run_kind h3 (by simp [State.new, State.bind])
      have hw' : s.vars w = some s1.heap.length := by rw [hw]; simp [State.new, State.bind]
      obtain ⟨t, ht⟩ := htidy.2 _ _ hs
      refine ⟨t, ?_, ?_, ?_, ?_⟩
      · simp [State.truthOf, hw', hs, ht]
      all_goals simp [State.read, hx, ha, ht, Obj.get]
    · cases h2

/-- **C101 (partial).**  If every value written in the program (other than `k`) lies between 0 and 1, then so does every
member of every object at the end, however the program is rounded; and so do the expectation and the quality of every truth
value.  Missing: that values outside are refused (`C101_range_counterexample`). -/
theorem C101_range_partial [Field K] [LinearOrder K] [IsStrictOrderedRing K] {R : Rnd K} (hR : R.Sound) {cs : List (Cmd K)}
    {s : State K} (h : run R start cs = .ok s)
    (hc : ∀ c ∈ cs, ∀ m x, m ≠ .k → c.gives (Rnd.exact K) m = some x → 0 ≤ x ∧ x ≤ 1) :
    (∀ v m y, m ≠ .k → s.read v m = some y → 0 ≤ y ∧ y ≤ 1) ∧
    ∀ v t, s.vars v ≠ none → (∀ a, s.vars v = some a → s.heap[a]? = some (.truth t)) →
      (0 ≤ t.e R ∧ t.e R ≤ 1) ∧ ∃ q, s.quality R (some v) = .ok q ∧ 0 ≤ q ∧ q ≤ 1 := by
  have hread : ∀ v m y, m ≠ .k → s.read v m = some y → 0 ≤ y ∧ y ≤ 1 := by
    intro v m y hk hy
    cases hv : s.vars v with
    | none => simp [State.read, hv] at hy
    | some a =>
      obtain ⟨pre, c, post, s1, e, -, -, hg, -⟩ := C101_last h hv hy
      have hx := hc c (by rw [e]; simp) m
      have su : ∀ x : K, 0 ≤ x ∧ x ≤ 1 → 0 ≤ R.s x ∧ R.s x ≤ 1 := fun x hx => Unit01.s hR hx
      cases c with
      | truth v f c k =>
        cases m <;> simp only [Cmd.gives, Option.some.injEq, reduceCtorEq] at hg <;> subst hg <;>
          first | exact absurd rfl hk | exact su _ (hx _ hk rfl)
      | budget v p d q =>
        cases m <;> simp only [Cmd.gives, Option.some.injEq, reduceCtorEq] at hg <;> subst hg <;> exact su _ (hx _ hk rfl)
      | sentence v u => cases m <;> simp [Cmd.gives] at hg
      | bind v u => cases m <;> simp [Cmd.gives] at hg
      | set v m' x =>
        by_cases em : m' = m
        · subst em
          have := hx x hk (by simp [Cmd.gives, Rnd.exact])
          simp only [Cmd.gives, if_true, Option.some.injEq] at hg
          split at hg
          · rw [← hg]; exact this
          · rw [← hg]; exact su _ this
        · simp [Cmd.gives, em] at hg
  refine ⟨hread, fun v t hv ht => ?_⟩
  cases hv' : s.vars v with
  | none => exact absurd hv' hv
  | some a =>
    have ha := ht a hv'
    have hf : 0 ≤ t.f ∧ t.f ≤ 1 := hread v .f _ (by decide) (by simp [State.read, hv', ha, Obj.get])
    have hcc : 0 ≤ t.c ∧ t.c ≤ 1 := hread v .c _ (by decide) (by simp [State.read, hv', ha, Obj.get])
    refine ⟨(C63_expectation R hR t hf hcc).1, Nal.qualityFromTruth R t, by simp [State.quality, hv', ha], ?_⟩
    have := C66_quality R hR t t hf hcc
    exact ⟨this.2.1, this.2.2.1⟩

/-- Writes through another name, and a sentence in between. -/
example : ∃ s, run (Rnd.exact ℚ) start
      [.truth 0 1 (9 / 10) 1, .sentence 1 (some 0), .bind 2 0, .set 2 .f (1 / 4), .truth 0 (1 / 2) (1 / 2) 1] = .ok s ∧
    s.read 2 .f = some (1 / 4) ∧ s.read 0 .f = some (1 / 2) ∧ s.truthOf 1 = .ok ⟨1 / 4, 9 / 10, 1⟩ ∧
    s.vars 2 = some 0 := by
  refine ⟨_, rfl, ?_, ?_, ?_, ?_⟩ <;> decide +kernel

/-- **C101, the range is false in general.**  `Truth(2, 0.9)` is accepted; its expectation and its quality are 1.85. -/
theorem C101_range_counterexample : ∃ s, run (Rnd.exact ℚ) start [.truth 0 2 (9 / 10) 1] = .ok s ∧
    s.read 0 .f = some 2 ∧ s.quality (Rnd.exact ℚ) (some 0) = .ok (37 / 20) := by
  refine ⟨_, rfl, ?_, ?_⟩ <;> decide +kernel

/-- **C101, `None` is not refused.**  `Budget.quality_from_truth(None)` and the printing of a judgement made with
`truth=None` follow the null pointer, in every state. -/
theorem C101_none_counterexample (R : Rnd ℚ) (s : State ℚ) (v : Nat) :
    s.quality R none = .ub ∧ ∃ s', step R s (.sentence v none) = .ok s' ∧ s'.truthOf v = .ub := by
  refine ⟨rfl, _, rfl, ?_⟩
  simp [State.truthOf, State.new, State.bind]

/-- **C101, the constructor and the assignment differ.**  `b = Budget(0.9)` gives the `float` next to the `double` 0.9, and
`b.p = 0.9` the `double` itself, so that assigning the value just passed changes the priority. -/
theorem C101_budget_counterexample : ∃ s s', run ieee start [.budget 0 (ieee.d (9 / 10)) (ieee.d (9 / 10)) (1 / 2)] = .ok s ∧
    step ieee s (.set 0 .p (ieee.d (9 / 10))) = .ok s' ∧ s.read 0 .p = some (15099494 / 16777216) ∧
    s'.read 0 .p = some (8106479329266893 / 9007199254740992) ∧ s'.read 0 .p ≠ s.read 0 .p := by
  refine ⟨_, _, rfl, rfl, ?_, ?_, ?_⟩ <;> decide +kernel

/-- **C101, sentences do not keep their truth values.**  Assigning to a truth value after a sentence was made with it changes
the sentence; so do two sentences made with one truth value change together. -/
theorem C101_shared_counterexample : ∃ s s', run (Rnd.exact ℚ) start
      [.truth 0 1 (9 / 10) 1, .sentence 1 (some 0), .sentence 2 (some 0)] = .ok s ∧
    step (Rnd.exact ℚ) s (.set 0 .f 0) = .ok s' ∧ s.truthOf 1 = .ok ⟨1, 9 / 10, 1⟩ ∧ s'.truthOf 1 = .ok ⟨0, 9 / 10, 1⟩ ∧
    s'.truthOf 2 = .ok ⟨0, 9 / 10, 1⟩ := by
  refine ⟨_, _, rfl, rfl, ?_, ?_, ?_⟩ <;> decide +kernel

end Cnars.Props
