import Mathlib.Logic.ExistsUnique
import Verif.Narsese.IteratorLemmas

/-!
# C95: iterators over the components of a term

Model: `Narsese/Iterator.lean`.  What iterators should do: `Cursors.step`.
-/

namespace Cnars.Props
open Cnars.Iter

/-- States that programs reach which neither assign iterators nor use the value of `k++`; objects may be used and
deleted under another type than their own. -/
inductive ItReached (conts : List Terms) : State → Prop where
  | init : ItReached conts ⟨conts, [], []⟩
  | step {s s' : State} {o : Out} (op : Op) : ItReached conts s → op.usual = true → s.step false op = .ok (s', o) →
      ItReached conts s'

theorem ItReached.sound {conts : List Terms} {s : State} (h : ItReached conts s) : Sound s ∧ s.conts = conts := by
  induction h with
  | init => exact ⟨⟨by simp, by simp, by simp⟩, rfl⟩
  | step op _ hu hs ih =>
    rcases ih.1.step hu with ⟨h1, _⟩ | ⟨s', o, h1, h2, h3, _⟩
    · rw [h1] at hs; cases hs
    · rw [h1] at hs; cases hs
      exact ⟨h2, h3.trans ih.2⟩

/-- Iterators are values: copies go their own way, the outcome of every operation is that of the operation on
places, and it is undefined exactly if that is.  Missing: assignments and the value of `k++`; and under the rules for
types everything is undefined, see below. -/
theorem C95_values_partial {conts : List Terms} {s : State} (h : ItReached conts s) {op : Op} (hu : op.usual = true) :
    (∀ a o, s.cursors.step op = .ok (a, o) → ∃ s', s.step false op = .ok (s', o) ∧ s'.cursors = a) ∧
    ((s.cursors.step op).isOk = false → s.step false op = .ub) := by
  rcases h.sound.1.step hu with ⟨h1, h2⟩ | ⟨s', o, h1, _, _, h4⟩
  · rw [h2]
    exact ⟨fun a o e => (nomatch e), fun _ => h1⟩
  · rw [h4]
    refine ⟨fun a o' e => ?_, fun e => (nomatch e)⟩
    cases e
    exact ⟨s', h1, rfl⟩

/-- Every object in memory belongs to exactly one living iterator; when the last iterator is gone, so is the last
object. -/
theorem C95_memory_partial {conts : List Terms} {s : State} (h : ItReached conts s) :
    (∀ (n : Nat) (b : Block), s.blocks[n]? = some (some b) → ∃! k : Nat, ∃ i : It, s.its[k]? = some (some i) ∧ i.block = n) ∧
    ((∀ o ∈ s.its, o = none) → ∀ o ∈ s.blocks, o = none) := by
  have hs := h.sound.1
  constructor
  · intro n b hb
    obtain ⟨k, i, h1, h2⟩ := hs.all n b hb
    refine ⟨k, ⟨i, h1, h2⟩, ?_⟩
    rintro j ⟨i', h3, h4⟩
    exact hs.inj j k i' i h3 h1 (h4.trans h2.symm)
  · intro hn o ho
    cases o with
    | none => rfl
    | some b =>
      obtain ⟨n, hb⟩ := List.mem_iff_getElem?.mp ho
      obtain ⟨k, i, h1, _⟩ := hs.all n b hb
      cases hn _ (List.mem_of_getElem? h1)

theorem ItReached.next {conts : List Terms} {s : State} (h : ItReached conts s) {op : Op} (hu : op.usual = true) {a : Cursors} {o : Out}
    (ha : s.cursors.step op = .ok (a, o)) : ∃ s', s.step false op = .ok (s', o) ∧ s'.cursors = a ∧ ItReached conts s' := by
  obtain ⟨s', h1, h2⟩ := (C95_values_partial h hu).1 a o ha
  exact ⟨s', h1, h2, .step op h hu h1⟩

theorem cursors_length (s : State) : s.cursors.at_.length = s.its.length := by simp [State.cursors]

theorem loop_spec {conts : List Terms} {c k : Nat} {t : Terms} (hc : conts[c]? = some t) (f : Nat) :
    ∀ {s : State} {p : Nat} {seen : List Term}, ItReached conts s → s.cursors.at_[k]? = some (some (c, p)) → p ≤ t.items.length →
    t.items.length - p < f →
    ∃ s' n, s.loop false c k f seen = .ok (s', seen ++ t.items.drop p) ∧ ItReached conts s' ∧
      s'.cursors.at_ = s.cursors.at_.set k none ++ List.replicate n none := by
  induction f with
  | zero => intro s p seen _ _ _ hf; omega
  | succ f ih =>
    intro s p seen h hk hp hf
    have hcs : s.cursors.conts = conts := h.sound.2
    have hkl : k < s.cursors.at_.length := (List.getElem?_eq_some_iff.mp hk).1
    obtain ⟨s1, a1, a2, a3⟩ := h.next (op := .finish c) rfl (a := s.cursors.add c t.items.length) (o := .none) (by
      rw [Cursors.step, hcs, hc]
      simp only [Cursors.addAt, hcs, hc]
      simp)
    have e1 : s1.its.length - 1 = s.cursors.at_.length := by
      rw [← cursors_length, a2]; simp [Cursors.add]
    have g1 : s1.cursors.get k = .ok (c, p) := by
      rw [a2]; simp only [Cursors.get, Cursors.add]
      rw [List.getElem?_append_left hkl, hk]
    have g2 : s1.cursors.get s.cursors.at_.length = .ok (c, t.items.length) := by
      rw [a2]; simp [Cursors.get, Cursors.add]
    obtain ⟨s2, b1, b2, b3⟩ := a3.next (op := .ne k s.cursors.at_.length) rfl (a := s1.cursors)
      (o := .bool (p != t.items.length)) (by rw [Cursors.step, g1, g2]; simp)
    have g3 : s2.cursors.get s.cursors.at_.length = .ok (c, t.items.length) := by rw [b2]; exact g2
    obtain ⟨s3, c1, c2, c3⟩ := b3.next (op := .destroy s.cursors.at_.length) rfl
      (a := { s2.cursors with at_ := s2.cursors.at_.set s.cursors.at_.length none }) (o := .none)
      (by rw [Cursors.step, g3]; rfl)
    have e3 : s3.cursors.at_ = s.cursors.at_ ++ [none] := by
      rw [c2, b2, a2]
      simp [Cursors.add]
    rw [State.loop]
    simp only [a1, Res.ok_bind, e1, b1, c1]
    by_cases hq : p = t.items.length
    · subst hq
      simp only [bne_self_eq_false]
      have g4 : s3.cursors.get k = .ok (c, t.items.length) := by
        simp only [Cursors.get, e3]
        rw [List.getElem?_append_left hkl, hk]
      obtain ⟨s4, d1, d2, d3⟩ := c3.next (op := .destroy k) rfl
        (a := { s3.cursors with at_ := s3.cursors.at_.set k none }) (o := .none) (by rw [Cursors.step, g4]; rfl)
      refine ⟨s4, 1, ?_, d3, ?_⟩
      · simp only [d1, Res.ok_bind, List.drop_length, List.append_nil]; rfl
      · rw [d2, e3]
        simp only [List.replicate_one]
        rw [List.set_append_left _ _ hkl]
    · have hlt : p < t.items.length := by omega
      have hb : (p != t.items.length) = true := by simpa using hq
      simp only [hb]
      have g4 : s3.cursors.get k = .ok (c, p) := by
        simp only [Cursors.get, e3]
        rw [List.getElem?_append_left hkl, hk]
      have hc3 : s3.cursors.conts = conts := c3.sound.2
      obtain ⟨s4, d1, d2, d3⟩ := c3.next (op := .deref k) rfl (a := s3.cursors) (o := .term t.items[p]) (by
        rw [Cursors.step, g4]
        simp only [Res.ok_bind, hc3, hc, List.getElem?_eq_getElem hlt]
        rfl)
      obtain ⟨s5, f1, f2, f3⟩ := d3.next (op := .incr k) rfl
        (a := { s4.cursors with at_ := s4.cursors.at_.set k (some (c, p + 1)) }) (o := .none) (by
        rw [Cursors.step, d2, g4]
        simp only [Res.ok_bind, hc3, hc, if_pos hlt]
        rfl)
      have e5 : s5.cursors.at_ = s.cursors.at_.set k (some (c, p + 1)) ++ [none] := by
        rw [f2]
        simp only [d2, e3]
        rw [List.set_append_left _ _ hkl]
      obtain ⟨s', n, l1, l2, l3⟩ := ih f3 (p := p + 1) (seen := seen ++ [t.items[p]]) (by
        rw [e5, List.getElem?_append_left (by simpa using hkl)]
        simp [hkl]) (by omega) (by omega)
      refine ⟨s', n + 1, ?_, l2, ?_⟩
      · simp only [d1, Res.ok_bind, f1, l1]
        rw [List.drop_eq_getElem_cons hlt, List.append_assoc, List.singleton_append]
      · rw [l3, e5, List.set_append_left _ _ (by simpa using hkl), List.set_set]
        simp [List.replicate_succ]

/-- The loop over the components visits every component once, in order, and leaves no iterator and nothing in
memory that was not there before. -/
theorem C95_loop_partial {conts : List Terms} {s : State} (h : ItReached conts s) {c : Nat} {t : Terms} (hc : conts[c]? = some t)
    {fuel : Nat} (hf : t.items.length < fuel) :
    ∃ s' n, s.forEach false c fuel = .ok (s', t.items) ∧ ItReached conts s' ∧
      s'.cursors.at_ = s.cursors.at_ ++ List.replicate n none := by
  have hcs : s.cursors.conts = conts := h.sound.2
  obtain ⟨s1, a1, a2, a3⟩ := h.next (op := .begin c) rfl (a := s.cursors.add c 0) (o := .none) (by
    rw [Cursors.step]
    simp only [Cursors.addAt, hcs, hc]
    simp)
  have e1 : s1.its.length - 1 = s.cursors.at_.length := by
    rw [← cursors_length, a2]; simp [Cursors.add]
  obtain ⟨s', n, l1, l2, l3⟩ := loop_spec hc fuel (k := s.cursors.at_.length) (p := 0) (seen := []) a3
    (by rw [a2]; simp [Cursors.add]) (Nat.zero_le _) (by omega)
  refine ⟨s', n + 1, ?_, l2, ?_⟩
  · rw [State.forEach, a1]
    simp only [Res.ok_bind, e1]
    simpa using l1
  · rw [l3, a2]
    simp [Cursors.add, List.replicate_succ]

/-- Under the rules for types no iterator can be destroyed: the object is deleted as the other kind of iterator. -/
theorem C95_delete_counterexample (s : State) {c : Nat} {t : Terms} (hc : s.conts[c]? = some t) :
    s.run true [.begin c, .destroy s.its.length] = .ub := by
  simp only [State.run, State.step, hc, Res.ok_bind, State.alloc, State.it]
  simp only [List.getElem?_concat_length, Res.ok_bind]
  rw [if_pos]
  · rfl
  · refine ⟨trivial, ?_⟩
    unfold ofLib deleteAs
    cases t.comm <;> simp

/-- … and no iterator over ordered components can be used: constant iterators are read as other ones. -/
theorem C95_read_counterexample (s : State) {c : Nat} {t : Terms} (hc : s.conts[c]? = some t) (ht : t.comm = false) :
    s.run true [.begin c, .deref s.its.length] = .ub := by
  simp only [State.run, State.step, hc, Res.ok_bind, State.alloc, State.it, State.read]
  simp only [List.getElem?_concat_length, Res.ok_bind, ht]
  rw [if_neg]
  · rfl
  · simp [ofLib, readAs]

/-- Two iterators, one assigned to the other: at their end the same object is deleted twice. -/
theorem C95_assign_counterexample (t : Terms) :
    State.run false ⟨[t], [], []⟩ [.begin 0, .begin 0, .assign 0 1, .destroy 0, .destroy 1] = .ub := rfl

/-- The value of `k++` is the place after it, for every iterator that is not at the end. -/
theorem C95_post_counterexample {conts : List Terms} {s : State} (h : ItReached conts s) {k c p : Nat} {t : Terms}
    (hk : s.cursors.get k = .ok (c, p)) (hc : conts[c]? = some t) (hp : p < t.items.length) :
    (∃ a, s.cursors.step (.postIncr k) = .ok (a, .none) ∧ a.get s.its.length = .ok (c, p)) ∧
    ∃ s', s.step false (.postIncr k) = .ok (s', .none) ∧ s'.cursors.get s.its.length = .ok (c, p + 1) := by
  have hcs : s.cursors.conts = conts := h.sound.2
  have hkl : k < s.cursors.at_.length := by
    refine Nat.lt_of_not_ge fun hn => ?_
    rw [Cursors.get, List.getElem?_eq_none (by omega)] at hk
    cases hk
  constructor
  · refine ⟨({ s.cursors with at_ := s.cursors.at_.set k (some (c, p + 1)) } : Cursors).add c p, ?_, ?_⟩
    · rw [Cursors.step, hk]
      simp only [Res.ok_bind, hcs, hc, if_pos hp]
      rfl
    · simp only [Cursors.get, Cursors.add]
      rw [← cursors_length, ← List.length_set (as := s.cursors.at_) (i := k) (a := some (c, p + 1)),
        List.getElem?_concat_length]
  · obtain ⟨s1, f1, f2, f3⟩ := h.next (op := .incr k) rfl
      (a := { s.cursors with at_ := s.cursors.at_.set k (some (c, p + 1)) }) (o := .none) (by
      rw [Cursors.step, hk]
      simp only [Res.ok_bind, hcs, hc, if_pos hp]
      rfl)
    have g : s1.cursors.get k = .ok (c, p + 1) := by
      rw [f2]; simp [Cursors.get, hkl]
    obtain ⟨s2, d1, d2, d3⟩ := f3.next (op := .copy k) rfl (a := s1.cursors.add c (p + 1)) (o := .none)
      (by rw [Cursors.step, g]; rfl)
    refine ⟨s2, ?_, ?_⟩
    · simp only [State.step] at f1 d1 ⊢
      cases hi : s.increment false k with
      | ok s1' =>
        rw [hi] at f1
        cases f1
        rw [Res.ok_bind]
        exact d1
      | throw m => rw [hi] at f1; cases f1
      | ub => rw [hi] at f1; cases f1
      | outOfFuel => rw [hi] at f1; cases f1
    · rw [d2]
      have : s.its.length = s1.cursors.at_.length := by rw [f2]; simp [cursors_length]
      rw [this]
      simp [Cursors.get, Cursors.add]

/-! ## Cases -/

private def x : Term := .atom 0x555555581eb0 default
private def y : Term := .atom 0x555555581f90 default

/-- Two iterators over ordered components, a copy that is moved, a comparison. -/
private def both : List Op := [.begin 0, .finish 0, .copy 0, .incr 2, .deref 2, .deref 0, .plus 0 2, .eq 1 3, .minus 1 2, .ne 0 4]

private theorem made_run {conts : List Terms} {s s' : State} {ops : List Op} {os : List Out} (h : ItReached conts s)
    (hu : ops.all Op.usual = true) (hr : s.run false ops = .ok (s', os)) : ItReached conts s' := by
  induction ops generalizing s s' os with
  | nil => cases hr; exact h
  | cons op ops ih =>
    rw [List.all_cons, Bool.and_eq_true] at hu
    rw [State.run] at hr
    cases h1 : s.step false op with
    | ok r =>
      rw [h1, Res.ok_bind] at hr
      obtain ⟨s1, o1⟩ := r
      simp only at hr
      cases h2 : State.run false s1 ops with
      | ok r2 =>
        rw [h2] at hr
        cases hr
        exact ih (.step op h hu.1 h1) hu.2 h2
      | throw m => rw [h2] at hr; cases hr
      | ub => rw [h2] at hr; cases hr
      | outOfFuel => rw [h2] at hr; cases hr
    | throw m => rw [h1] at hr; cases hr
    | ub => rw [h1] at hr; cases hr
    | outOfFuel => rw [h1] at hr; cases hr

/-- What it gives: the second component, the first, the end is the beginning plus two, the beginning is the end minus
two. -/
example (comm : Bool) : ∃ s, State.run false ⟨[⟨comm, [x, y]⟩], [], []⟩ both =
      .ok (s, [.none, .none, .none, .none, .term y, .term x, .none, .bool true, .none, .bool false]) ∧
    ItReached [⟨comm, [x, y]⟩] s ∧ s.cursors.at_ = [some (0, 0), some (0, 2), some (0, 1), some (0, 2), some (0, 0)] := by
  cases comm <;> exact ⟨_, rfl, made_run (ops := both) .init rfl rfl, rfl⟩

/-- The loop in a state with other iterators. -/
example : ∃ s s', State.run false ⟨[⟨true, [x, y]⟩], [], []⟩ [.begin 0] = .ok (s, [.none]) ∧ ItReached [⟨true, [x, y]⟩] s ∧
    s.forEach false 0 3 = .ok (s', [x, y]) ∧ s'.cursors.at_ = [some (0, 0), none, none, none, none] :=
  ⟨_, _, rfl, made_run (ops := [.begin 0]) .init rfl rfl, rfl, rfl⟩

/-- The hypotheses of `C95_post_counterexample`. -/
example : ∃ s, State.run false ⟨[⟨true, [x, y]⟩], [], []⟩ [.begin 0] = .ok (s, [.none]) ∧ ItReached [⟨true, [x, y]⟩] s ∧
    s.cursors.get 0 = .ok (0, 0) :=
  ⟨_, rfl, made_run (ops := [.begin 0]) .init rfl rfl, rfl⟩

end Cnars.Props
