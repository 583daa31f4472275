import Verif.Nal.Truth

/-!
# Truth values and budgets as Python objects

The classes `Truth` and `Budget` of the Python module (Truth.cpp:5-16, Budget.cpp:9-19), and of `Sentence`
(Sentence.cpp:32-37) that it refers to a truth value.
-/

namespace Cnars.PyValues

/-- The members that Python reads and writes: of `Truth` (Truth.cpp:10-12), of `Budget` (Budget.cpp:13-15). -/
inductive Slot where
  | f | c | k | p | d | q
  deriving Repr, DecidableEq

/-- An object.  A sentence holds a pointer to its truth value, null for `None` (Sentence.h:124, 127); its other members are left
out. -/
inductive Obj (K : Type) where
  | truth (t : Truth K)
  | budget (p d q : K)
  | sentence (truth : Option Nat)

/-- The objects by their numbers, and what the names of the program are bound to.  Simplified: objects to which nothing
refers any more stay. -/
structure State (K : Type) where
  heap : List (Obj K)
  vars : Nat → Option Nat

/-- Lines of a Python program; names are numbers. -/
inductive Cmd (K : Type) where
  /-- `v = Truth(f, c, k)` -/
  | truth (v : Nat) (f c k : K)
  /-- `v = Budget(p, d, q)` -/
  | budget (v : Nat) (p d q : K)
  /-- `v = Sentence(…, truth=u, …)`, `u` a name or `None` -/
  | sentence (v : Nat) (u : Option Nat)
  /-- `v = u` -/
  | bind (v u : Nat)
  /-- `v.m = x` -/
  | set (v : Nat) (m : Slot) (x : K)

variable {K : Type}

/-- A member of an object. -/
def Obj.get : Obj K → Slot → Option K
  | .truth t, .f => some t.f
  | .truth t, .c => some t.c
  | .truth t, .k => some t.k
  | .budget p _ _, .p => some p
  | .budget _ d _, .d => some d
  | .budget _ _ q, .q => some q
  | _, _ => none

/-- `def_readwrite`: the member is assigned the `double` that Python has.  All are `float` (Truth.h:19-21, Budget.h:26)
but `priority` and `durability`, which are `double` (Budget.h:24-25).  `none`: no such attribute. -/
def Obj.set (R : Rnd K) : Obj K → Slot → K → Option (Obj K)
  | .truth t, .f, x => some (.truth { t with f := R.s x })
  | .truth t, .c, x => some (.truth { t with c := R.s x })
  | .truth t, .k, x => some (.truth { t with k := R.s x })
  | .budget _ d q, .p, x => some (.budget x d q)
  | .budget p _ q, .d, x => some (.budget p x q)
  | .budget p d _, .q, x => some (.budget p d (R.s x))
  | _, _, _ => none

/-- Bind a name. -/
def State.bind (s : State K) (v : Nat) (a : Nat) : State K :=
  { s with vars := fun u => if u = v then some a else s.vars u }

/-- `v = …`, a new object. -/
def State.new (s : State K) (v : Nat) (o : Obj K) : State K :=
  State.bind { s with heap := s.heap ++ [o] } v s.heap.length

/-- One line.  The parameters of `Truth::create` and `Budget::create` are `float` (Truth.h:52-55, Budget.h:36-39; the
lambda of Truth.cpp:9 takes `double` and passes them on). -/
def step (R : Rnd K) (s : State K) : Cmd K → Res (State K)
  | .truth v f c k => .ok (s.new v (.truth ⟨R.s f, R.s c, R.s k⟩))
  | .budget v p d q => .ok (s.new v (.budget (R.s p) (R.s d) (R.s q)))
  | .sentence v none => .ok (s.new v (.sentence none))
  | .sentence v (some u) =>
    match s.vars u with
    | none => .throw "NameError"
    | some a =>
      match s.heap[a]? with
      | some (.truth _) => .ok (s.new v (.sentence (some a)))
      | _ => .throw "TypeError"
  | .bind v u =>
    match s.vars u with
    | none => .throw "NameError"
    | some a => .ok (s.bind v a)
  | .set v m x =>
    match s.vars v with
    | none => .throw "NameError"
    | some a =>
      match (s.heap[a]?).bind (fun o => o.set R m x) with
      | some o => .ok { s with heap := s.heap.set a o }
      | none => .throw "AttributeError"

/-- A program. -/
def run (R : Rnd K) : State K → List (Cmd K) → Res (State K)
  | s, [] => .ok s
  | s, c :: cs => do
    let s1 ← step R s c
    run R s1 cs

/-- Before the program. -/
def start : State K := ⟨[], fun _ => none⟩

/-- `v.m` -/
def State.read (s : State K) (v : Nat) (m : Slot) : Option K := do
  let a ← s.vars v
  let o ← s.heap[a]?
  o.get m

/-- The truth value that is printed for the sentence `v`, a judgement (Interpreter.cpp:277-278); nothing there looks for
null. -/
def State.truthOf (s : State K) (v : Nat) : Res (Truth K) :=
  match s.vars v with
  | none => .throw "NameError"
  | some a =>
    match s.heap[a]? with
    | some (.sentence none) => .ub
    | some (.sentence (some b)) =>
      match s.heap[b]? with
      | some (.truth t) => .ok t
      | _ => .ub
    | _ => .throw "TypeError"

/-- `Budget.quality_from_truth(u)`, `u` a name or `None` (Budget.cpp:16): `None` is the null pointer, which is followed. -/
def State.quality [Field K] [LinearOrder K] (R : Rnd K) (s : State K) : Option Nat → Res K
  | none => .ub
  | some u =>
    match s.vars u with
    | none => .throw "NameError"
    | some a =>
      match s.heap[a]? with
      | some (.truth t) => .ok (Nal.qualityFromTruth R t)
      | _ => .throw "TypeError"

/-! ## Which line gives which member of which object its value -/

/-- The object a line makes or changes. -/
def Cmd.target (s : State K) : Cmd K → Option Nat
  | .truth .. | .budget .. | .sentence .. => some s.heap.length
  | .bind .. => none
  | .set v _ _ => s.vars v

/-- The value a line gives to a member of that object: everything is rounded to `float`, except what is assigned to `p`
and `d`. -/
def Cmd.gives (R : Rnd K) : Cmd K → Slot → Option K
  | .truth _ f _ _, .f => some (R.s f)
  | .truth _ _ c _, .c => some (R.s c)
  | .truth _ _ _ k, .k => some (R.s k)
  | .budget _ p _ _, .p => some (R.s p)
  | .budget _ _ d _, .d => some (R.s d)
  | .budget _ _ _ q, .q => some (R.s q)
  | .set _ m' x, m => if m' = m then some (if m = .p ∨ m = .d then x else R.s x) else none
  | _, _ => none

variable {R : Rnd K}

theorem Obj.set_get {o o' : Obj K} {m : Slot} {x : K} (h : o.set R m x = some o') (m' : Slot) :
    o'.get m' = if m = m' then some (if m = .p ∨ m = .d then x else R.s x) else o.get m' := by
  cases o <;> cases m <;> simp only [Obj.set, Option.some.injEq, reduceCtorEq] at h <;> subst h <;> cases m' <;>
    simp [Obj.get]

theorem new_heap (s : State K) (v : Nat) (o : Obj K) : (s.new v o).heap = s.heap ++ [o] := rfl

theorem run_append {s : State K} {cs cs' : List (Cmd K)} : run R s (cs ++ cs') = run R s cs >>= fun s1 => run R s1 cs' := by
  induction cs generalizing s with
  | nil => rfl
  | cons c cs ih =>
    simp only [List.cons_append, run]
    cases step R s c with
    | ok s1 => simpa using ih
    | throw e => rfl
    | ub => rfl
    | outOfFuel => rfl

/-- One line changes a member only as `gives` says. -/
theorem step_get {s s' : State K} {c : Cmd K} (h : step R s c = .ok s') (a : Nat) (m : Slot) {y : K}
    (hy : (s'.heap[a]?).bind (fun o => o.get m) = some y) :
    (c.target s = some a ∧ c.gives R m = some y) ∨
    ((c.target s = some a → c.gives R m = none) ∧ (s.heap[a]?).bind (fun o => o.get m) = some y) := by
  have hnew : ∀ o : Obj K, s'.heap = s.heap ++ [o] → c.target s = some s.heap.length → (∀ m, c.gives R m = o.get m) →
      (c.target s = some a ∧ c.gives R m = some y) ∨
      ((c.target s = some a → c.gives R m = none) ∧ (s.heap[a]?).bind (fun o => o.get m) = some y) := by
    intro o ho ht hg
    rw [ho] at hy
    rcases Nat.lt_trichotomy a s.heap.length with hlt | heq | hgt
    · rw [List.getElem?_append_left hlt] at hy
      exact .inr ⟨fun e => by rw [ht, Option.some.injEq] at e; omega, hy⟩
    · subst heq
      simp only [List.getElem?_append_right (Nat.le_refl _), Nat.sub_self, List.getElem?_cons_zero, Option.bind_some] at hy
      exact .inl ⟨ht, by rw [hg, hy]⟩
    · rw [List.getElem?_eq_none (by simp; omega)] at hy
      cases hy
  cases c with
  | truth v f c k =>
    simp only [step, Res.ok.injEq] at h
    exact hnew _ (by rw [← h]; rfl) rfl (by intro m; cases m <;> rfl)
  | budget v p d q =>
    simp only [step, Res.ok.injEq] at h
    exact hnew _ (by rw [← h]; rfl) rfl (by intro m; cases m <;> rfl)
  | sentence v u =>
    cases u with
    | none =>
      simp only [step, Res.ok.injEq] at h
      exact hnew _ (by rw [← h]; rfl) rfl (by intro m; cases m <;> rfl)
    | some u =>
      simp only [step] at h
      split at h
      · cases h
      · split at h
        · simp only [Res.ok.injEq] at h
          exact hnew _ (by rw [← h]; rfl) rfl (by intro m; cases m <;> rfl)
        · cases h
  | bind v u =>
    simp only [step] at h
    split at h
    · cases h
    · simp only [Res.ok.injEq] at h
      refine .inr ⟨fun e => by simp [Cmd.target] at e, ?_⟩
      rw [← h] at hy; exact hy
  | set v m' x =>
    simp only [step] at h
    split at h
    · cases h
    · rename_i b hb
      split at h
      · rename_i o ho
        simp only [Res.ok.injEq] at h
        rw [← h] at hy
        obtain ⟨o1, h1, h2⟩ := Option.bind_eq_some_iff.mp ho
        simp only at hy
        by_cases hab : b = a
        · subst hab
          have hlt : b < s.heap.length := (List.getElem?_eq_some_iff.mp h1).1
          rw [List.getElem?_set_self hlt, Option.bind_some, Obj.set_get h2] at hy
          split at hy
          · rename_i e
            refine .inl ⟨hb, ?_⟩
            subst e
            simpa [Cmd.gives] using hy
          · rename_i e
            refine .inr ⟨fun _ => by simp [Cmd.gives, e], ?_⟩
            rw [h1]; exact hy
        · rw [List.getElem?_set_ne hab] at hy
          exact .inr ⟨fun e => absurd (Option.some.inj (hb.symm.trans e)) hab, hy⟩
      · cases h

/-- Objects stay what they are, and sentences keep their pointers. -/
theorem step_kind {s s' : State K} {c : Cmd K} (h : step R s c = .ok s') {a : Nat} {b : Option Nat}
    (ha : s.heap[a]? = some (.sentence b)) : s'.heap[a]? = some (.sentence b) := by
  have hlt : a < s.heap.length := (List.getElem?_eq_some_iff.mp ha).1
  have hnew : ∀ o : Obj K, s'.heap = s.heap ++ [o] → s'.heap[a]? = some (.sentence b) := fun o ho => by
    rw [ho, List.getElem?_append_left hlt, ha]
  cases c with
  | truth v f c k => simp only [step, Res.ok.injEq] at h; exact hnew _ (by rw [← h]; rfl)
  | budget v p d q => simp only [step, Res.ok.injEq] at h; exact hnew _ (by rw [← h]; rfl)
  | sentence v u =>
    cases u with
    | none => simp only [step, Res.ok.injEq] at h; exact hnew _ (by rw [← h]; rfl)
    | some u =>
      simp only [step] at h
      split at h
      · cases h
      · split at h
        · simp only [Res.ok.injEq] at h; exact hnew _ (by rw [← h]; rfl)
        · cases h
  | bind v u =>
    simp only [step] at h
    split at h
    · cases h
    · simp only [Res.ok.injEq] at h; rw [← h]; exact ha
  | set v m' x =>
    simp only [step] at h
    split at h
    · cases h
    · rename_i e hb
      split at h
      · rename_i o ho
        simp only [Res.ok.injEq] at h
        rw [← h]
        obtain ⟨o1, h1, h2⟩ := Option.bind_eq_some_iff.mp ho
        simp only
        by_cases hab : e = a
        · subst hab
          rw [ha, Option.some.injEq] at h1
          subst h1
          cases m' <;> cases h2
        · rw [List.getElem?_set_ne hab]; exact ha
      · cases h

theorem run_kind {s s' : State K} {cs : List (Cmd K)} (h : run R s cs = .ok s') {a : Nat} {b : Option Nat}
    (ha : s.heap[a]? = some (.sentence b)) : s'.heap[a]? = some (.sentence b) := by
  induction cs generalizing s with
  | nil => simp only [run, Res.ok.injEq] at h; rw [← h]; exact ha
  | cons c cs ih =>
    simp only [run, Res.bind_eq_ok] at h
    obtain ⟨s1, h1, h2⟩ := h
    exact ih h2 (step_kind h1 ha)

/-- Names are bound to objects, and sentences hold pointers to truth values. -/
def Tidy (s : State K) : Prop :=
  (∀ v a, s.vars v = some a → a < s.heap.length) ∧
  ∀ a b : Nat, s.heap[a]? = some (.sentence (some b)) → ∃ t, s.heap[b]? = some (.truth t)

theorem Tidy.new {s : State K} (h : Tidy s) (v : Nat) (o : Obj K)
    (ho : ∀ b, o = .sentence (some b) → ∃ t, s.heap[b]? = some (.truth t)) : Tidy (s.new v o) := by
  have hkeep : ∀ (b : Nat) t, s.heap[b]? = some (.truth t) → (s.heap ++ [o])[b]? = some (.truth t) := fun b t hb => by
    rw [List.getElem?_append_left (List.getElem?_eq_some_iff.mp hb).1, hb]
  refine ⟨fun u a hu => ?_, fun a b ha => ?_⟩
  · simp only [State.new, State.bind, List.length_append, List.length_singleton] at hu ⊢
    split at hu
    · simp only [Option.some.injEq] at hu; omega
    · have := h.1 u a hu; omega
  · rw [new_heap] at ha ⊢
    rcases Nat.lt_trichotomy a s.heap.length with hlt | heq | hgt
    · rw [List.getElem?_append_left hlt] at ha
      obtain ⟨t, ht⟩ := h.2 a b ha
      exact ⟨t, hkeep b t ht⟩
    · subst heq
      simp only [List.getElem?_append_right (Nat.le_refl _), Nat.sub_self, List.getElem?_cons_zero, Option.some.injEq] at ha
      obtain ⟨t, ht⟩ := ho b ha
      exact ⟨t, hkeep b t ht⟩
    · rw [List.getElem?_eq_none (by simp; omega)] at ha
      cases ha

theorem Tidy.step {s s' : State K} {c : Cmd K} (h : Tidy s) (hs : step R s c = .ok s') : Tidy s' := by
  cases c with
  | truth v f c k => simp only [PyValues.step, Res.ok.injEq] at hs; rw [← hs]; exact h.new v _ (by intro b hb; cases hb)
  | budget v p d q => simp only [PyValues.step, Res.ok.injEq] at hs; rw [← hs]; exact h.new v _ (by intro b hb; cases hb)
  | sentence v u =>
    cases u with
    | none => simp only [PyValues.step, Res.ok.injEq] at hs; rw [← hs]; exact h.new v _ (by intro b hb; cases hb)
    | some u =>
      simp only [PyValues.step] at hs
      split at hs
      · cases hs
      · split at hs
        · rename_i t ht
          simp only [Res.ok.injEq] at hs; rw [← hs]
          exact h.new v _ (by intro b hb; cases hb; exact ⟨_, ht⟩)
        · cases hs
  | bind v u =>
    simp only [PyValues.step] at hs
    split at hs
    · cases hs
    · rename_i a ha
      simp only [Res.ok.injEq] at hs; rw [← hs]
      refine ⟨fun w b hw => ?_, h.2⟩
      simp only [State.bind] at hw ⊢
      split at hw
      · simp only [Option.some.injEq] at hw; subst hw; exact h.1 _ _ ha
      · exact h.1 _ _ hw
  | set v m x =>
    simp only [PyValues.step] at hs
    split at hs
    · cases hs
    · rename_i e he
      split at hs
      · rename_i o ho
        obtain ⟨o1, h1, h2⟩ := Option.bind_eq_some_iff.mp ho
        have hlt : e < s.heap.length := (List.getElem?_eq_some_iff.mp h1).1
        simp only [Res.ok.injEq] at hs; rw [← hs]
        refine ⟨fun w b hw => by simpa using h.1 w b hw, fun a b ha => ?_⟩
        simp only at ha ⊢
        have ha' : s.heap[a]? = some (.sentence (some b)) := by
          by_cases hea : e = a
          · subst hea
            rw [List.getElem?_set_self hlt, Option.some.injEq] at ha
            subst ha
            cases o1 <;> cases m <;> simp [Obj.set] at h2
          · rwa [List.getElem?_set_ne hea] at ha
        obtain ⟨t, ht⟩ := h.2 a b ha'
        by_cases heb : e = b
        · subst heb
          rw [h1, Option.some.injEq] at ht
          subst ht
          rw [List.getElem?_set_self hlt]
          cases m <;> simp only [Obj.set, Option.some.injEq, reduceCtorEq] at h2 <;> exact ⟨_, congrArg some h2.symm⟩
        · exact ⟨t, by rw [List.getElem?_set_ne heb, ht]⟩
      · cases hs

theorem tidy_start : Tidy (start : State K) := ⟨fun v a h => (by cases h), fun a b h => by simp [start] at h⟩

theorem Tidy.run {s s' : State K} {cs : List (Cmd K)} (h : Tidy s) (hs : run R s cs = .ok s') : Tidy s' := by
  induction cs generalizing s with
  | nil => simp only [PyValues.run, Res.ok.injEq] at hs; rw [← hs]; exact h
  | cons c cs ih =>
    simp only [PyValues.run, Res.bind_eq_ok] at hs
    obtain ⟨s1, h1, h2⟩ := hs
    exact ih (h.step h1) h2

end Cnars.PyValues
