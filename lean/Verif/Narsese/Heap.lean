import Verif.Narsese.Good

/-!
# Object identity: which term objects a clone shares with the original

A term handle is a tree of objects with addresses; sharing shows as equal addresses.  New objects
get the next unused number.
-/

namespace Cnars
open Term

/-- A term object at an address, with its components. -/
inductive Obj where
  | atom (a : Nat) (d : Word) (i : Info)
  | interval (a : Nat) (m : Int) (i : Info)
  | var (a : Nat) (k : VarKind) (name : String) (i : Info)
  | stmt (a : Nat) (s : Obj) (c : Copula) (p : Obj) (i : Info)
  | comp (a : Nat) (c : Connector) (os : List Obj) (i : Info)
  deriving Inhabited

namespace Obj

/-- The address of the object itself. -/
def addr : Obj → Nat
  | atom a .. => a | interval a .. => a | var a .. => a | stmt a .. => a | comp a .. => a

mutual
/-- The value of the object. -/
def val : Obj → Term
  | atom _ d i => .atom d i
  | interval _ m i => .interval m i
  | var _ k name i => .var k name i
  | stmt _ s c p i => .stmt s.val c p.val i
  | comp _ c os i => .comp c (vals os) i
def vals : List Obj → List Term
  | [] => []
  | o :: os => o.val :: vals os
end

mutual
/-- All addresses, with repetitions. -/
def addrs : Obj → List Nat
  | atom a .. => [a]
  | interval a .. => [a]
  | var a .. => [a]
  | stmt a s _ p _ => a :: (s.addrs ++ p.addrs)
  | comp a _ os _ => a :: addrsAll os
def addrsAll : List Obj → List Nat
  | [] => []
  | o :: os => o.addrs ++ addrsAll os
end

/-- The components of an object, in order. -/
def sons : Obj → List Obj
  | stmt _ s _ p _ => [s, p]
  | comp _ _ os _ => os
  | _ => []

/-- The object reached by a path of component numbers. -/
def at? (o : Obj) : List Nat → Option Obj
  | [] => some o
  | n :: ns => match o.sons[n]? with
    | some s => s.at? ns
    | none => none

end Obj

/-- `checkAbove` on objects. -/
def checkAboveO (x : Obj) : List Obj → Res Unit
  | [] => .ok ()
  | z :: zs => do
    let xz ← lt x.val z.val
    let zx ← lt z.val x.val
    if xz && !zx then checkAboveO x zs else .ub

/-- `std::set<pTerm>::insert` (see `setInsert`), keeping track of which object is stored. -/
def setInsertO (x : Obj) : List Obj → Res (List Obj)
  | [] => .ok [x]
  | y :: ys => do
    let yx ← lt y.val x.val
    let xy ← lt x.val y.val
    if yx && xy then .ub
    else if yx then do
      let r ← setInsertO x ys
      return y :: r
    else if xy then do
      checkAboveO x ys
      return x :: y :: ys
    else do
      checkAboveO x ys
      return y :: ys

mutual
/-- `Term::clone` (Term.inl:182-219) with the deep-copy constructors (Variable.inl:17-32,
Statement.inl:38-76, Compound.inl:12-62), on objects; `n` is the next unused address. -/
def cloneO (n : Nat) : Obj → Res (Obj × Nat)
  | .stmt a s c p i =>
    if i.hasVar then do
      let (s', n1) ← cloneO (n + 1) s
      let (p', n2) ← cloneO n1 p
      return (.stmt n s' c p' { i with
        iv := buildTable i.hasIvar [s'.val, p'.val]
        dv := buildTable i.hasDvar [s'.val, p'.val]
        qv := buildTable i.hasQvar [s'.val, p'.val] }, n2)
    else return (.stmt a s c p i, n)
  | .comp a c os i =>
    if i.hasVar then do
      let (r, n1) ← clonePushO (c.isCommutative) (n + 1) os []
      return (.comp n c r { i with
        iv := buildTable i.hasIvar (Obj.vals r)
        dv := buildTable i.hasDvar (Obj.vals r)
        qv := buildTable i.hasQvar (Obj.vals r) }, n1)
    else return (.comp a c os i, n)
  | .var a k nm i =>
    if i.hasVar then
      return (.var n k nm { i with
        complexity := 1, isOperation := false, isHigherOrder := false }, n + 1)
    else return (.var a k nm i, n)
  | .atom a d i =>
    if i.hasVar then .throw "The type of the term is invalid." else return (.atom a d i, n)
  | .interval a m i =>
    if i.hasVar then .throw "The type of the term is invalid." else return (.interval a m i, n)
/-- `for (term : terms) acc->push_back(Term::clone(term))` (Compound.inl:50-52). -/
def clonePushO (comm : Bool) (n : Nat) : List Obj → List Obj → Res (List Obj × Nat)
  | [], acc => .ok (acc, n)
  | o :: os, acc => do
    let (o', n1) ← cloneO n o
    let acc ← (do if comm then setInsertO o' acc else return acc ++ [o'] : Res (List Obj))
    clonePushO comm n1 os acc
end

/-! ## Helper lemmas -/

theorem Obj.vals_eq (os : List Obj) : Obj.vals os = os.map Obj.val := by
  induction os with
  | nil => rfl
  | cons o os ih => simp [Obj.vals, ih]

theorem Obj.addrsAll_eq (os : List Obj) : Obj.addrsAll os = os.flatMap Obj.addrs := by
  induction os with
  | nil => rfl
  | cons o os ih => simp [Obj.addrsAll, ih]

theorem setInsertO_last {x : Obj} {s : List Obj} (h : ∀ y ∈ s, Above y.val x.val) :
    setInsertO x s = .ok (s ++ [x]) := by
  induction s with
  | nil => rfl
  | cons y ys ih =>
    have hy := h y (by simp)
    have := ih (fun z hz => h z (by simp [hz]))
    simp [setInsertO, hy.1, hy.2, this]

/-- How a clone relates to the original: variable-free objects are the very same; others are new,
with the same contents, and their components relate in the same way. -/
inductive Cloned (n : Nat) : Obj → Obj → Prop
  | same (o : Obj) : o.val.info.hasVar = false → Cloned n o o
  | var (a b : Nat) (k : VarKind) (nm : String) (i : Info) : i.hasVar = true → n ≤ b →
      Cloned n (.var a k nm i) (.var b k nm i)
  | stmt (a b : Nat) {s s' p p' : Obj} (c : Copula) (i : Info) : i.hasVar = true → n ≤ b →
      Cloned n s s' → Cloned n p p' → Cloned n (.stmt a s c p i) (.stmt b s' c p' i)
  | comp (a b : Nat) {os os' : List Obj} (c : Connector) (i : Info) : i.hasVar = true → n ≤ b →
      os.length = os'.length →
      (∀ (k : Nat) o o', os[k]? = some o → os'[k]? = some o' → Cloned n o o') →
      Cloned n (.comp a c os i) (.comp b c os' i)

theorem Cloned.mono {m n : Nat} (hmn : m ≤ n) {o o' : Obj} (h : Cloned n o o') : Cloned m o o' := by
  induction h with
  | same o h => exact .same o h
  | var a b k nm i h hb => exact .var a b k nm i h (by omega)
  | stmt a b c i h hb _ _ ih1 ih2 => exact .stmt a b c i h (by omega) ih1 ih2
  | comp a b c i h hb hl _ ih => exact .comp a b c i h (by omega) hl ih

/-- Sub-values of good values are good. -/
theorem Good.stmt_inv {s p : Term} {c : Copula} {i : Info} (h : Good (.stmt s c p i)) :
    Good s ∧ Good p := by
  generalize ht : Term.stmt s c p i = t at h
  cases h <;> simp [mkAtom, mkOperation, mkInterval, mkVar, mkStmt, finishComp] at ht
  next hs hp => obtain ⟨rfl, rfl, rfl, _⟩ := ht; exact ⟨hs, hp⟩

theorem Good.comp_inv {c : Connector} {ts : List Term} {i : Info} (h : Good (.comp c ts i)) :
    (∀ t ∈ ts, Good t) ∧ (c.isCommutative = true → SortedTs ts) := by
  generalize ht : Term.comp c ts i = t at h
  cases h <;> simp [mkAtom, mkOperation, mkInterval, mkVar, mkStmt, finishComp] at ht
  next hs hp => obtain ⟨rfl, rfl, _⟩ := ht; exact ⟨hs, hp⟩

mutual
theorem cloneO_spec : ∀ (o : Obj) (n : Nat), Good o.val →
    ∃ o' n', cloneO n o = .ok (o', n') ∧ o'.val = o.val ∧ Cloned n o o' ∧ n ≤ n'
  | .atom a d i, n, hg => by
    have hc := hg.clone
    simp only [Obj.val, Cnars.clone] at hc
    cases hv : i.hasVar with
    | false => exact ⟨_, n, by simp only [cloneO, hv]; rfl, rfl, .same _ hv, Nat.le_refl n⟩
    | true => simp [hv] at hc
  | .interval a d i, n, hg => by
    have hc := hg.clone
    simp only [Obj.val, Cnars.clone] at hc
    cases hv : i.hasVar with
    | false => exact ⟨_, n, by simp only [cloneO, hv]; rfl, rfl, .same _ hv, Nat.le_refl n⟩
    | true => simp [hv] at hc
  | .var a k nm i, n, hg => by
    have hc := hg.clone
    simp only [Obj.val, Cnars.clone, Res.pure_eq, Res.ok.injEq, Term.var.injEq, true_and] at hc
    cases hv : i.hasVar with
    | false => exact ⟨_, n, by simp only [cloneO, hv]; rfl, rfl, .same _ hv, Nat.le_refl n⟩
    | true =>
      refine ⟨.var n k nm i, n + 1, ?_, rfl, .var a n k nm i hv (Nat.le_refl n), by omega⟩
      simp only [cloneO, hv, if_true, Res.pure_eq, Res.ok.injEq, Prod.mk.injEq, and_true]
      rw [← hv]; exact congrArg (Obj.var n k nm) hc
  | .stmt a s c p i, n, hg => by
    have hc := hg.clone
    have hg' := Good.stmt_inv (by simpa only [Obj.val] using hg)
    simp only [Obj.val, Cnars.clone, hg'.1.clone, hg'.2.clone, Res.ok_bind] at hc
    cases hv : i.hasVar with
    | false => exact ⟨_, n, by simp only [cloneO, hv]; rfl, rfl, .same _ hv, Nat.le_refl n⟩
    | true =>
      obtain ⟨s', n1, e1, v1, k1, l1⟩ := cloneO_spec s (n + 1) hg'.1
      obtain ⟨p', n2, e2, v2, k2, l2⟩ := cloneO_spec p n1 hg'.2
      rw [if_pos hv] at hc
      simp only [Res.pure_eq, Res.ok.injEq, Term.stmt.injEq, true_and] at hc
      refine ⟨.stmt n s' c p' i, n2, ?_, ?_, ?_, by omega⟩
      · rw [cloneO, if_pos hv]
        simp only [e1, e2, Res.ok_bind, Res.pure_eq, v1, v2]
        rw [hc]
      · simp only [Obj.val, v1, v2]
      · exact .stmt a n c i hv (Nat.le_refl n) (k1.mono (by omega)) (k2.mono (by omega))
  | .comp a c os i, n, hg => by
    have hc := hg.clone
    have hg' := Good.comp_inv (by simpa only [Obj.val] using hg)
    cases hv : i.hasVar with
    | false => exact ⟨_, n, by simp only [cloneO, hv]; rfl, rfl, .same _ hv, Nat.le_refl n⟩
    | true =>
      rw [Obj.vals_eq] at hg'
      obtain ⟨r, n1, e1, v1, l1, k1, m1⟩ := clonePushO_spec os c.isCommutative (n + 1) []
        (fun o ho => hg'.1 _ (List.mem_map_of_mem ho)) (by simpa using hg'.2)
      simp only [List.nil_append] at e1
      simp only [Obj.val, Cnars.clone] at hc
      rw [clonePush_self (fun t ht => ((Obj.vals_eq os ▸ hg').1 t (by simpa [Obj.vals_eq] using ht)).clone)
        (by simpa [Obj.vals_eq] using hg'.2), if_pos hv] at hc
      simp only [List.nil_append, Res.ok_bind, Res.pure_eq, Res.ok.injEq, Term.comp.injEq,
        true_and] at hc
      have hvals : Obj.vals r = Obj.vals os := by rw [Obj.vals_eq, Obj.vals_eq, v1]
      refine ⟨.comp n c r i, n1, ?_, ?_, ?_, by omega⟩
      · rw [cloneO, if_pos hv]
        simp only [e1, Res.ok_bind, Res.pure_eq, hvals]
        rw [hc]
      · simp only [Obj.val, hvals]
      · exact .comp a n c i hv (Nat.le_refl n) l1.symm
          (fun k o o' h h' => (k1 k o o' h h').mono (by omega))
theorem clonePushO_spec : ∀ (os : List Obj) (comm : Bool) (n : Nat) (acc : List Obj),
    (∀ o ∈ os, Good o.val) → (comm = true → SortedTs ((acc ++ os).map Obj.val)) →
    ∃ r n', clonePushO comm n os acc = .ok (acc ++ r, n') ∧ r.map Obj.val = os.map Obj.val ∧
      r.length = os.length ∧
      (∀ (k : Nat) o o', os[k]? = some o → r[k]? = some o' → Cloned n o o') ∧ n ≤ n'
  | [], comm, n, acc, _, _ => ⟨[], n, by simp [clonePushO], rfl, rfl, by simp, Nat.le_refl n⟩
  | o :: os, comm, n, acc, hg, hs => by
    obtain ⟨o', n1, e1, v1, k1, l1⟩ := cloneO_spec o n (hg o (by simp))
    have hs' : comm = true → SortedTs (((acc ++ [o']) ++ os).map Obj.val) := by
      intro hc; simpa [v1] using hs hc
    obtain ⟨r, n2, e2, v2, l2, k2, m2⟩ := clonePushO_spec os comm n1 (acc ++ [o'])
      (fun x hx => hg x (by simp [hx])) hs'
    refine ⟨o' :: r, n2, ?_, by simp [v1, v2], by simp [l2], ?_, by omega⟩
    · unfold clonePushO
      simp only [e1, Res.ok_bind]
      cases comm with
      | false => simp [e2]
      | true =>
        have hab : ∀ y ∈ acc, Above y.val o'.val := by
          intro y hy
          have := hs rfl
          rw [List.map_append] at this
          rw [v1]
          exact (List.pairwise_append.1 this).2.2 y.val (List.mem_map_of_mem hy) o.val (by simp)
        simp [setInsertO_last hab, e2]
    · intro k x x' hx hx'
      cases k with
      | zero => simp at hx hx'; subst hx hx'; exact k1
      | succ k =>
        simp at hx hx'
        exact (k2 k x x' hx hx').mono l1
end

end Cnars
