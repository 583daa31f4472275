import Verif.Parser.Renaming
import Verif.Narsese.Flat

/-!
# Abbreviations
-/

namespace Cnars.Parser
open Cnars

/-- Cloning the components or not makes no difference to the value. -/
theorem mkCompF_input {ord : Order} {n : Nat} {c : Connector} {terms : List Term}
    (g : ∀ t ∈ terms, Good t) : mkCompF ord n c terms false = mkCompF ord n c terms true := by
  cases n with
  | zero => rfl
  | succ n =>
    simp only [mkCompF]
    cases hp : prepocess ord (fun c us => mkCompF ord n c us false) c terms with
    | ok q =>
      obtain ⟨c', us⟩ := q
      obtain ⟨hg, hc, hnc⟩ := prepocess_closed (P := Good) Good.downClosed
        (fun c vs t hvs hmk => mkCompF_good hvs hmk) g hp
      simp only [Res.ok_bind, Bool.false_eq_true, if_false, if_true, Res.pure_eq]
      rw [clonePush_self (fun t ht' => (hg t ht').clone) (by
        intro hcc
        cases hb : c.isCommutative with
        | true => exact (hc hb).1
        | false => rw [hnc hb, hb] at hcc; cases hcc)]
      simp
    | _ => rfl

theorem mkComp_input {ord : Order} {c : Connector} {args : List Term} (g : ∀ t ∈ args, Good t) :
    mkComp ord c args false = mkComp ord c args true := by
  simp only [mkComp]
  cases ho : Terms.ofList c.isCommutative args with
  | ok ts =>
    simp only [Res.ok_bind]
    exact mkCompF_input fun t ht => g t ((ofList_mem ho).2.1 t ht)
  | _ => rfl

theorem newStmt_input (s : Term) (c : Copula) (p : Term) : newStmt s c p true = .ok (Term.mkStmt s c p) :=
  rfl

theorem product_true (ord : Order) (ts : List Term) :
    mkComp ord .product ts true = .ok (Term.finishComp .product ts) := by
  have e : Connector.product.isCommutative = false := by decide
  have e' : Connector.product.isReducible = false := by decide
  simp [mkComp, mkCompF, prepocess, Terms.ofList, e, e']

theorem product_eq (ord : Order) (ts : List Term) (b : Bool) (g : ∀ t ∈ ts, Good t) :
    mkComp ord .product ts b = .ok (Term.finishComp .product ts) := by
  have h := product_true ord ts
  cases b
  · rw [mkComp_input g, h]
  · exact h

/-- Nothing is dropped. -/
theorem settle_none {args : List Term} {t : Term} (h : (addrsAll args).diff (addrs t) = [])
    (e : Env) : settle args t e = (.ok (), e) := by
  unfold settle Act.onWorld
  rw [h]
  rfl

theorem settle_perm {args args' : List Term} {t t' : Term}
    (h : ((addrsAll args).diff (addrs t)).Perm ((addrsAll args').diff (addrs t'))) :
    settle args t = settle args' t' := by
  unfold settle
  congr 1
  funext w
  congr 1
  exact List.Perm.eq_of_pairwise (le := (· ≤ ·)) (fun a b _ _ h1 h2 => BitVec.le_antisymm h1 h2)
    (List.pairwise_insertionSort (· ≤ ·) _) (List.pairwise_insertionSort (· ≤ ·) _)
    (((List.perm_insertionSort _ _).trans h).trans (List.perm_insertionSort _ _).symm)

theorem Act.bind_of_ok {α β : Type} {x : Act α} {k : α → Act β} {e e1 : Env} {a : α}
    (h : x e = (.ok a, e1)) : (x >>= k) e = k a e1 := by
  change Act.bind x k e = _
  unfold Act.bind
  rw [h]

theorem makingTerm_of_ok {args : List Term} {r : Res Term} {t : Term} (h : r = .ok t) (e : Env) :
    makingTerm args r e = (do settle args t; pure t : Act Term) e := by
  subst h
  rfl

theorem addrs_mkStmt (s : Term) (c : Copula) (p : Term) :
    addrs (Term.mkStmt s c p) = addrs s ++ addrs p := by simp [Term.mkStmt, addrs]

theorem addrsAll_two (s p : Term) : addrsAll [s, p] = addrs s ++ addrs p := by simp [addrsAll]

theorem addrsAll_one (s : Term) : addrsAll [s] = addrs s := by simp [addrsAll]

theorem diff_append_same (b c : List Word) : ∀ a : List Word, (a ++ b).diff (a ++ c) = b.diff c
  | [] => rfl
  | x :: a => by
    rw [List.cons_append, List.cons_append, List.diff_cons, List.erase_cons_head]
    exact diff_append_same b c a

/-- Making the set loses no atom. -/
def KeepsAtoms (M : Mach) (c : Connector) (x : Term) : Prop :=
  ∀ s, mkComp M.ord c [x] true = .ok s → (addrs x).Perm (addrs s)

section
variable {M : Mach} {e e' : Env} {r : Term}

theorem evalAll_one {a : Syn} : Syn.evalAll M [a] = (do let x ← a.eval M; pure [x]) := by
  simp [Syn.evalAll]

theorem eval_set {c : Connector} {a : Syn} :
    (Syn.comp c [a]).eval M = (do let x ← a.eval M; makingTerm [x] (mkComp M.ord c [x] true)) := by
  simp [Syn.eval, evalAll_one]

/-- What a statement evaluates to. -/
theorem eval_stmt_ok {a b : Syn} {c : Copula} :
    (Syn.stmt a c b).eval M e = (.ok r, e') ↔ ∃ x e1 y e2, a.eval M e = (.ok x, e1) ∧
      b.eval M e1 = (.ok y, e2) ∧ Action.newStatement M x c y = .ok r ∧
      settle [x, y] r e2 = (.ok (), e') := by
  constructor
  · intro h
    rw [Syn.eval] at h
    obtain ⟨x, e1, h1, h⟩ := Act.bind_ok h
    obtain ⟨y, e2, h2, h⟩ := Act.bind_ok h
    obtain ⟨t, e3, h3, h⟩ := Act.bind_ok h
    obtain ⟨u, e4, h4, h⟩ := Act.bind_ok h
    obtain ⟨rfl, rfl⟩ := Act.pure_ok h
    obtain ⟨h5, rfl⟩ := Act.lift_ok h3
    exact ⟨x, e1, y, _, h1, h2, h5, h4⟩
  · rintro ⟨x, e1, y, e2, h1, h2, h3, h4⟩
    rw [Syn.eval, Act.bind_of_ok h1, Act.bind_of_ok h2, makingTerm_of_ok h3, Act.bind_of_ok h4]
    rfl

theorem eval_set_ok {a : Syn} {c : Connector} :
    (Syn.comp c [a]).eval M e = (.ok r, e') ↔ ∃ x e1, a.eval M e = (.ok x, e1) ∧
      mkComp M.ord c [x] true = .ok r ∧ settle [x] r e1 = (.ok (), e') := by
  rw [eval_set]
  constructor
  · intro h
    obtain ⟨x, e1, h1, h⟩ := Act.bind_ok h
    obtain ⟨t, e3, h3, h⟩ := Act.bind_ok h
    obtain ⟨u, e4, h4, h⟩ := Act.bind_ok h
    obtain ⟨rfl, rfl⟩ := Act.pure_ok h
    obtain ⟨h5, rfl⟩ := Act.lift_ok h3
    exact ⟨x, _, h1, h5, h4⟩
  · rintro ⟨x, e1, h1, h3, h4⟩
    rw [Act.bind_of_ok h1, makingTerm_of_ok h3, Act.bind_of_ok h4]
    rfl

/-- The set of a term, as used by abbreviations. -/
theorem set_false {c : Connector} {x : Term} (g : Good x) :
    mkComp M.ord c [x] false = mkComp M.ord c [x] true := mkComp_input (by simpa using g)

theorem diff_nil_of_perm {a b : List Word} (h : a.Perm b) : a.diff b = [] := by
  rw [← List.Perm.diff_left a h]
  have := diff_append_same [] [] a
  simpa using this

theorem eval_instance {a b : Syn}
    (hk : ∀ x e1, a.eval M e = (.ok x, e1) → KeepsAtoms M .extensionalSet x) :
    (Syn.stmt a .instance b).eval M e = (.ok r, e') ↔
      (Syn.stmt (.comp .extensionalSet [a]) .inheritance b).eval M e = (.ok r, e') := by
  rw [eval_stmt_ok, eval_stmt_ok]
  constructor
  · rintro ⟨x, e1, y, e2, h1, h2, h3, h4⟩
    simp only [Action.newStatement, Res.bind_eq_ok] at h3
    obtain ⟨s, h5, h6⟩ := h3
    rw [set_false (Syn.eval_names M a h1).1] at h5
    have hp := hk x e1 h1 s h5
    rw [newStmt_input, Res.ok.injEq] at h6
    subst h6
    refine ⟨s, e1, y, e2, ?_, h2, rfl, ?_⟩
    · exact eval_set_ok.mpr ⟨x, e1, h1, h5, settle_none (by
        rw [addrsAll_one]; exact diff_nil_of_perm hp) e1⟩
    · rw [← h4]
      refine congrFun (settle_perm ?_) e2
      rw [addrsAll_two, addrsAll_two, addrs_mkStmt]
      exact (hp.symm.append_right _).diff_right _
  · rintro ⟨s, e1, y, e2, h1, h2, h3, h4⟩
    obtain ⟨x, e0, h5, h6, h7⟩ := eval_set_ok.mp h1
    have hp := hk x e0 h5 s h6
    rw [settle_none (by rw [addrsAll_one]; exact diff_nil_of_perm hp)] at h7
    obtain rfl : e0 = e1 := by simpa using h7
    refine ⟨x, e0, y, e2, h5, h2, ?_, ?_⟩
    · simp only [Action.newStatement, set_false (Syn.eval_names M a h5).1, h6, Res.ok_bind]
      exact h3
    · rw [← h4]
      simp only [Action.newStatement, newStmt_input, Res.ok.injEq] at h3
      subst h3
      refine congrFun (settle_perm ?_) e2
      rw [addrsAll_two, addrsAll_two, addrs_mkStmt]
      exact (hp.append_right _).diff_right _

theorem eval_property {a b : Syn} :
    (Syn.stmt a .property b).eval M e = (.ok r, e') ↔
      (Syn.stmt a .inheritance (.comp .intensionalSet [b])).eval M e = (.ok r, e') := by
  rw [eval_stmt_ok, eval_stmt_ok]
  have same : ∀ x y s : Term, ((addrsAll [x, y]).diff (addrs (Term.mkStmt x .inheritance s))).Perm
      ((addrsAll [y]).diff (addrs s)) := fun x y s => by
    rw [addrsAll_two, addrsAll_one, addrs_mkStmt, diff_append_same]
  have none' : ∀ x s : Term, (addrsAll [x, s]).diff (addrs (Term.mkStmt x .inheritance s)) = [] :=
    fun x s => by rw [addrsAll_two, addrs_mkStmt]; exact diff_nil_of_perm (.refl _)
  constructor
  · rintro ⟨x, e1, y, e2, h1, h2, h3, h4⟩
    simp only [Action.newStatement, Res.bind_eq_ok] at h3
    obtain ⟨s, h5, h6⟩ := h3
    rw [set_false (Syn.eval_names M b h2).1] at h5
    rw [newStmt_input, Res.ok.injEq] at h6
    subst h6
    refine ⟨x, e1, s, e', h1, eval_set_ok.mpr ⟨y, e2, h2, h5, ?_⟩, rfl, settle_none (none' x s) e'⟩
    rw [← settle_perm (same x y s)]
    exact h4
  · rintro ⟨x, e1, s, e2, h1, h2, h3, h4⟩
    obtain ⟨y, e3, h5, h6, h7⟩ := eval_set_ok.mp h2
    simp only [Action.newStatement, newStmt_input, Res.ok.injEq] at h3
    subst h3
    rw [settle_none (none' x s)] at h4
    obtain rfl : e2 = e' := by simpa using h4
    refine ⟨x, e1, y, e3, h1, h5, ?_, ?_⟩
    · simp only [Action.newStatement, set_false (Syn.eval_names M b h5).1, h6, Res.ok_bind,
        newStmt_input]
    · rw [settle_perm (same x y s)]
      exact h7

theorem eval_instanceProperty {a b : Syn}
    (hk : ∀ x e1, a.eval M e = (.ok x, e1) → KeepsAtoms M .extensionalSet x) :
    (Syn.stmt a .instanceProperty b).eval M e = (.ok r, e') ↔
      (Syn.stmt (.comp .extensionalSet [a]) .inheritance (.comp .intensionalSet [b])).eval M e =
        (.ok r, e') := by
  rw [← eval_property]
  have same : ∀ x y s t : Term, (addrs x).Perm (addrs s) →
      ((addrsAll [x, y]).diff (addrs (Term.mkStmt s .inheritance t))).Perm
      ((addrsAll [s, y]).diff (addrs (Term.mkStmt s .inheritance t))) := fun x y s t hp => by
    rw [addrsAll_two, addrsAll_two]
    exact (hp.append_right _).diff_right _
  rw [eval_stmt_ok, eval_stmt_ok]
  constructor
  · rintro ⟨x, e1, y, e2, h1, h2, h3, h4⟩
    simp only [Action.newStatement, Res.bind_eq_ok] at h3
    obtain ⟨s, h5, t, h8, h6⟩ := h3
    rw [set_false (Syn.eval_names M a h1).1] at h5
    have hp := hk x e1 h1 s h5
    rw [newStmt_input, Res.ok.injEq] at h6
    subst h6
    refine ⟨s, e1, y, e2, eval_set_ok.mpr ⟨x, e1, h1, h5, settle_none (by
        rw [addrsAll_one]; exact diff_nil_of_perm hp) e1⟩, h2, ?_, ?_⟩
    · simp only [Action.newStatement, h8, Res.ok_bind, newStmt_input]
    · rw [← settle_perm (same x y s t hp)]
      exact h4
  · rintro ⟨s, e1, y, e2, h1, h2, h3, h4⟩
    obtain ⟨x, e0, h5, h6, h7⟩ := eval_set_ok.mp h1
    have hp := hk x e0 h5 s h6
    rw [settle_none (by rw [addrsAll_one]; exact diff_nil_of_perm hp)] at h7
    obtain rfl : e0 = e1 := by simpa using h7
    simp only [Action.newStatement, Res.bind_eq_ok] at h3
    obtain ⟨t, h8, h9⟩ := h3
    rw [newStmt_input, Res.ok.injEq] at h9
    subst h9
    refine ⟨x, e0, y, e2, h5, h2, ?_, ?_⟩
    · simp only [Action.newStatement, set_false (Syn.eval_names M a h5).1, h6, h8, Res.ok_bind,
        newStmt_input]
    · rw [settle_perm (same x y s t hp)]
      exact h4

/-- What an operation call evaluates to. -/
theorem eval_callName {s : List Char} {ts : List Syn} :
    (Syn.callName s ts).eval M = (Syn.stmt (.comp .product ts) .inheritance (.op s)).eval M := by
  have hL : (Syn.callName s ts).eval M = (do
      let ts ← Syn.evalAll M ts
      let f ← Action.theOperation M s
      makingTerm (f :: ts) (Action.newOperation M f ts)) := by rw [Syn.eval]
  have hR : (Syn.stmt (.comp .product ts) .inheritance (.op s)).eval M = (do
      let ts ← Syn.evalAll M ts
      let s' ← makingTerm ts (mkComp M.ord .product ts true)
      let p ← Action.theOperation M s
      makingTerm [s', p] (Action.newStatement M s' .inheritance p)) := by
    rw [Syn.eval, Syn.eval, Syn.eval, bind_assoc]
  rw [hL, hR]
  funext e
  cases h1 : Syn.evalAll M ts e with
  | mk us e1 =>
    cases us with
    | ok us =>
      have g := (Syn.evalAll_names M ts h1).1
      have hp := product_eq M.ord us true g
      have ha : ∀ us : List Term, addrs (Term.finishComp .product us) = addrsAll us := fun us => by
        simp [Term.finishComp, addrs]
      have h2 : makingTerm us (mkComp M.ord .product us true) e1 =
          (.ok (Term.finishComp .product us), e1) := by
        rw [makingTerm_of_ok hp, Act.bind_of_ok (settle_none (by
          rw [ha]; exact diff_nil_of_perm (.refl _)) e1)]
        rfl
      rw [Act.bind_of_ok h1, Act.bind_of_ok h1, Act.bind_of_ok h2]
      refine congrFun (congrArg (Action.theOperation M s >>= ·) ?_) e1
      funext f
      unfold makingTerm
      simp only [Action.newOperation, hp, Res.ok_bind, newStmt_input, Action.newStatement]
      change (do settle _ _; pure _ : Act Term) = (do settle _ _; pure _ : Act Term)
      rw [settle_perm]
      rw [addrsAll_two, ha, addrsAll]
      exact List.perm_append_comm.diff_right _
    | throw m => change Act.bind _ _ _ = Act.bind _ _ _; simp [Act.bind, h1]
    | ub => change Act.bind _ _ _ = Act.bind _ _ _; simp [Act.bind, h1]
    | outOfFuel => change Act.bind _ _ _ = Act.bind _ _ _; simp [Act.bind, h1]

theorem eval_call_ok {f : Syn} {ts : List Syn} (h : (Syn.call f ts).eval M e = (.ok r, e')) :
    ∃ g e1 us, f.eval M e = (.ok g, e1) ∧ Syn.evalAll M ts e1 = (.ok us, e') ∧
      r = Term.mkStmt (Term.finishComp .product us) .inheritance g := by
  rw [Syn.eval] at h
  obtain ⟨g, e1, h1, h⟩ := Act.bind_ok h
  obtain ⟨us, e2, h2, h⟩ := Act.bind_ok h
  have hg := (Syn.evalAll_names M ts h2).1
  have h3 : Action.newOperation M g us =
      .ok (Term.mkStmt (Term.finishComp .product us) .inheritance g) := by
    rw [Action.newOperation, product_eq M.ord us true hg, Res.ok_bind, newStmt_input]
  rw [makingTerm_of_ok h3] at h
  have ha : addrs (Term.finishComp .product us) = addrsAll us := by simp [Term.finishComp, addrs]
  rw [Act.bind_of_ok (settle_none (by
    rw [addrs_mkStmt, ha, addrsAll]
    exact diff_nil_of_perm List.perm_append_comm) e2)] at h
  obtain ⟨rfl, rfl⟩ := Act.pure_ok h
  exact ⟨g, e1, us, h1, h2, rfl⟩
end

theorem making_keep {args : List Term} {r : Res Term} {t : Term} {e : Env} (h : r = .ok t)
    (ha : (addrsAll args).diff (addrs t) = []) : making args r e = (.ok (.term t), e) := by
  rw [making_eq]
  have : makingTerm args r e = (.ok t, e) := by
    rw [makingTerm_of_ok h, Act.bind_of_ok (settle_none ha e)]
    rfl
  rw [Act.bind_of_ok this]
  rfl

theorem evalAll_ok {M : Mach} {bad : Act Val} {a : Ast} {as : List Ast} {v : Val} {vs : List Val}
    {e e1 e2 : Env} (h1 : evalNode M bad a e = (.ok v, e1)) (h2 : evalAll M bad as e1 = (.ok vs, e2)) :
    evalAll M bad (a :: as) e = (.ok (v :: vs), e2) := by
  rw [evalAll, Act.bind_of_ok h1, Act.bind_of_ok h2]
  rfl

theorem evalNode_ok {M : Mach} {bad : Act Val} {n : Emit} {c : Ast} {cs : List Ast} {vs : List Val}
    {v : Val} {e e1 e2 : Env} (h1 : evalAll M bad (c :: cs) e = (.ok vs, e1)) (hn : n ∈ registered)
    {a : Act Val} (ha : act M n (some vs) = some a) (h2 : a e1 = (.ok v, e2)) :
    evalNode M bad (.node n (c :: cs)) e = (.ok v, e2) := by
  rw [evalNode, Act.bind_of_ok h1, List.isEmpty_cons, if_neg (by decide), dispatch_works hn ha]
  exact h2

/-! ## Abbreviations inside trees -/

/-- Two computations that return the same. -/
def Act.Same {α : Type} (x y : Act α) : Prop :=
  ∀ e r e', x e = (.ok r, e') ↔ y e = (.ok r, e')

theorem Act.Same.refl {α : Type} (x : Act α) : x.Same x := fun _ _ _ => Iff.rfl

theorem Act.bind_ok_iff {α β : Type} {x : Act α} {k : α → Act β} {e e' : Env} {b : β} :
    (x >>= k) e = (.ok b, e') ↔ ∃ a e1, x e = (.ok a, e1) ∧ k a e1 = (.ok b, e') :=
  ⟨fun h => Act.bind_ok h, fun ⟨_, _, h1, h2⟩ => by rw [Act.bind_of_ok h1]; exact h2⟩

theorem Act.Same.bind {α β : Type} {x y : Act α} {k k' : α → Act β} (h : x.Same y)
    (hk : ∀ a, (k a).Same (k' a)) : (x >>= k).Same (y >>= k') := by
  intro e r e'
  rw [Act.bind_ok_iff, Act.bind_ok_iff]
  simp only [h e, hk _ _ r e']

/-- Two terms that evaluate to the same. -/
def Syn.Same (M : Mach) (t u : Syn) : Prop := (t.eval M).Same (u.eval M)

/-- The same for lists. -/
inductive Syn.SameAll (M : Mach) : List Syn → List Syn → Prop where
  | nil : SameAll M [] []
  | cons {t u : Syn} {ts us : List Syn} : Syn.Same M t u → SameAll M ts us →
      SameAll M (t :: ts) (u :: us)

theorem Syn.SameAll.eval {M : Mach} {ts us : List Syn} (h : Syn.SameAll M ts us) :
    (Syn.evalAll M ts).Same (Syn.evalAll M us) := by
  induction h with
  | nil => exact Act.Same.refl _
  | cons h1 _ ih =>
    rw [Syn.evalAll, Syn.evalAll]
    exact Act.Same.bind h1 fun _ => Act.Same.bind ih fun _ => Act.Same.refl _

section
variable {M : Mach}

theorem Syn.Same.refl (t : Syn) : Syn.Same M t t := Act.Same.refl _

theorem Syn.Same.trans {t u v : Syn} (h : Syn.Same M t u) (h' : Syn.Same M u v) : Syn.Same M t v :=
  fun e r e' => (h e r e').trans (h' e r e')

theorem Syn.Same.stmt {s s' p p' : Syn} {c : Copula} (hs : Syn.Same M s s') (hp : Syn.Same M p p') :
    Syn.Same M (.stmt s c p) (.stmt s' c p') := by
  unfold Syn.Same
  rw [Syn.eval, Syn.eval]
  exact Act.Same.bind hs fun _ => Act.Same.bind hp fun _ => Act.Same.refl _

theorem Syn.Same.comp {ts us : List Syn} {c : Connector} (h : Syn.SameAll M ts us) :
    Syn.Same M (.comp c ts) (.comp c us) := by
  unfold Syn.Same
  rw [Syn.eval, Syn.eval]
  exact Act.Same.bind h.eval fun _ => Act.Same.refl _

theorem Syn.Same.call {f f' : Syn} {ts us : List Syn} (hf : Syn.Same M f f')
    (h : Syn.SameAll M ts us) : Syn.Same M (.call f ts) (.call f' us) := by
  unfold Syn.Same
  rw [Syn.eval, Syn.eval]
  exact Act.Same.bind hf fun _ => Act.Same.bind h.eval fun _ => Act.Same.refl _

theorem Syn.Same.callName {s : List Char} {ts us : List Syn} (h : Syn.SameAll M ts us) :
    Syn.Same M (.callName s ts) (.callName s us) := by
  unfold Syn.Same
  rw [Syn.eval, Syn.eval]
  exact Act.Same.bind h.eval fun _ => Act.Same.refl _
end

/-- Not a set `{…}`, and not an intensional intersection, which may become one. -/
def Syn.plain : Syn → Bool
  | .comp c _ => !(c = .extensionalSet || c = .intensionalIntersection)
  | _ => true

/-- The set of a single term that is not a commutative compound. -/
theorem mkComp_single {ord : Order} (hord : ∀ l, (ord l).Perm l) {c : Connector} {x : Term}
    (hc : c = .extensionalSet ∨ c = .intensionalSet) (hx : category x = none) (g : Good x) :
    mkComp ord c [x] true = .ok (Term.finishComp c [x]) := by
  have hcc : c.isCommutative = true := by rcases hc with rfl | rfl <;> decide
  have hcr : c.isReducible = true := by rcases hc with rfl | rfl <;> decide
  have hun : unfold c [x] = [x] := by
    cases x with
    | comp k us i =>
      have : k ≠ c := by
        rintro rfl
        simp [category, hcc] at hx
      simp [unfold, this]
    | _ => rfl
  rw [mkComp_eq (ts := [x]) (by simp [Terms.ofList, hcc, setInsertAll, setInsert])]
  refine mkCompF_of_prepocess (by simpa using g) ?_
  have hk : keys [x] = [none] := by simp [keys, hx]
  have hn : normAll c [x] (ord (keys [x])) = .ok [(none, [x])] := by
    rw [hk, perm_singleton hord]
    simp [normAll, normGroup, group, hx]
  simp [prepocess, hcr, hcc, hun, setInsertAll, setInsert, hn, finalStep]

theorem mergeKind_set (k : Connector) (h : k ≠ .extensionalSet) :
    mergeKind .extensionalSet k = .none := by
  cases k <;> first | rfl | exact absurd rfl h

/-- The set of a commutative compound other than a set. -/
theorem mkComp_compound {ord : Order} (hord : ∀ l, (ord l).Perm l) {k : Connector} {us : List Term}
    {i : Info} (hk : k.isCommutative = true) (hne : k ≠ .extensionalSet)
    (g : Good (Term.comp k us i)) :
    mkComp ord .extensionalSet [.comp k us i] true = .ok (Term.finishComp .extensionalSet us) := by
  have hs : SortedTs us := by
    generalize hx : Term.comp k us i = x at g
    cases g with
    | comp c hts hs =>
      simp only [Term.finishComp, Term.comp.injEq] at hx
      obtain ⟨rfl, rfl, _⟩ := hx
      exact hs hk
    | _ => simp [Term.mkAtom, Term.mkOperation, Term.mkInterval, Term.mkVar, Term.mkStmt] at hx
  have hcc : Connector.extensionalSet.isCommutative = true := by decide
  have hcr : Connector.extensionalSet.isReducible = true := by decide
  rw [mkComp_eq (ts := [.comp k us i]) (by simp [Terms.ofList, hcc, setInsertAll, setInsert])]
  refine mkCompF_of_prepocess (by simpa using g) ?_
  have hun : unfold .extensionalSet [.comp k us i] = [.comp k us i] := by simp [unfold, hne]
  have hcat : category (.comp k us i) = some k := by simp [category, hk]
  have hn : normAll .extensionalSet [.comp k us i] (ord (keys [.comp k us i])) = .ok [(some k, us)] := by
    have hkk : keys [Term.comp k us i] = [some k] := by simp [keys, hcat]
    rw [hkk, perm_singleton hord]
    simp [normAll, normGroup, group, hcat, mergeCompounds, mergeKind_set k hne, Term.comps]
  have hfs : finalStep .extensionalSet (some k) us = .ok (.extensionalSet, us) := by
    unfold finalStep
    rw [setInsertAll_self hs, Res.ok_bind]
    split <;> simp
  simp [prepocess, hcr, hcc, hun, setInsertAll, setInsert, hn, hfs]

theorem keeps_plain {M : Mach} (hord : ∀ l, (M.ord l).Perm l) {x : Term}
    (hx : category x ≠ some .extensionalSet) (g : Good x) :
    KeepsAtoms M .extensionalSet x := by
  intro s hs
  cases hc : category x with
  | none =>
    rw [mkComp_single hord (.inl rfl) hc g, Res.ok.injEq] at hs
    subst hs
    simp [Term.finishComp, addrs, addrsAll]
  | some k =>
    obtain ⟨us, i, rfl, hk⟩ := category_comp hc
    have hne : k ≠ .extensionalSet := fun e => hx (by rw [hc, e])
    rw [mkComp_compound hord hk hne g, Res.ok.injEq] at hs
    subst hs
    simp [Term.finishComp, addrs]

theorem newStatement_stmt {M : Mach} {x y r : Term} {c : Copula}
    (h : Action.newStatement M x c y = .ok r) : category r = none := by
  have key : ∀ {s : Term} {c : Copula} {p : Term}, newStmt s c p true = .ok r → category r = none := by
    intro s c p h
    rw [newStmt_input, Res.ok.injEq] at h
    subst h
    rfl
  unfold Action.newStatement at h
  split at h <;> try simp only [Res.bind_eq_ok] at h
  · obtain ⟨_, _, h⟩ := h; exact key h
  · obtain ⟨_, _, h⟩ := h; exact key h
  · obtain ⟨_, _, _, _, h⟩ := h; exact key h
  · exact key h

theorem newOperation_stmt {M : Mach} {f r : Term} {ts : List Term}
    (h : Action.newOperation M f ts = .ok r) : category r = none := by
  rw [Action.newOperation, Res.bind_eq_ok] at h
  obtain ⟨_, _, h⟩ := h
  rw [newStmt_input, Res.ok.injEq] at h
  subst h
  rfl

theorem lastTerm_plain {r : Term} {e e' : Env} (h : lastTerm e = (.ok r, e')) :
    category r = none := by
  simp only [lastTerm, lastAtom, Prod.mk.injEq] at h
  obtain ⟨h, _⟩ := h
  cases h1 : e.world.handles.getLast? with
  | none => simp [h1] at h
  | some t =>
    cases h2 : e.world.atoms[t]? with
    | none => simp [h1, h2] at h
    | some a =>
      simp only [h1, h2, Res.ok.injEq] at h
      subst h
      split <;> rfl

/-- The connector after construction. -/
theorem mkComp_category {ord : Order} {c : Connector} {args : List Term} {b : Bool} {r : Term}
    (g : ∀ t ∈ args, Good t) (h : mkComp ord c args b = .ok r) {k : Connector}
    (hk : category r = some k) : k = c ∨ (k = .extensionalSet ∧ c = .intensionalIntersection) ∨
      (k = .intensionalSet ∧ c = .extensionalIntersection) := by
  simp only [mkComp, Res.bind_eq_ok] at h
  obtain ⟨ts, h1, h2⟩ := h
  obtain ⟨m, c', us, _, h3, _, _, _, rfl⟩ :=
    mkCompF_inv (fun t ht => g t ((ofList_mem h1).2.1 t ht)) h2
  have := prepocess_connector h3
  simp only [category, Term.finishComp] at hk
  split at hk
  · simp only [Option.some.injEq] at hk
    subst hk
    exact this
  · cases hk

/-- A term that is not written as a set is none. -/
theorem Syn.plain_eval {M : Mach} {t : Syn} (ht : t.plain = true) {e e' : Env} {r : Term}
    (h : t.eval M e = (.ok r, e')) : category r ≠ some .extensionalSet := by
  have none_ne : category r = none → category r ≠ some .extensionalSet := fun h => by rw [h]; simp
  cases t with
  | comp c ts =>
    rw [Syn.eval] at h
    obtain ⟨us, _, h1, h⟩ := Act.bind_ok h
    intro hk
    have := mkComp_category (Syn.evalAll_names M ts h1).1 (makingTerm_ok h).1 hk
    simp [Syn.plain] at ht
    rcases this with h | ⟨_, h⟩ | ⟨h, _⟩
    · exact ht.1 h.symm
    · exact ht.2 h
    · cases h
  | name s =>
    rw [Syn.eval] at h
    obtain ⟨_, _, _, h⟩ := Act.bind_ok h
    exact none_ne (lastTerm_plain h)
  | op s =>
    rw [Syn.eval] at h
    obtain ⟨_, _, _, h⟩ := Act.bind_ok h
    exact none_ne (lastTerm_plain h)
  | interval s =>
    rw [Syn.eval] at h
    obtain ⟨_, _, _, h⟩ := Act.bind_ok h
    obtain ⟨_, _, _, h⟩ := Act.bind_ok h
    obtain ⟨rfl, rfl⟩ := Act.pure_ok h
    exact none_ne rfl
  | var k s =>
    rw [Syn.eval] at h
    obtain ⟨_, _, _, h⟩ := Act.bind_ok h
    obtain ⟨rfl, rfl⟩ := Act.pure_ok h
    exact none_ne rfl
  | stmt s c p =>
    obtain ⟨_, _, _, _, _, _, h, _⟩ := eval_stmt_ok.mp h
    exact none_ne (newStatement_stmt h)
  | call f ts =>
    rw [Syn.eval] at h
    obtain ⟨_, _, _, h⟩ := Act.bind_ok h
    obtain ⟨_, _, _, h⟩ := Act.bind_ok h
    exact none_ne (newOperation_stmt (makingTerm_ok h).1)
  | callName s ts =>
    rw [Syn.eval] at h
    obtain ⟨_, _, _, h⟩ := Act.bind_ok h
    obtain ⟨_, _, _, h⟩ := Act.bind_ok h
    exact none_ne (newOperation_stmt (makingTerm_ok h).1)

/-- Written otherwise than as a set `{…}` or an intensional intersection `(|,…)`. -/
def Ast.plain (a : Ast) : Prop := ∀ t, a.part = some (.syn t) → t.plain = true

/-- The connector an infix expression stands for. -/
def infixOf : Emit → Option Emit
  | .multi_prod_expr => some .con_product
  | .multi_disj_expr => some .con_disjunction
  | .multi_conj_expr => some .con_conjunction
  | .multi_sequential_expr => some .con_sequential_events
  | .multi_parallel_expr => some .con_parallel_events
  | .multi_intint_expr => some .con_intensional_intersection
  | .multi_extint_expr => some .con_extensional_intersection
  | _ => none

mutual
/-- The first tree abbreviates the second: some of its nodes are rewritten as follows. -/
inductive Ast.Abbr : Ast → Ast → Prop where
  | leaf (e : Emit) (s : List Char) : Ast.Abbr (.leaf e s) (.leaf e s)
  | node (e : Emit) {cs cs' : List Ast} : Ast.AbbrAll cs cs' → Ast.Abbr (.node e cs) (.node e cs')
  /-- `<A {-- B>` is `<{A} --> B>` -/
  | instance {s s' p p' : Ast} : s.plain → Ast.Abbr s s' → Ast.Abbr p p' →
      Ast.Abbr (.node .statement [s, .node .instance [], p])
        (.node .statement [.node .compound_term [.node .set [.node .con_ext_set [], s']],
          .node .inheritance [], p'])
  /-- `<A --] B>` is `<A --> [B]>` -/
  | property {s s' p p' : Ast} : Ast.Abbr s s' → Ast.Abbr p p' →
      Ast.Abbr (.node .statement [s, .node .property [], p])
        (.node .statement [s', .node .inheritance [],
          .node .compound_term [.node .set [.node .con_int_set [], p']]])
  /-- `<A {-] B>` is `<{A} --> [B]>` -/
  | instanceProperty {s s' p p' : Ast} : s.plain → Ast.Abbr s s' → Ast.Abbr p p' →
      Ast.Abbr (.node .statement [s, .node .instance_property [], p])
        (.node .statement [.node .compound_term [.node .set [.node .con_ext_set [], s']],
          .node .inheritance [], .node .compound_term [.node .set [.node .con_int_set [], p']]])
  /-- `op(A, B)` is `<(*, A, B) --> ^op>` -/
  | callName {st : Emit} {n : List Char} {ts ts' : List Ast} : Ast.AbbrAll ts ts' →
      Ast.Abbr (.node .statement_operation2 (.leaf st n :: ts))
        (.node .statement [.node .compound_term [.node .multi_prefix (.node .con_product [] :: ts')],
          .node .inheritance [], .node .operation [.leaf st n]])
  /-- `(A & B)` is `(&, A, B)` -/
  | infix {e c : Emit} {ts ts' : List Ast} : infixOf e = some c → Ast.AbbrAll ts ts' →
      Ast.Abbr (.node .multi_infix [.node e ts]) (.node .multi_prefix (.node c [] :: ts'))
  /-- `A & B`, as it can be written inside `(-, A & B, C)` -/
  | bare {e c : Emit} {ts ts' : List Ast} : infixOf e = some c → Ast.AbbrAll ts ts' →
      Ast.Abbr (.node e ts) (.node .compound_term [.node .multi_prefix (.node c [] :: ts')])
  /-- `(A, B)` is `(*, A, B)` -/
  | tuple {ts ts' : List Ast} : Ast.AbbrAll ts ts' →
      Ast.Abbr (.node .multi_prefix_product ts) (.node .multi_prefix (.node .con_product [] :: ts'))
  /-- `(A - B)` is `(-, A, B)` -/
  | single {s s' c p p' : Ast} : Ast.Abbr s s' → Ast.Abbr p p' →
      Ast.Abbr (.node .single_infix [s, c, p]) (.node .single_prefix [c, s', p'])
/-- The same for siblings. -/
inductive Ast.AbbrAll : List Ast → List Ast → Prop where
  | nil : Ast.AbbrAll [] []
  | cons {a a' : Ast} {as as' : List Ast} : Ast.Abbr a a' → Ast.AbbrAll as as' →
      Ast.AbbrAll (a :: as) (a' :: as')
end

/-- Parts with the same meaning. -/
def Part.Same (M : Mach) : Part → Part → Prop
  | .syn t, q => ∃ u, q = .syn u ∧ Syn.Same M t u
  | .sentence p t ms, q => ∃ u, q = .sentence p u ms ∧ Syn.Same M t u
  | .task b p t ms, q => ∃ u, q = .task b p u ms ∧ Syn.Same M t u
  | p, q => q = p

theorem Part.Same.refl (M : Mach) (p : Part) : Part.Same M p p := by
  cases p <;> simp [Part.Same, Syn.Same.refl]

/-- The same for lists. -/
inductive Part.SameAll (M : Mach) : List Part → List Part → Prop where
  | nil : SameAll M [] []
  | cons {t u : Part} {ts us : List Part} : Part.Same M t u → SameAll M ts us →
      SameAll M (t :: ts) (u :: us)

theorem Part.SameAll.syns {M : Mach} {ps qs : List Part} (h : Part.SameAll M ps qs) :
    ∀ {ts : List Syn}, Part.syns? ps = some ts → ∃ us, Part.syns? qs = some us ∧ Syn.SameAll M ts us := by
  induction h with
  | nil => intro ts h; simp only [Part.syns?, Option.some.injEq] at h; subst h; exact ⟨[], rfl, .nil⟩
  | @cons p q ps qs h1 _ ih =>
    intro ts h
    cases p with
    | syn t =>
      obtain ⟨u, rfl, h1⟩ := h1
      simp only [Part.syns?, Option.map_eq_some_iff] at h
      obtain ⟨ts', h2, rfl⟩ := h
      obtain ⟨us, h3, h4⟩ := ih h2
      exact ⟨u :: us, by simp [Part.syns?, h3], .cons h1 h4⟩
    | _ => cases h

theorem Part.SameAll.marks {M : Mach} {ps qs : List Part} (h : Part.SameAll M ps qs) :
    ∀ {ts : List Mark}, Part.marks? ps = some ts → Part.marks? qs = some ts := by
  induction h with
  | nil => exact fun h => h
  | @cons p q ps qs h1 _ ih =>
    intro ts h
    cases p with
    | mark t =>
      obtain rfl := h1
      simp only [Part.marks?, Option.map_eq_some_iff] at h
      obtain ⟨ts', h2, rfl⟩ := h
      simp [Part.marks?, ih h2]
    | _ => cases h

theorem Part.SameAll.nums {M : Mach} {ps qs : List Part} (h : Part.SameAll M ps qs) :
    ∀ {ts : List (List Char)}, Part.nums? ps = some ts → Part.nums? qs = some ts := by
  induction h with
  | nil => exact fun h => h
  | @cons p q ps qs h1 _ ih =>
    intro ts h
    cases p with
    | num t =>
      obtain rfl := h1
      simp only [Part.nums?, Option.map_eq_some_iff] at h
      obtain ⟨ts', h2, rfl⟩ := h
      simp [Part.nums?, ih h2]
    | _ => cases h

theorem Part.sameAll_nil {M : Mach} {qs : List Part} : Part.SameAll M [] qs ↔ qs = [] :=
  ⟨fun h => by cases h; rfl, fun h => by rw [h]; exact .nil⟩

theorem Part.sameAll_cons {M : Mach} {p : Part} {ps qs : List Part} :
    Part.SameAll M (p :: ps) qs ↔ ∃ q qs', qs = q :: qs' ∧ Part.Same M p q ∧ Part.SameAll M ps qs' :=
  ⟨fun h => by cases h with | cons h1 h2 => exact ⟨_, _, rfl, h1, h2⟩,
   fun ⟨_, _, e, h1, h2⟩ => e ▸ .cons h1 h2⟩

/-- Equal parts make equal nodes. -/
theorem Part.build_same {M : Mach} {e : Emit} {ps qs : List Part} (h : Part.SameAll M ps qs) {p : Part}
    (hp : Part.build e ps = some p) : ∃ q, Part.build e qs = some q ∧ Part.Same M p q := by
  unfold Part.build at hp
  split at hp
  all_goals first
    | (simp only [Option.some.injEq] at hp
       subst hp
       simp only [Part.sameAll_cons, Part.sameAll_nil, Part.Same] at h
       first
        | (obtain rfl := h
           exact ⟨_, rfl, Part.Same.refl _ _⟩)
        | (obtain ⟨_, _, rfl, rfl, rfl⟩ := h
           exact ⟨_, rfl, Part.Same.refl _ _⟩)
        | (obtain ⟨_, _, rfl, ⟨u, rfl, hu⟩, rfl⟩ := h
           exact ⟨_, rfl, u, rfl, hu⟩)
        | (obtain ⟨_, _, rfl, rfl, _, _, rfl, ⟨u, rfl, hu⟩, rfl⟩ := h
           exact ⟨_, rfl, u, rfl, hu⟩)
        | (obtain ⟨_, _, rfl, ⟨u, rfl, hu⟩, _, _, rfl, rfl, _, _, rfl, ⟨v, rfl, hv⟩, rfl⟩ := h
           first
            | exact ⟨_, rfl, _, rfl, .stmt hu hv⟩
            | exact ⟨_, rfl, _, rfl, .comp (.cons hu (.cons hv .nil))⟩))
    | (simp only [Option.map_eq_some_iff] at hp
       obtain ⟨ts, h1, rfl⟩ := hp
       first
       | (have h2 := h.syns h1
          obtain ⟨us, h2, h3⟩ := h2
          exact ⟨.syn (.comp _ us), by simp [Part.build, h2], .comp _ us, rfl, .comp h3⟩)
       | (have h2 := h.nums h1
          refine ⟨_, ?_, Part.Same.refl _ _⟩
          simp [Part.build, h2])
       | (rw [Part.sameAll_cons] at h
          obtain ⟨_, qs', rfl, h0, h⟩ := h
          simp only [Part.Same] at h0
          first
           | (obtain rfl := h0
              have h2 := h.syns h1
              obtain ⟨us, h2, h3⟩ := h2
              first
               | exact ⟨.syn (.comp _ us), by simp [Part.build, h2], .comp _ us, rfl, .comp h3⟩
               | exact ⟨.syn (.callName _ us), by simp [Part.build, h2], .callName _ us, rfl,
                   .callName h3⟩)
           | (obtain ⟨u, rfl, hu⟩ := h0
              first
               | (have h2 := h.marks h1
                  exact ⟨.sentence _ u _, by simp [Part.build, h2], u, rfl, hu⟩)
               | (have h2 := h.syns h1
                  obtain ⟨us, h2, h3⟩ := h2
                  exact ⟨.syn (.call _ us), by simp [Part.build, h2], .call _ us, rfl,
                    .call hu h3⟩))))
    | (rw [Part.sameAll_nil] at h
       subst h
       refine ⟨p, ?_, Part.Same.refl _ _⟩
       unfold Part.build
       split <;> simp_all)
    | simp at hp

theorem part_node (e : Emit) (cs : List Ast) :
    (Ast.node e cs).part = (partAll cs).bind (Part.build e) := by rw [Ast.part]

theorem partAll_cons_some {a : Ast} {as : List Ast} {ps : List Part} :
    partAll (a :: as) = some ps ↔ ∃ p qs, a.part = some p ∧ partAll as = some qs ∧ ps = p :: qs := by
  rw [partAll]
  simp only [Option.bind_eq_some_iff, Option.map_eq_some_iff]
  constructor
  · rintro ⟨p, h1, qs, h2, rfl⟩; exact ⟨p, qs, h1, h2, rfl⟩
  · rintro ⟨p, qs, h1, h2, rfl⟩; exact ⟨p, h1, qs, h2, rfl⟩

theorem partAll_nil : partAll [] = some [] := by rw [partAll]

theorem part_single {e : Emit} {c : Ast} {p : Part} (h : (Ast.node e [c]).part = some p) :
    ∃ q, c.part = some q ∧ Part.build e [q] = some p := by
  rw [part_node, Option.bind_eq_some_iff] at h
  obtain ⟨ps, h1, h2⟩ := h
  obtain ⟨q, qs, h3, h4, rfl⟩ := partAll_cons_some.mp h1
  rw [partAll_nil, Option.some.injEq] at h4
  subst h4
  exact ⟨q, h3, h2⟩

theorem build_statement {ps : List Part} {p : Part} (h : Part.build .statement ps = some p) :
    ∃ s c q, ps = [.syn s, .copula c, .syn q] ∧ p = .syn (.stmt s c q) := by
  unfold Part.build at h
  split at h
  all_goals first
    | (rename_i heq; cases heq; done)
    | (simp only [Option.some.injEq] at h; subst h; exact ⟨_, _, _, rfl, rfl⟩)
    | simp [Part.copula?, Part.conn?] at h

theorem build_callName {ps : List Part} {s : List Char} {p : Part}
    (h : Part.build .statement_operation2 (.str s :: ps) = some p) :
    ∃ ts, Part.syns? ps = some ts ∧ p = .syn (.callName s ts) := by
  simp only [Part.build, Option.map_eq_some_iff] at h
  obtain ⟨ts, h1, rfl⟩ := h
  exact ⟨ts, h1, rfl⟩

theorem build_infix {e c : Emit} (he : infixOf e = some c) {ps : List Part} {p : Part}
    (h : Part.build e ps = some p) :
    ∃ k ts, (Ast.node c []).part = some (.conn k) ∧ Part.syns? ps = some ts ∧ p = .syn (.comp k ts) := by
  unfold infixOf at he
  split at he <;> simp only [Option.some.injEq, reduceCtorEq] at he <;> subst he <;>
  · simp only [Part.build, Option.map_eq_some_iff] at h
    obtain ⟨ts, h1, rfl⟩ := h
    exact ⟨_, ts, rfl, h1, rfl⟩

theorem build_tuple {ps : List Part} {p : Part} (h : Part.build .multi_prefix_product ps = some p) :
    ∃ ts, Part.syns? ps = some ts ∧ p = .syn (.comp .product ts) := by
  simp only [Part.build, Option.map_eq_some_iff] at h
  obtain ⟨ts, h1, rfl⟩ := h
  exact ⟨ts, h1, rfl⟩

theorem build_single {ps : List Part} {p : Part} (h : Part.build .single_infix ps = some p) :
    ∃ t c u, ps = [.syn t, .conn c, .syn u] ∧ p = .syn (.comp c [t, u]) := by
  unfold Part.build at h
  split at h
  all_goals first
    | (rename_i heq; cases heq; done)
    | (simp only [Option.some.injEq] at h; subst h; exact ⟨_, _, _, rfl, rfl⟩)
    | simp [Part.copula?, Part.conn?] at h

theorem partAll_three {a b c : Ast} {p q r : Part} (ha : a.part = some p) (hb : b.part = some q)
    (hc : c.part = some r) : partAll [a, b, c] = some [p, q, r] := by
  simp [partAll, ha, hb, hc]

theorem partAll_three_some {a b c : Ast} {p q r : Part} (h : partAll [a, b, c] = some [p, q, r]) :
    a.part = some p ∧ b.part = some q ∧ c.part = some r := by
  obtain ⟨_, _, h1, h, e⟩ := partAll_cons_some.mp h
  obtain ⟨_, _, h2, h, e'⟩ := partAll_cons_some.mp h
  obtain ⟨_, _, h3, h, e''⟩ := partAll_cons_some.mp h
  subst e''; subst e'
  simp only [List.cons.injEq] at e
  obtain ⟨rfl, rfl, rfl, _⟩ := e
  exact ⟨h1, h2, h3⟩

theorem part_set {c : Emit} {k : Connector} (hc : (Ast.node c []).part = some (.conn k)) {a : Ast}
    {t : Syn} (ha : a.part = some (.syn t)) :
    (Ast.node .compound_term [.node .set [.node c [], a]]).part = some (.syn (.comp k [t])) := by
  rw [part_node, partAll, partAll, part_node, partAll, partAll, partAll, hc, ha]
  rfl

theorem part_prefix {c : Emit} {k : Connector} (hc : (Ast.node c []).part = some (.conn k))
    {as : List Ast} {ps : List Part} {ts : List Syn} (ha : partAll as = some ps)
    (ht : Part.syns? ps = some ts) :
    (Ast.node .multi_prefix (.node c [] :: as)).part = some (.syn (.comp k ts)) := by
  rw [part_node, partAll, hc, ha]
  simp [Part.build, ht]

theorem part_compound {a : Ast} {t : Syn} (ha : a.part = some (.syn t)) :
    (Ast.node .compound_term [a]).part = some (.syn t) := by
  rw [part_node, partAll, partAll, ha]
  rfl

mutual
/-- A tree and what it abbreviates mean the same. -/
theorem Ast.part_abbr {M : Mach} (hord : ∀ l, (M.ord l).Perm l) : ∀ {a a' : Ast} {p : Part},
    Ast.Abbr a a' → a.part = some p → ∃ q, a'.part = some q ∧ Part.Same M p q
  | .leaf e s, _, p, h, hp => by
    cases h
    exact ⟨p, hp, Part.Same.refl M p⟩
  | .node e cs, a', p, h, hp => by
    rw [part_node, Option.bind_eq_some_iff] at hp
    obtain ⟨ps, h1, h2⟩ := hp
    cases h with
    | node _ hc =>
      obtain ⟨qs, h3, h4⟩ := Ast.partAll_abbr hord hc h1
      obtain ⟨q, h5, h6⟩ := Part.build_same h4 h2
      exact ⟨q, by rw [part_node, h3]; exact h5, h6⟩
    | «instance» hpl hs hb =>
      obtain ⟨s, c, q, rfl, rfl⟩ := build_statement h2
      obtain ⟨h3, h4, h5⟩ := partAll_three_some h1
      obtain rfl : c = .instance := by
        have : (Ast.node .instance []).part = some (.copula .instance) := rfl
        rw [this] at h4
        simpa using h4.symm
      obtain ⟨_, h6, u, rfl, hu⟩ := Ast.part_abbr hord hs h3
      obtain ⟨_, h7, v, rfl, hv⟩ := Ast.part_abbr hord hb h5
      refine ⟨_, by rw [part_node, partAll_three (part_set rfl h6) rfl h7]; rfl, _, rfl, ?_⟩
      refine Syn.Same.trans (fun e r e' => eval_instance (fun x e1 hx => ?_))
        (.stmt (.comp (.cons hu .nil)) hv)
      exact keeps_plain hord (Syn.plain_eval (hpl s h3) hx)
        (Syn.eval_names M s hx).1
    | property hs hb =>
      obtain ⟨s, c, q, rfl, rfl⟩ := build_statement h2
      obtain ⟨h3, h4, h5⟩ := partAll_three_some h1
      obtain rfl : c = .property := by
        have : (Ast.node .property []).part = some (.copula .property) := rfl
        rw [this] at h4
        simpa using h4.symm
      obtain ⟨_, h6, u, rfl, hu⟩ := Ast.part_abbr hord hs h3
      obtain ⟨_, h7, v, rfl, hv⟩ := Ast.part_abbr hord hb h5
      refine ⟨_, by rw [part_node, partAll_three h6 rfl (part_set rfl h7)]; rfl, _, rfl, ?_⟩
      exact Syn.Same.trans (fun e r e' => eval_property) (.stmt hu (.comp (.cons hv .nil)))
    | instanceProperty hpl hs hb =>
      obtain ⟨s, c, q, rfl, rfl⟩ := build_statement h2
      obtain ⟨h3, h4, h5⟩ := partAll_three_some h1
      obtain rfl : c = .instanceProperty := by
        have : (Ast.node .instance_property []).part = some (.copula .instanceProperty) := rfl
        rw [this] at h4
        simpa using h4.symm
      obtain ⟨_, h6, u, rfl, hu⟩ := Ast.part_abbr hord hs h3
      obtain ⟨_, h7, v, rfl, hv⟩ := Ast.part_abbr hord hb h5
      refine ⟨_, by rw [part_node, partAll_three (part_set rfl h6) rfl (part_set rfl h7)]; rfl, _, rfl, ?_⟩
      refine Syn.Same.trans (fun e r e' => eval_instanceProperty (fun x e1 hx => ?_))
        (.stmt (.comp (.cons hu .nil)) (.comp (.cons hv .nil)))
      exact keeps_plain hord (Syn.plain_eval (hpl s h3) hx)
        (Syn.eval_names M s hx).1
    | @callName st n ts ts' ht =>
      obtain ⟨q, qs, h3, h4, rfl⟩ := partAll_cons_some.mp h1
      rw [Ast.part, Option.some.injEq] at h3
      have hq : q = .str n := by
        subst h3
        unfold Part.ofLeaf at h2 ⊢
        split
        · rfl
        · rfl
        · rename_i h5 h6
          split at h2
          · exact absurd rfl h5
          · exact absurd rfl h6
          · simp [Part.build] at h2
      subst hq
      obtain ⟨us, h5, rfl⟩ := build_callName h2
      obtain ⟨qs', h6, h7⟩ := Ast.partAll_abbr hord ht h4
      obtain ⟨vs, h8, h9⟩ := h7.syns h5
      have h10 : (Ast.node .operation [.leaf st n]).part = some (.syn (.op n)) := by
        rw [part_node, partAll, partAll, Ast.part, h3]
        rfl
      refine ⟨_, by
        rw [part_node, partAll_three (part_compound (part_prefix rfl h6 h8)) rfl h10]; rfl, _, rfl, ?_⟩
      refine Syn.Same.trans (u := .stmt (.comp .product us) .inheritance (.op n)) ?_
        (.stmt (.comp h9) (.refl _))
      unfold Syn.Same
      rw [eval_callName]
      exact Act.Same.refl _
    | @«infix» e c ts ts' he ht =>
      obtain ⟨q, qs, h3, h4, rfl⟩ := partAll_cons_some.mp h1
      rw [partAll_nil, Option.some.injEq] at h4
      subst h4
      rw [part_node, Option.bind_eq_some_iff] at h3
      obtain ⟨ps, h5, h6⟩ := h3
      obtain ⟨k, us, h7, h8, rfl⟩ := build_infix he h6
      obtain ⟨qs', h9, h10⟩ := Ast.partAll_abbr hord ht h5
      obtain ⟨vs, h11, h12⟩ := h10.syns h8
      simp only [Part.build, Option.some.injEq] at h2
      subst h2
      exact ⟨_, part_prefix h7 h9 h11, _, rfl, .comp h12⟩
    | bare he ht =>
      obtain ⟨k, us, h7, h8, rfl⟩ := build_infix he h2
      obtain ⟨qs', h9, h10⟩ := Ast.partAll_abbr hord ht h1
      obtain ⟨vs, h11, h12⟩ := h10.syns h8
      exact ⟨_, part_compound (part_prefix h7 h9 h11), _, rfl, .comp h12⟩
    | tuple ht =>
      obtain ⟨us, h8, rfl⟩ := build_tuple h2
      obtain ⟨qs', h9, h10⟩ := Ast.partAll_abbr hord ht h1
      obtain ⟨vs, h11, h12⟩ := h10.syns h8
      exact ⟨_, part_prefix rfl h9 h11, _, rfl, .comp h12⟩
    | single hs hb =>
      obtain ⟨s, c, q, rfl, rfl⟩ := build_single h2
      obtain ⟨h3, h4, h5⟩ := partAll_three_some h1
      obtain ⟨_, h6, u, rfl, hu⟩ := Ast.part_abbr hord hs h3
      obtain ⟨_, h7, v, rfl, hv⟩ := Ast.part_abbr hord hb h5
      exact ⟨_, by rw [part_node, partAll_three h4 h6 h7]; rfl, _, rfl,
        .comp (.cons hu (.cons hv .nil))⟩
termination_by a => sizeOf a
/-- The same for siblings. -/
theorem Ast.partAll_abbr {M : Mach} (hord : ∀ l, (M.ord l).Perm l) : ∀ {as as' : List Ast} {ps : List Part},
    Ast.AbbrAll as as' → partAll as = some ps → ∃ qs, partAll as' = some qs ∧ Part.SameAll M ps qs
  | [], _, ps, h, hp => by
    cases h
    rw [partAll, Option.some.injEq] at hp
    subst hp
    exact ⟨[], rfl, .nil⟩
  | a :: as, _, ps, h, hp => by
    cases h with
    | cons h1 h2 =>
      obtain ⟨p, qs, h3, h4, rfl⟩ := partAll_cons_some.mp hp
      obtain ⟨q, h5, h6⟩ := Ast.part_abbr hord h1 h3
      obtain ⟨qs', h7, h8⟩ := Ast.partAll_abbr hord h2 h4
      exact ⟨q :: qs', partAll_cons_some.mpr ⟨q, qs', h5, h7, rfl⟩, .cons h6 h8⟩
termination_by as => sizeOf as
end

theorem evalTaskPart_same {M : Mach} (b : Option (List (List Char))) (p : Punct) {t u : Syn}
    (ms : List Mark) (h : Syn.Same M t u) :
    (evalTaskPart M b p t ms).Same (evalTaskPart M b p u ms) := by
  have hs : (evalSentence M p t ms).Same (evalSentence M p u ms) :=
    Act.Same.bind h fun _ => Act.Same.refl _
  cases b with
  | none => exact Act.Same.bind hs fun _ => Act.Same.refl _
  | some ss =>
    exact Act.Same.bind (Act.Same.refl _) fun _ => Act.Same.bind (Act.Same.refl _) fun _ =>
      Act.Same.bind hs fun _ => Act.Same.refl _

/-- The task of a tree and of what it abbreviates. -/
theorem evalTask_abbr {line line' : List WChar} {as as' : List Ast} (hn : IsNarsese line as)
    (hn' : IsNarsese line' as') (ha : Ast.AbbrAll as as') {M : Mach} (hord : ∀ l, (M.ord l).Perm l)
    (bad bad' : Act Val) : (evalTask M bad as).Same (evalTask M bad' as') := by
  obtain ⟨b, p, t, ms, h1, h2⟩ := evalTask_part hn
  obtain ⟨b', p', t', ms', h3, h4⟩ := evalTask_part hn'
  obtain ⟨qs, h5, h6⟩ := Ast.partAll_abbr hord ha h1
  rw [h3, Option.some.injEq] at h5
  subst h5
  simp only [Part.sameAll_cons, Part.sameAll_nil, Part.Same] at h6
  obtain ⟨_, _, e, ⟨u, rfl, hu⟩, rfl⟩ := h6
  simp only [List.cons.injEq, Part.task.injEq, and_true] at e
  obtain ⟨rfl, rfl, rfl, rfl⟩ := e
  rw [h2, h4]
  refine Act.Same.bind (evalTaskPart_same _ _ _ hu) fun v => ?_
  exact Act.Same.refl _

/-! ## Notations -/

mutual
/-- The second tree has prefix operators where the first has infix operators or tuples. -/
inductive Ast.Prefixed : Ast → Ast → Prop where
  | leaf (e : Emit) (s : List Char) : Ast.Prefixed (.leaf e s) (.leaf e s)
  | node (e : Emit) {cs cs' : List Ast} : Ast.PrefixedAll cs cs' →
      Ast.Prefixed (.node e cs) (.node e cs')
  /-- `(A & B)` is `(&, A, B)` -/
  | infix {e c : Emit} {ts ts' : List Ast} : infixOf e = some c → Ast.PrefixedAll ts ts' →
      Ast.Prefixed (.node .multi_infix [.node e ts]) (.node .multi_prefix (.node c [] :: ts'))
  /-- `A & B`, as it can be written inside `(-, A & B, C)` -/
  | bare {e c : Emit} {ts ts' : List Ast} : infixOf e = some c → Ast.PrefixedAll ts ts' →
      Ast.Prefixed (.node e ts) (.node .compound_term [.node .multi_prefix (.node c [] :: ts')])
  /-- `(A, B)` is `(*, A, B)` -/
  | tuple {ts ts' : List Ast} : Ast.PrefixedAll ts ts' →
      Ast.Prefixed (.node .multi_prefix_product ts)
        (.node .multi_prefix (.node .con_product [] :: ts'))
  /-- `(A - B)` is `(-, A, B)` -/
  | single {s s' c p p' : Ast} : Ast.Prefixed s s' → Ast.Prefixed p p' →
      Ast.Prefixed (.node .single_infix [s, c, p]) (.node .single_prefix [c, s', p'])
/-- The same for siblings. -/
inductive Ast.PrefixedAll : List Ast → List Ast → Prop where
  | nil : Ast.PrefixedAll [] []
  | cons {a a' : Ast} {as as' : List Ast} : Ast.Prefixed a a' → Ast.PrefixedAll as as' →
      Ast.PrefixedAll (a :: as) (a' :: as')
end

mutual
theorem Ast.part_prefixed : ∀ {a a' : Ast} {p : Part},
    Ast.Prefixed a a' → a.part = some p → a'.part = some p
  | .leaf e s, _, p, h, hp => by
    cases h
    exact hp
  | .node e cs, a', p, h, hp => by
    rw [part_node, Option.bind_eq_some_iff] at hp
    obtain ⟨ps, h1, h2⟩ := hp
    cases h with
    | node _ hc => rw [part_node, Ast.partAll_prefixed hc h1]; exact h2
    | @«infix» e c ts ts' he ht =>
      obtain ⟨q, qs, h3, h4, rfl⟩ := partAll_cons_some.mp h1
      rw [partAll_nil, Option.some.injEq] at h4
      subst h4
      rw [part_node, Option.bind_eq_some_iff] at h3
      obtain ⟨ps, h5, h6⟩ := h3
      obtain ⟨k, us, h7, h8, rfl⟩ := build_infix he h6
      simp only [Part.build, Option.some.injEq] at h2
      subst h2
      exact part_prefix h7 (Ast.partAll_prefixed ht h5) h8
    | bare he ht =>
      obtain ⟨k, us, h7, h8, rfl⟩ := build_infix he h2
      exact part_compound (part_prefix h7 (Ast.partAll_prefixed ht h1) h8)
    | tuple ht =>
      obtain ⟨us, h8, rfl⟩ := build_tuple h2
      exact part_prefix rfl (Ast.partAll_prefixed ht h1) h8
    | single hs hb =>
      obtain ⟨s, c, q, rfl, rfl⟩ := build_single h2
      obtain ⟨h3, h4, h5⟩ := partAll_three_some h1
      rw [part_node, partAll_three h4 (Ast.part_prefixed hs h3) (Ast.part_prefixed hb h5)]
      rfl
termination_by a => sizeOf a
theorem Ast.partAll_prefixed : ∀ {as as' : List Ast} {ps : List Part},
    Ast.PrefixedAll as as' → partAll as = some ps → partAll as' = some ps
  | [], _, ps, h, hp => by
    cases h
    exact hp
  | a :: as, _, ps, h, hp => by
    cases h with
    | cons h1 h2 =>
      obtain ⟨p, qs, h3, h4, rfl⟩ := partAll_cons_some.mp hp
      exact partAll_cons_some.mpr ⟨p, qs, Ast.part_prefixed h1 h3, Ast.partAll_prefixed h2 h4, rfl⟩
termination_by as => sizeOf as
end

theorem evalTask_prefixed {line line' : List WChar} {as as' : List Ast} (hn : IsNarsese line as)
    (hn' : IsNarsese line' as') (ha : Ast.PrefixedAll as as') (M : Mach) (bad bad' : Act Val) :
    evalTask M bad as = evalTask M bad' as' := by
  obtain ⟨b, p, t, ms, h1, h2⟩ := evalTask_part hn
  obtain ⟨b', p', t', ms', h3, h4⟩ := evalTask_part hn'
  have h5 := Ast.partAll_prefixed ha h1
  rw [h3, Option.some.injEq] at h5
  simp only [List.cons.injEq, Part.task.injEq, and_true] at h5
  obtain ⟨rfl, rfl, rfl, rfl⟩ := h5
  rw [h2, h4]

end Cnars.Parser
