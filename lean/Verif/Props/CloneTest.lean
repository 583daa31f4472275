import Verif.Parser.CloneTest
import Verif.Props.Reads
import Verif.Props.Cloning

/-!
# C98: the test of `Term::clone`
-/

namespace Cnars.Props
open Cnars Cnars.Parser Cnars.Term Cnars.CloneTest Cnars.Print

theorem sameText_ok {d : Map Key String} {a b : Obj} (hg : Good a.val) (hp : Printable a.val) (h : b.val = a.val) :
    sameText d a b = .ok true := by
  obtain ⟨x, hx⟩ := hp.ok hg d
  simp [sameText, h, hx]

/-- C98: the test passes for every compound whose first component is a statement with a variable in its subject and none
in its predicate, however its objects are shared. -/
theorem C98_checks {a b : Nat} {c : Connector} {cop : Copula} {s p : Obj} {os : List Obj} {i j : Info} {n : Nat}
    (h : Constructed (Obj.comp a c (.stmt b s cop p j :: os) i).val)
    (hn : ∀ x ∈ (Obj.comp a c (.stmt b s cop p j :: os) i).addrs, x < n)
    (hp : Printable (Obj.comp a c (.stmt b s cop p j :: os) i).val) (hps : Printable s.val)
    (hs : ∃ k x, Shape.var k x ∈ (shape s.val).leaves) (hv : ∀ k x, Shape.var k x ∉ (shape p.val).leaves)
    (d : Map Key String) : checks d n (.comp a c (.stmt b s cop p j :: os) i) = .ok true := by
  obtain ⟨o', n', e, v, hat⟩ := C29_sharing h hn
  have g := h.good
  obtain ⟨a', os', rfl⟩ : ∃ a' os', o' = .comp a' c os' i := by
    cases o' <;> simp only [Obj.val, Term.comp.injEq, reduceCtorEq] at v
    obtain ⟨rfl, _, rfl⟩ := v
    exact ⟨_, _, rfl⟩
  have g1 : Good (Obj.stmt b s cop p j).val := (Good.comp_inv (by simpa only [Obj.val] using g)).1 _ (by simp [Obj.vals])
  obtain ⟨gs, gp⟩ := Good.stmt_inv (by simpa only [Obj.val] using g1)
  obtain ⟨k, x, hs⟩ := hs
  obtain ⟨o0, h0, _, f0, _⟩ := hat [] _ rfl
  cases h0
  have f0 := f0 ⟨k, x, by simp [Obj.val, shape, Obj.vals, shapes, Shape.leaves, Shape.leavesAll, hs]⟩
  obtain ⟨f, h1, v1, f1, _⟩ := hat [0] (.stmt b s cop p j) rfl
  have f1 := f1 ⟨k, x, by simp [Obj.val, shape, Shape.leaves, hs]⟩
  obtain ⟨s', h2, v2, f2, _⟩ := hat [0, 0] s rfl
  have f2 := f2 ⟨k, x, hs⟩
  obtain ⟨p', h3, v3, _, f3⟩ := hat [0, 1] p rfl
  obtain rfl := f3 hv
  cases os' with
  | nil => simp [Obj.at?, Obj.sons] at h1
  | cons f' os' =>
    simp only [Obj.at?, Obj.sons, List.getElem?_cons_zero, Option.some.injEq] at h1
    subst h1
    obtain ⟨b', s1, cop', p1, j', rfl⟩ : ∃ b' s1 cop' p1 j', f' = .stmt b' s1 cop' p1 j' := by
      cases f' <;> simp only [Obj.val, reduceCtorEq] at v1
      exact ⟨_, _, _, _, _, rfl⟩
    simp only [Obj.at?, Obj.sons, List.getElem?_cons_zero, List.getElem?_cons_succ, Option.some.injEq] at h2 h3
    subst h2 h3
    have hp1 : Printable (Obj.stmt b s cop p1 j).val := by
      cases hp with
      | comp c i _ hall => exact hall _ (by simp [Obj.vals])
    have hp2 : Printable p1.val := by
      generalize hu : (Obj.stmt b s cop p1 j).val = u at hp1
      cases hp1 <;> simp only [Obj.val, Term.stmt.injEq, reduceCtorEq] at hu
      · rw [hu.2.2.1]; assumption
      · rw [hu.2.2.1]; assumption
    have n0 : (Obj.comp a c (.stmt b s cop p1 j :: os) i).addr ≠ (Obj.comp a' c (.stmt b' s1 cop' p1 j' :: os') i).addr :=
      fun h => f0 (h ▸ addr_mem _)
    have n1 : (Obj.stmt b s cop p1 j).addr ≠ (Obj.stmt b' s1 cop' p1 j').addr := fun h => f1 (by
      rw [← h]; simp [Obj.addr, Obj.addrs, Obj.addrsAll])
    have n2 : s.addr ≠ s1.addr := fun h => f2 (by
      have := addr_mem s
      rw [h] at this
      simp [Obj.addrs, Obj.addrsAll, this])
    simp only [checks, e, Res.ok_bind, sameText_ok g hp v, if_true, first,
      sameText_ok (a := .stmt b s cop p1 j) (b := .stmt b' s1 cop' p1 j') g1 hp1 (by simpa only [Obj.val] using v1), predicate,
      sameText_ok gp hp2 rfl, subject, sameText_ok gs hps v2]
    simp [n0, n1, n2]

/-- The line of the test stands for a conjunction of two statements about one variable. -/
def cloneLine? : Option (List Part) → Bool
  | some [.task none .judgement (.comp .conjunction [.stmt (.var .independent x) .inheritance (.name a),
      .stmt (.var .independent y) .inheritance (.name b)]) []] =>
    decide (x = ['x'] ∧ y = ['x'] ∧ a = ['r', 'o', 'b', 'i', 'n'] ∧ b = ['b', 'i', 'r', 'd'])
  | _ => false

theorem cloneLine?_sound {ps : Option (List Part)} (h : cloneLine? ps = true) :
    ps = some [.task none .judgement (.comp .conjunction [
      .stmt (.var .independent ['x']) .inheritance (.name ['r', 'o', 'b', 'i', 'n']),
      .stmt (.var .independent ['x']) .inheritance (.name ['b', 'i', 'r', 'd'])]) []] := by
  unfold cloneLine? at h
  split at h
  · obtain ⟨rfl, rfl, rfl, rfl⟩ := of_decide_eq_true h
    rfl
  · cases h

theorem cloneLine_tree : cloneLine? (partAll (treeOf CloneTest.line)) = true := by decide +kernel

/-- No operation is known. -/
def NoOps (w : World) : Prop := ∀ x ∈ w.atoms, x.isOp = false

theorem name_noOps {M : Mach} {s : List Char} {e e' : Env} {r : Term} (h : (Syn.name s).eval M e = (.ok r, e'))
    (ho : NoOps e.world) : NoOps e'.world ∧ ∃ a, r = mkAtom a := by
  obtain ⟨_, _, _, h4, h5⟩ := named_ok h
  have ho' : NoOps e'.world := by
    unfold World.create at h4
    split at h4
    · unfold NoOps
      rw [opNames_lookup h4]
      exact ho
    · rw [Res.ok.injEq] at h4
      unfold NoOps
      rw [← h4]
      intro x hx
      rcases List.mem_append.mp hx with hx | hx
      · exact ho x hx
      · rw [List.mem_singleton.mp hx]
  refine ⟨ho', ?_⟩
  unfold lastAtom at h5
  split at h5
  · cases h5
  · split at h5
    · cases h5
    · rename_i a ha
      rw [ho' a (List.mem_of_getElem? ha)] at h5
      exact ⟨_, by simpa using h5.symm⟩

/-- Evaluating a list of statements about variables with words as predicates. -/
theorem abouts_eval {M : Mach} : ∀ (ts : List Syn), (∀ t ∈ ts, ∃ k v s, t = .stmt (.var k v) .inheritance (.name s)) →
    ∀ {e e' : Env} {rs : List Term}, Syn.evalAll M ts e = (.ok rs, e') → NoOps e.world →
    ∀ r ∈ rs, ∃ k n i a, r = mkStmt (mkVar k n i) .inheritance (mkAtom a)
  | [], _, e, e', rs, h, _ => by
    rw [Syn.evalAll] at h
    rw [← (Act.pure_ok h).1]
    simp
  | t :: ts, ht, e, e', rs, h, ho => by
    rw [Syn.evalAll] at h
    obtain ⟨r, e1, h1, h⟩ := Act.bind_ok h
    obtain ⟨us, e2, h2, h⟩ := Act.bind_ok h
    rw [← (Act.pure_ok h).1]
    obtain ⟨k, v, s, rfl⟩ := ht t List.mem_cons_self
    rw [Syn.eval] at h1
    obtain ⟨x, d1, k1, h1⟩ := Act.bind_ok h1
    obtain ⟨y, d2, k2, h1⟩ := Act.bind_ok h1
    obtain ⟨i, rfl⟩ := eval_var k1
    have o1 : NoOps d1.world := by
      rw [Syn.eval] at k1
      obtain ⟨j, d, m1, m2⟩ := Act.bind_ok k1
      rw [← (Act.pure_ok m2).2]
      simp only [Action.number, Prod.mk.injEq] at m1
      rwa [← m1.2]
    obtain ⟨o2, a, rfl⟩ := name_noOps k2 o1
    have o3 : NoOps e1.world := by
      unfold NoOps
      rw [opNames_making h1]
      exact o2
    have hr := (makingTerm_ok h1).1
    rw [show Action.newStatement M (mkVar k _ i) .inheritance (mkAtom a) = newStmt _ .inheritance _ true from rfl] at hr
    obtain rfl := Good.newStmt (.var ..) (.atom a) hr
    intro r hr
    rcases List.mem_cons.mp hr with rfl | hr
    · exact ⟨_, _, _, _, rfl⟩
    · exact abouts_eval ts (fun t ht' => ht t (List.mem_cons_of_mem _ ht')) h2 o3 r hr

theorem cloneLine_readable : readable? 2 CloneTest.line = true := by decide +kernel

/-- C98: on every machine the only enabled test, test_term.test_clone, passes: its line is read; and whatever the objects
are of which the term consists, their clone prints the same text, and so do the first components, their predicates
and their subjects; the predicates are the same object, the others are not. -/
theorem C98_test {M : Mach} (hm : Machine M) (hM : FreshBelow M 2) (hr : ∀ n : Nat, n ≤ 101 → M.erange n = false)
    {d : Nat} (hd : d < 3) {fuel : Nat} (hf : 2910 ≤ fuel) {g : Stamp.Globals} :
    ∃ k s, parseTask M undefined true fuel d (Prog.start g).ses (bytes CloneTest.line) = (.ok (some k), s) ∧
      ∀ o n, o.val = k.sentence.term → (∀ a ∈ o.addrs, a < n) → checks s.env.world.store.dict n o = .ok true := by
  have hread := readable?_sound hm hr hf cloneLine_readable
  obtain ⟨k, s, w, ts', h1, h2, _⟩ := hread.turn hm hM hd (g := g) (strict := true) (.refl _) (by simp)
  refine ⟨k, s, h1, fun o n ho hn => ?_⟩
  obtain ⟨_, _, t, _, r, e1, _, _, p1, p2, _, p3, _⟩ := evalTask_ok hread.narsese h2
  rw [cloneLine?_sound cloneLine_tree, Option.some.injEq, List.cons.injEq, Part.task.injEq] at p1
  obtain ⟨⟨-, -, rfl, -⟩, -⟩ := p1
  have hcon := Syn.eval_constructed hm.ord _ p2
  rw [Syn.eval] at p2
  obtain ⟨rs, e2, q1, q2⟩ := Act.bind_ok p2
  have hform := abouts_eval _ (by
    intro t ht
    rcases List.mem_pair.mp ht with rfl | rfl <;> exact ⟨_, _, _, rfl⟩) q1 (by simp [NoOps, Env.clearNames, World.init])
  have gs := (Syn.evalAll_names M _ q1).1
  have hlen := (evalAll_forall M _ q1).length_eq
  have hne : rs ≠ [] := by rintro rfl; simp at hlen
  have hk : Keyed (Mixed rs) := alike_keyed ⟨.independent, ['x'], .inheritance, by decide, by decide, by decide, .inl (by
    have n : ∀ s, (Syn.name s).flat := fun s => .inl (by simp [Syn.bare, Syn.vars])
    intro x hx
    rcases List.mem_pair.mp hx with rfl | rfl <;> exact .inr ⟨_, rfl, n _⟩)⟩ q1
  obtain ⟨us, u1, u2⟩ := hk.setInsertAll (xs := rs) (s := []) (fun _ h => .inl h) (by simp) (by simp [SortedTs]) (.inl hne)
  have hmem : ∀ z ∈ us, z ∈ rs := fun z hz => by
    rcases (setInsertAll_mem u1).1 z hz with h | h
    · exact h
    · simp at h
  have hr := (makingTerm_ok q2).1
  rw [mkComp_flat_eq hm.ord gs (by decide) u1 u2 (fun t ht => by
    obtain ⟨_, _, _, _, rfl⟩ := hform t ht
    rfl), Res.ok.injEq] at hr
  rw [p3] at ho
  have hpr : ∀ z ∈ us, Printable z := fun z hz => by
    obtain ⟨_, _, _, _, rfl⟩ := hform z (hmem z hz)
    exact .stmt _ _ rfl (.var ..) (.atom ..)
  have hprint : Printable r := by
    rw [← hr]
    exact .comp _ _ u2 hpr
  cases us with
  | nil => exact absurd rfl u2
  | cons z us =>
    obtain ⟨kk, nn, ii, aa, rfl⟩ := hform z (hmem z List.mem_cons_self)
    rw [← hr] at ho
    obtain ⟨a, os, i, rfl⟩ : ∃ a os i, o = .comp a .conjunction os i := by
      cases o <;> simp only [Obj.val, finishComp, Term.comp.injEq, reduceCtorEq] at ho
      obtain ⟨rfl, -⟩ := ho
      exact ⟨_, _, _, rfl⟩
    cases os with
    | nil => simp [Obj.val, finishComp, Obj.vals] at ho
    | cons o os =>
      have ho1 : o.val = mkStmt (mkVar kk nn ii) .inheritance (mkAtom aa) := by
        simp only [Obj.val, finishComp, Obj.vals, Term.comp.injEq, List.cons.injEq] at ho
        exact ho.2.1.1
      obtain ⟨b, s', c', p', j, rfl⟩ : ∃ b s' c' p' j, o = .stmt b s' c' p' j := by
        cases o <;> simp only [Obj.val, mkStmt, reduceCtorEq] at ho1
        exact ⟨_, _, _, _, _, rfl⟩
      have hs' : s'.val = mkVar kk nn ii := by
        simp only [Obj.val, mkStmt, Term.stmt.injEq] at ho1
        exact ho1.1
      have hp' : p'.val = mkAtom aa := by
        simp only [Obj.val, mkStmt, Term.stmt.injEq] at ho1
        exact ho1.2.2.1
      refine C98_checks (by rw [ho, hr]; exact hcon) hn (by rw [ho, hr]; exact hprint) (by rw [hs']; exact .var ..)
        ?_ ?_ _
      · rw [hs']
        exact ⟨kk, _, by simp [shape, mkVar, Shape.leaves]; rfl⟩
      · rw [hp']
        simp [shape, mkAtom, Shape.leaves]

mutual
/-- Objects for a term, each place with its own address. -/
def placed (n : Nat) : Term → Obj × Nat
  | .atom d i => (.atom n d i, n + 1)
  | .interval m i => (.interval n m i, n + 1)
  | .var k x i => (.var n k x i, n + 1)
  | .stmt s c p i => (.stmt n (placed (n + 1) s).1 c (placed (placed (n + 1) s).2 p).1 i, (placed (placed (n + 1) s).2 p).2)
  | .comp c ts i => (.comp n c (placedAll (n + 1) ts).1 i, (placedAll (n + 1) ts).2)
/-- Of a list. -/
def placedAll (n : Nat) : List Term → List Obj × Nat
  | [] => ([], n)
  | t :: ts => ((placed n t).1 :: (placedAll (placed n t).2 ts).1, (placedAll (placed n t).2 ts).2)
end

/-- The machine of the examples is of this kind, and with it the test passes on objects that share nothing. -/
example : Machine roomy ∧ FreshBelow roomy 2 ∧ ∀ n : Nat, n ≤ 101 → roomy.erange n = false :=
  ⟨roomy_ok, fun w hw h => roomy_fresh w hw (by omega), by decide +kernel⟩

example : (match parseTask roomy undefined true 3000 0 (Prog.start env0.globals).ses (bytes CloneTest.line) with
    | (.ok (some k), s) =>
      (match checks s.env.world.store.dict (placed 0 k.sentence.term).2 (placed 0 k.sentence.term).1 with
        | .ok b => b
        | _ => false) && decide ((placed 0 k.sentence.term).2 = 7)
    | _ => false) = true := by decide +kernel

/-- It would not pass if nothing had a variable: then the clone is the object itself. -/
example : (match checks (fun _ => none) 9 (.comp 0 .conjunction [.stmt 1 (.atom 2 0x10#64 (mkAtom 0x10#64).info) .inheritance
      (.atom 3 0x20#64 (mkAtom 0x20#64).info) (mkStmt (mkAtom 0x10#64) .inheritance (mkAtom 0x20#64)).info]
      (finishComp .conjunction [mkStmt (mkAtom 0x10#64) .inheritance (mkAtom 0x20#64)]).info) with
    | .ok b => !b
    | _ => false) = true := by decide +kernel

end Cnars.Props
