import Verif.Parser.Left

/-!
# Programs that read lines and drop tasks
-/

namespace Cnars.Parser
open Cnars Cnars.Props

/-- A program that uses the parser (main.cpp:24-36, Tests/test_parser.cpp:32-79, 262-293): the parser
with the dictionaries, and the tasks that were returned, in order, without those dropped since.  Not in the
code: the names in the lines during which an action threw. -/
structure Prog where
  ses : Session
  tasks : List (Option Task)
  odd : List String

/-- The terms of the tasks that live. -/
def Prog.terms (p : Prog) : List Term := p.tasks.filterMap (Option.map fun t => t.sentence.term)

/-- There is memory for the words of the tree that is evaluated, and each of its operations is known under
both names or none. -/
def Fits (strict : Bool) (N fuel d : Nat) (s : Session) (text : List WChar) : Prop :=
  ∀ r a, parseText strict fuel s.buf text d = .ok r → s.ast.after r.ast = .tree a →
    s.env.world.dictH.length + (Ast.mentionsAll a).length ≤ N ∧
    Paired s.env.world [] (Ast.mentionsAll a)

/-- The names in the tree that the parser has. -/
def Member.names : Member → List String
  | .tree a => namesIn (Ast.mentionsAll a)
  | _ => []

/-- What the program does: it reads a line and keeps the task, reads a line that is rejected, reads a line
during which an action throws and catches the exception, drops a task, or does something else that takes
time.  After an exception the parser keeps the tree (NarseseParser.h:16-23, Parser.cpp:28-47), and a line that is
rejected then evaluates it again.  Dropping a task (`pTask` going out of scope: Task.h:19-38,
Sentence.h:112-146, Term.inl:44-52) drops the handles in its term.  Simplified: handles on the task and its
term that the program copies are not modelled, the last of these drops the task; the order in which the
handles are dropped is that of the term. -/
inductive Prog.Step (M : Mach) (strict : Bool) (N : Nat) : Prog → Prog → Prop where
  | read {s s' : Session} {ts : List (Option Task)} {o : List String} {fuel d : Nat} {text : List WChar}
      {t : Task} : d < 3 → Fits strict N fuel d s text →
      parseTask M undefined strict fuel d s text = (.ok (some t), s') →
      Prog.Step M strict N ⟨s, ts, o⟩ ⟨s', ts ++ [some t], o⟩
  | reject {s s' : Session} {ts : List (Option Task)} {o : List String} {fuel d : Nat} {text : List WChar} :
      d < 3 → parseTask M undefined strict fuel d s text = (.ok none, s') →
      Prog.Step M strict N ⟨s, ts, o⟩ ⟨s', ts, o⟩
  | threw {s s' : Session} {ts : List (Option Task)} {o : List String} {fuel d : Nat} {text : List WChar}
      {m : String} : d < 3 → Fits strict N fuel d s text →
      parseTask M undefined strict fuel d s text = (.throw m, s') →
      Prog.Step M strict N ⟨s, ts, o⟩ ⟨s', ts, o ++ s'.ast.names⟩
  | drop {s : Session} {ts : List (Option Task)} {o : List String} {i : Nat} {t : Task} {w : World} :
      ts[i]? = some (some t) →
      (addrs t.sentence.term).foldlM (fun w a => dropAddr a w) s.env.world = .ok w →
      Prog.Step M strict N ⟨s, ts, o⟩ ⟨{ s with env := { s.env with world := w } }, ts.set i none, o⟩
  | other {s : Session} {ts : List (Option Task)} {o : List String} (g : Stamp.Globals) :
      Prog.Step M strict N ⟨s, ts, o⟩ ⟨{ s with env := { s.env with globals := g } }, ts, o⟩

/-- Any number of steps. -/
inductive Prog.Steps (M : Mach) (strict : Bool) (N : Nat) : Prog → Prog → Prop where
  | refl (p : Prog) : Prog.Steps M strict N p p
  | step {p q r : Prog} : Prog.Steps M strict N p q → Prog.Step M strict N q r → Prog.Steps M strict N p r

/-- The program begins: a new parser, and no term was made before. -/
def Prog.start (g : Stamp.Globals) : Prog := ⟨⟨freshBuf, .uninit, ⟨World.init, fun _ => [], g⟩⟩, [], []⟩

/-- A tree that the parser gave for some line. -/
inductive OfLine : List Ast → Prop where
  | mk {b : Buf} {strict : Bool} {fuel : Nat} {text : List WChar} {d : Nat} {r : Parsed} {a : List Ast} :
      Reached b → d < 3 → parseText strict fuel b text d = .ok r → r.ast = some a → OfLine a

theorem OfLine.narsese {a : List Ast} (h : OfLine a) : ∃ line, IsNarsese line a := by
  obtain ⟨h1, h2, h3, h4⟩ := h
  exact ⟨_, C43_tree h1 h2 h3 h4⟩

/-- The tree of the parser, if there is one, is that of a line. -/
def Member.OfLine (m : Member) : Prop := ∀ a, m = .tree a → Parser.OfLine a

theorem Member.OfLine.after {m : Member} (hm : m.OfLine) {b : Buf} (hb : Reached b) {d : Nat} (hd : d < 3)
    {strict : Bool} {fuel : Nat} {text : List WChar} {r : Parsed} (h : parseText strict fuel b text d = .ok r) :
    (m.after r.ast).OfLine := by
  intro a ha
  cases hr : r.ast with
  | none => rw [hr] at ha; exact hm a ha
  | some a' =>
    rw [hr] at ha
    cases ha
    exact .mk hb hd h hr

/-! ## Names of atoms -/

/-- The atom at `x.1` is held and called `n`. -/
def Called (w : World) (x : Word × Bool) (n : String) : Prop :=
  ∃ j ∈ w.handles, w.atoms[j]? = some ⟨x.1, n, x.2⟩

theorem Acct.called {W : String → Prop} {w0 w : World} {l : List Term} (h : Acct W w0 w l) {x : Word × Bool}
    (hx : x ∈ atomsAll l) : ∃ n, W n ∧ Called w x n := by
  obtain ⟨js, hp, hf⟩ := h.bal
  obtain ⟨j, hj, n, h1, h2⟩ := forall₂_mem_right hf hx
  exact ⟨n, h1, j, hp.mem_iff.mpr (List.mem_append_right _ hj), h2⟩

theorem Acct.still_called {W : String → Prop} {w0 w : World} {l : List Term} (h : Acct W w0 w l)
    {x : Word × Bool} {n : String} (hx : Called w0 x n) : Called w x n := by
  obtain ⟨j, hj, hx⟩ := hx
  exact ⟨j, h.keeps hj, prefix_get h.atoms hx⟩

theorem Called.inj {w : World} (h : World.Tidy w) {x y : Word × Bool} {n m : String} (hx : Called w x n)
    (hy : Called w y m) (e : x.1 = y.1) : x = y ∧ n = m := by
  obtain ⟨i, hi, h1⟩ := hx
  obtain ⟨j, hj, h2⟩ := hy
  have := addr_inj h (h.sub i hi) (h.sub j hj) h1 h2 e
  subst this
  rw [h1] at h2
  simp only [Option.some.injEq, Named.mk.injEq] at h2
  exact ⟨Prod.ext h2.1 h2.2.2, h2.2.1⟩

theorem Called.dict {w : World} (h : World.Tidy w) {x : Word × Bool} {n : String} (hx : Called w x n) :
    w.store.dict (keyOf (Term.atomHash x.1)) = some n := by
  obtain ⟨j, hj, h1⟩ := hx
  refine (h.dict _ n).2 ⟨j, h.sub j hj, ?_, ?_⟩
  · simp [World.key, h1]
  · simp [World.nameOf, h1]

/-- What holds all the time; `lost` are the terms made during lines that threw, which nothing drops. -/
structure Prog.Inv (p : Prog) (lost : List Term) : Prop where
  acct : Acct (fun _ => True) World.init p.ses.env.world (p.terms ++ lost)
  left : ∀ x ∈ atomsAll lost, ∃ n ∈ p.odd, Called p.ses.env.world x n
  buf : Reached p.ses.buf
  ast : p.ses.ast.OfLine
  good : ∀ t ∈ p.terms, Good t

theorem Acct.perm {W : String → Prop} {w0 w : World} {l l' : List Term} (h : Acct W w0 w l)
    (hp : (atomsAll l).Perm (atomsAll l')) : Acct W w0 w l' := by
  obtain ⟨k1, k2, js, k3, k4⟩ := h
  obtain ⟨ks, q1, q2⟩ := List.perm_comp_forall₂ hp.symm k4.flip
  exact ⟨k1, k2, ks, k3.trans (q2.symm.append_left _), q1.flip⟩

theorem Acct.trans {W : String → Prop} {w0 w1 w2 : World} {l1 l2 : List Term} (h1 : Acct W w0 w1 l1)
    (h2 : Acct W w1 w2 l2) : Acct W w0 w2 (l1 ++ l2) := by
  obtain ⟨js, p1, f1⟩ := h1.bal
  obtain ⟨ks, p2, f2⟩ := h2.bal
  refine ⟨h2.reach, h1.atoms.trans h2.atoms, js ++ ks, ?_, ?_⟩
  · rw [← List.append_assoc]
    exact p2.trans (p1.append_right _)
  · rw [atomsAll_append]
    exact List.rel_append (f1.imp fun j l ⟨n, q1, q2⟩ => ⟨n, q1, prefix_get h2.atoms q2⟩) f2

/-- The same with the new term put before the last ones. -/
theorem Acct.insert {W : String → Prop} {w0 w1 w2 : World} {l1 l2 l3 : List Term} (h1 : Acct W w0 w1 (l1 ++ l3))
    (h2 : Acct W w1 w2 l2) : Acct W w0 w2 (l1 ++ l2 ++ l3) := by
  refine (h1.trans h2).perm ?_
  simp only [atomsAll_append, List.append_assoc]
  exact List.Perm.append_left _ List.perm_append_comm

/-- A call that returned a task. -/
theorem parseTask_some {M : Mach} {bad : Act Val} {strict : Bool} {fuel d : Nat} {s s' : Session}
    {text : List WChar} {t : Task} (h : parseTask M bad strict fuel d s text = (.ok (some t), s')) :
    ∃ r a, parseText strict fuel s.buf text d = .ok r ∧ s.ast.after r.ast = .tree a ∧ s'.buf = r.scan.buf ∧
      evalTask M bad a s.env.clearNames = (.ok t, s'.env) := by
  unfold parseTask at h
  cases hp : parseText strict fuel s.buf text d with
  | ok r =>
    rw [hp] at h
    simp only at h
    split at h
    · simp at h
    · simp at h
    · rename_i a ha
      split at h <;> simp only [Prod.mk.injEq, reduceCtorEq, false_and, Res.ok.injEq, Option.some.injEq] at h
      rename_i t' e' he
      obtain ⟨rfl, rfl⟩ := h
      exact ⟨r, a, rfl, ha, rfl, he⟩
  | throw e => rw [hp] at h; simp at h
  | ub => rw [hp] at h; simp at h
  | outOfFuel => rw [hp] at h; simp at h

/-- A call during which an action threw. -/
theorem parseTask_threw {M : Mach} {bad : Act Val} {strict : Bool} {fuel d : Nat} {s s' : Session}
    {text : List WChar} {m : String} (hb : Reached s.buf) (hd : d < 3)
    (h : parseTask M bad strict fuel d s text = (.throw m, s')) :
    ∃ r a, parseText strict fuel s.buf text d = .ok r ∧ s.ast.after r.ast = .tree a ∧ s'.buf = r.scan.buf ∧
      s'.ast = .tree a ∧ evalTask M bad a s.env.clearNames = (.throw m, s'.env) := by
  unfold parseTask at h
  cases hp : parseText strict fuel s.buf text d with
  | ok r =>
    rw [hp] at h
    simp only at h
    split at h
    · simp at h
    · simp at h
    · rename_i a ha
      split at h <;> simp only [Prod.mk.injEq, reduceCtorEq, false_and, Res.throw.injEq] at h
      rename_i m' e' he
      obtain ⟨rfl, rfl⟩ := h
      exact ⟨r, a, rfl, ha, rfl, ha, he⟩
  | throw e => exact absurd hp (parse_no_throw hb.empty hd)
  | ub => rw [hp] at h; simp at h
  | outOfFuel => rw [hp] at h; simp at h

/-- A call that returned the null pointer. -/
theorem parseTask_none {M : Mach} {bad : Act Val} {strict : Bool} {fuel d : Nat} {s s' : Session}
    {text : List WChar} (h : parseTask M bad strict fuel d s text = (.ok none, s')) :
    s'.env = s.env.clearNames := by
  unfold parseTask at h
  cases hp : parseText strict fuel s.buf text d with
  | ok r =>
    rw [hp] at h
    simp only at h
    split at h
    · simp at h
    · simp only [Prod.mk.injEq] at h
      rw [← h.2]
    · split at h <;> simp at h
  | throw e => rw [hp] at h; simp at h
  | ub => rw [hp] at h; simp at h
  | outOfFuel => rw [hp] at h; simp at h

theorem parseTask_reached {M : Mach} {bad : Act Val} {strict : Bool} {fuel d : Nat} {s s' : Session}
    {text : List WChar} {t : Option Task} (hd : d < 3) (hs : Reached s.buf)
    (h : parseTask M bad strict fuel d s text = (.ok t, s')) :
    Reached s'.buf ∧ s'.ast.OfLine := by
  obtain ⟨h1, r, h2, h3⟩ := parseTask_ok h
  exact ⟨h3 ▸ .next hs hd h2, fun a ha => by rw [h1] at ha; cases ha⟩

/-- What reading a line does to the handles. -/
theorem read_acct {line : List WChar} {a : List Ast} (hn : IsNarsese line a) {M : Mach}
    (hord : ∀ l, (M.ord l).Perm l) {N : Nat}
    (hM : FreshBelow M N) {bad : Act Val} {env env' : Env} {t : Task}
    (he : evalTask M bad a env = (.ok t, env')) (hw : Reach false env.world)
    (hN : env.world.dictH.length + (Ast.mentionsAll a).length ≤ N)
    (hops : Paired env.world [] (Ast.mentionsAll a)) :
    Acct (fun _ => True) env.world env'.world [t.sentence.term] ∧ Good t.sentence.term := by
  obtain ⟨bs, p, s, ms, r', e1, vs, xs, hp, h2, h3, h4, _, _, _, _, h9, _⟩ := evalTask_ok hn he
  have hms : s.mentions = Ast.mentionsAll a := by
    rw [Ast.partAll_mentions hp]; simp [Part.mentions]
  rw [← hms] at hN hops
  obtain ⟨hA, _⟩ := Syn.eval_acct hord hM hw s (live := []) (seen := []) h2 (Acct.start hw) hops hN
  simp only [List.nil_append] at hA
  rw [← h4, ← h9] at hA
  exact ⟨hA.weaken fun _ _ => trivial, h4 ▸ (Syn.eval_names M s h2).1⟩

/-- What a line during which an action threw does to the handles. -/
theorem left_acct {line : List WChar} {a : List Ast} (hn : IsNarsese line a) {M : Mach}
    (hord : ∀ l, (M.ord l).Perm l) {N : Nat}
    (hM : FreshBelow M N) {bad : Act Val} {env env' : Env} {m : String}
    (he : evalTask M bad a env = (.throw m, env')) (hw : Reach false env.world)
    (hN : env.world.dictH.length + (Ast.mentionsAll a).length ≤ N)
    (hops : Paired env.world [] (Ast.mentionsAll a)) :
    ∃ rs, AcctN (Ast.mentionsAll a) env.world env'.world rs := by
  obtain ⟨us, rs, h1, ms, h2⟩ := evalTask_left hn hord he
  rw [← h2] at hN hops ⊢
  rw [List.length_append] at hN
  obtain ⟨hA, _⟩ := Syn.evalAll_acct hord hM hw us (live := []) (seen := []) h1 (Acct.start hw) hops.append.1
    (by omega)
  simp only [List.nil_append] at hA
  exact ⟨rs, AcctN.more hA⟩

theorem Prog.terms_set {ts : List (Option Task)} {i : Nat} {t : Task} (h : ts[i]? = some (some t)) :
    ∃ l1 l2, ts.filterMap (Option.map fun t => t.sentence.term) = l1 ++ t.sentence.term :: l2 ∧
      (ts.set i none).filterMap (Option.map fun t => t.sentence.term) = l1 ++ l2 := by
  obtain ⟨hi, h⟩ := List.getElem?_eq_some_iff.mp h
  refine ⟨(ts.take i).filterMap (Option.map fun t => t.sentence.term),
    (ts.drop (i + 1)).filterMap (Option.map fun t => t.sentence.term), ?_, ?_⟩
  · have : ts = ts.take i ++ some t :: ts.drop (i + 1) := by
      rw [← h]; simp
    conv_lhs => rw [this]
    simp
  · rw [List.set_eq_take_append_cons_drop, if_pos hi]
    simp

theorem forall₂_split {α β : Type} {R : α → β → Prop} {js : List α} {l1 l2 : List β}
    (h : List.Forall₂ R js (l1 ++ l2)) :
    ∃ j1 j2, List.Forall₂ R j1 l1 ∧ List.Forall₂ R j2 l2 ∧ js = j1 ++ j2 :=
  ⟨js.take l1.length, js.drop l1.length, List.forall₂_take_append _ _ _ h, List.forall₂_drop_append _ _ _ h,
    (List.take_append_drop _ _).symm⟩

/-- Dropping a task that lives is defined and gives back its handles. -/
theorem Acct.dropped {W : String → Prop} {w : World} {l1 l2 : List Term} {t : Term}
    (h : Acct W World.init w (l1 ++ t :: l2)) :
    ∃ w', (addrs t).foldlM (fun w a => dropAddr a w) w = .ok w' ∧
      Acct W World.init w' (l1 ++ l2) ∧ w'.atoms = w.atoms ∧ w'.handles ⊆ w.handles := by
  obtain ⟨js, hp, hf⟩ := h.bal
  have e : atomsAll (l1 ++ t :: l2) = atomsAll l1 ++ (atomsAll [t] ++ atomsAll l2) := by
    rw [← atomsAll_append, ← atomsAll_append, List.singleton_append]
  rw [e] at hf
  obtain ⟨j1, k, f1, fk, rfl⟩ := forall₂_split hf
  obtain ⟨jt, j2, ft, f2, rfl⟩ := forall₂_split fk
  obtain ⟨w', k1, k2, k3, k4, _⟩ := dropAll_spec h.reach (H := World.init.handles ++ (j1 ++ j2)) (K := jt)
    (D := addrs t) (by
      refine hp.trans ?_
      rw [List.append_assoc]
      refine List.Perm.append_left _ ?_
      rw [List.append_assoc]
      exact List.Perm.append_left _ List.perm_append_comm)
    (by
      rw [addrs_one]
      exact List.forall₂_map_right_iff.mpr (ft.imp fun j x ⟨n, _, q2⟩ => ⟨_, q2, rfl⟩))
  refine ⟨w', k1, ⟨k2, by rw [k4]; exact h.atoms, j1 ++ j2, k3, ?_⟩, k4, fun j hj => hp.mem_iff.mpr ?_⟩
  · rw [k4, atomsAll_append]
    exact List.rel_append f1 f2
  · have := k3.mem_iff.mp hj
    simp only [List.mem_append] at this ⊢
    tauto

/-- As long as an atom is held it keeps its name. -/
theorem Prog.Inv.step {M : Mach} (hord : ∀ l, (M.ord l).Perm l) {strict : Bool} {N : Nat}
    (hM : FreshBelow M N) {p q : Prog} {lost : List Term} (hp : p.Inv lost) (h : Prog.Step M strict N p q) :
    ∃ more, q.Inv (lost ++ more) ∧ ∀ x ∈ atomsAll (q.terms ++ lost), ∀ n, Called p.ses.env.world x n →
      Called q.ses.env.world x n := by
  cases h with
  | read hd hfit h =>
    obtain ⟨r, a, h1, h2, h3, h4⟩ := parseTask_some h
    obtain ⟨hN, hops⟩ := hfit r a h1 h2
    obtain ⟨line, hn⟩ := (hp.ast.after hp.buf hd h1 a h2).narsese
    obtain ⟨k1, k2⟩ := read_acct hn hord hM h4 hp.acct.reach hN hops
    obtain ⟨k3, k4⟩ := parseTask_reached hd hp.buf h
    refine ⟨[], ⟨?_, fun x hx => ?_, k3, k4, ?_⟩, fun x _ n hn => k1.still_called hn⟩
    · have := hp.acct.insert k1
      simpa [Prog.terms] using this
    · rw [List.append_nil] at hx
      obtain ⟨n, q1, q2⟩ := hp.left x hx
      exact ⟨n, q1, k1.still_called q2⟩
    · intro t ht
      simp only [Prog.terms, List.filterMap_append, List.mem_append] at ht
      rcases ht with ht | ht
      · exact hp.good t ht
      · simp only [List.filterMap_cons, Option.map_some, List.filterMap_nil, List.mem_singleton] at ht
        exact ht ▸ k2
  | reject hd h =>
    obtain ⟨k3, k4⟩ := parseTask_reached hd hp.buf h
    have e := parseTask_none h
    refine ⟨[], ⟨?_, fun x hx => ?_, k3, k4, hp.good⟩, fun x _ n hn => by rw [e]; exact hn⟩
    · rw [e, List.append_nil]; exact hp.acct
    · rw [List.append_nil] at hx
      rw [e]
      exact hp.left x hx
  | threw hd hfit h =>
    obtain ⟨r, a, h1, h2, h3, h3', h4⟩ := parseTask_threw hp.buf hd h
    obtain ⟨hN, hops⟩ := hfit r a h1 h2
    have hal := hp.ast.after hp.buf hd h1
    obtain ⟨line, hn⟩ := (hal a h2).narsese
    obtain ⟨rs, k1⟩ := left_acct hn hord hM h4 hp.acct.reach hN hops
    have k1' := k1.weaken (W' := fun _ => True) fun _ _ => trivial
    refine ⟨rs, ⟨?_, fun x hx => ?_, ?_, ?_, hp.good⟩, fun x _ n hn => k1.still_called hn⟩
    · rw [← List.append_assoc]
      exact hp.acct.trans k1'
    · rw [atomsAll_append] at hx
      rcases List.mem_append.mp hx with hx | hx
      · obtain ⟨n, q1, q2⟩ := hp.left x hx
        exact ⟨n, List.mem_append_left _ q1, k1.still_called q2⟩
      · obtain ⟨n, q1, q2⟩ := k1.called hx
        exact ⟨n, List.mem_append_right _ (by rw [h3']; exact q1), q2⟩
    · exact h3 ▸ .next hp.buf hd h1
    · rw [h3', ← h2]; exact hal
  | drop hi h =>
    obtain ⟨l1, l2, e1, e2⟩ := Prog.terms_set hi
    have hA := hp.acct
    have hg := hp.good
    simp only [Prog.terms, e1, List.append_assoc, List.cons_append] at hA hg
    obtain ⟨w', k1, k2, k3, k4⟩ := hA.dropped
    rw [h] at k1
    cases k1
    have hkeep : ∀ x ∈ atomsAll (l1 ++ (l2 ++ lost)), ∀ n, Called _ x n → Called _ x n := fun x hx n hn => by
      obtain ⟨m, _, j, hj, hm⟩ := k2.called hx
      have := Called.inj hp.acct.reach.tidy.1 hn ⟨j, k4 hj, k3 ▸ hm⟩ rfl
      rw [this.2]
      exact ⟨j, hj, hm⟩
    refine ⟨[], ⟨?_, fun x hx => ?_, hp.buf, hp.ast, ?_⟩, fun x hx => hkeep x ?_⟩
    · simpa only [Prog.terms, e2, List.append_nil, List.append_assoc] using k2
    · rw [List.append_nil] at hx
      obtain ⟨n, q1, q2⟩ := hp.left x hx
      refine ⟨n, q1, hkeep x ?_ n q2⟩
      rw [atomsAll_append, atomsAll_append]
      exact List.mem_append_right _ (List.mem_append_right _ hx)
    · intro t ht
      simp only [Prog.terms, e2] at ht
      refine hg t ?_
      rcases List.mem_append.mp ht with ht | ht
      · exact List.mem_append_left _ ht
      · exact List.mem_append_right _ (List.mem_cons_of_mem _ ht)
    · simpa only [Prog.terms, e2, List.append_assoc] using hx
  | other g =>
    exact ⟨[], ⟨by rw [List.append_nil]; exact hp.acct, by rw [List.append_nil]; exact hp.left, hp.buf, hp.ast, hp.good⟩,
      fun x _ n hn => hn⟩

theorem Prog.Inv.start (g : Stamp.Globals) : (Prog.start g).Inv [] :=
  ⟨Acct.start .init, fun _ hx => (nomatch hx), .fresh, fun _ h => (nomatch h), fun _ ht => (nomatch ht)⟩

theorem Prog.Inv.steps {M : Mach} (hord : ∀ l, (M.ord l).Perm l) {strict : Bool} {N : Nat}
    (hM : FreshBelow M N) {p q : Prog} {lost : List Term} (hp : p.Inv lost) (h : Prog.Steps M strict N p q) :
    ∃ more, q.Inv (lost ++ more) := by
  induction h with
  | refl => exact ⟨[], by rwa [List.append_nil]⟩
  | step _ h ih =>
    obtain ⟨m1, ih⟩ := ih
    obtain ⟨m2, ih, _⟩ := ih.step hord hM h
    exact ⟨m1 ++ m2, by rwa [← List.append_assoc]⟩

/-! ## Tasks that stay -/

theorem Prog.Step.length {M : Mach} {strict : Bool} {N : Nat} {p q : Prog} (h : Prog.Step M strict N p q) :
    p.tasks.length ≤ q.tasks.length := by
  cases h <;> simp

theorem Prog.Steps.length {M : Mach} {strict : Bool} {N : Nat} {p q : Prog}
    (h : Prog.Steps M strict N p q) : p.tasks.length ≤ q.tasks.length := by
  induction h with
  | refl => exact Nat.le_refl _
  | step _ h ih => exact Nat.le_trans ih h.length

/-- A task that lives lived before, if it had been read. -/
theorem Prog.Step.lived {M : Mach} {strict : Bool} {N : Nat} {p q : Prog} (h : Prog.Step M strict N p q)
    {i : Nat} {t : Task} (hi : i < p.tasks.length) (ht : q.tasks[i]? = some (some t)) :
    p.tasks[i]? = some (some t) := by
  cases h with
  | read => rwa [List.getElem?_append_left hi] at ht
  | reject => exact ht
  | threw => exact ht
  | drop =>
    simp only [List.getElem?_set] at ht
    split at ht
    · split at ht <;> simp at ht
    · exact ht
  | other => exact ht

theorem Prog.mem_terms {p : Prog} {i : Nat} {t : Task} (h : p.tasks[i]? = some (some t)) :
    t.sentence.term ∈ p.terms :=
  List.mem_filterMap.mpr ⟨some t, List.mem_of_getElem? h, rfl⟩

theorem atomsAll_mem {ts : List Term} {t : Term} (h : t ∈ ts) {x : Word × Bool} (hx : x ∈ atomsAll [t]) :
    x ∈ atomsAll ts := by
  simp only [atomsAll, leafTermsAll_one, List.mem_filterMap, mem_leafTermsAll] at hx ⊢
  obtain ⟨l, h1, h2⟩ := hx
  exact ⟨l, ⟨t, h, h1⟩, h2⟩

/-- Names of a task that stays. -/
theorem Prog.Steps.called {M : Mach} (hord : ∀ l, (M.ord l).Perm l) {strict : Bool} {N : Nat}
    (hM : FreshBelow M N) {p q : Prog} {lost : List Term} (hp : p.Inv lost) (h : Prog.Steps M strict N p q)
    {i : Nat} {t u : Task}
    (ht : p.tasks[i]? = some (some t)) (hu : q.tasks[i]? = some (some u)) :
    u = t ∧ ∀ x ∈ atomsAll [t.sentence.term], ∀ n, Called p.ses.env.world x n →
      Called q.ses.env.world x n := by
  induction h generalizing u with
  | refl =>
    rw [ht] at hu
    cases hu
    exact ⟨rfl, fun x _ n h => h⟩
  | step hs h ih =>
    have hi := (List.getElem?_eq_some_iff.mp ht).1
    have hu' := h.lived (Nat.lt_of_lt_of_le hi hs.length) hu
    obtain ⟨rfl, k⟩ := ih hu'
    obtain ⟨more, hI⟩ := hp.steps hord hM hs
    obtain ⟨_, _, hc⟩ := hI.step hord hM h
    refine ⟨rfl, fun x hx n hn => hc x ?_ n (k x hx n hn)⟩
    rw [atomsAll_append]
    exact List.mem_append_left _ (atomsAll_mem (Prog.mem_terms hu) hx)

/-- Names left behind by a line that threw. -/
theorem Prog.Steps.lost {M : Mach} (hord : ∀ l, (M.ord l).Perm l) {strict : Bool} {N : Nat}
    (hM : FreshBelow M N) {p q : Prog} {lost : List Term} (hp : p.Inv lost) (h : Prog.Steps M strict N p q)
    {x : Word × Bool} (hx : x ∈ atomsAll lost) {n : String} (hn : Called p.ses.env.world x n) :
    Called q.ses.env.world x n := by
  induction h with
  | refl => exact hn
  | step hs h ih =>
    obtain ⟨more, hI⟩ := hp.steps hord hM hs
    obtain ⟨_, _, hc⟩ := hI.step hord hM h
    refine hc x ?_ n ih
    rw [atomsAll_append, atomsAll_append]
    exact List.mem_append_right _ (List.mem_append_left _ hx)

/-! ## What printing reads -/

theorem terms_cons (d : Map Key String) (c : Bool) (t t' : Term) (ts : List Term) :
    Print.terms d c (t :: t' :: ts) = (do
      let str ← Print.term d c t
      let sep ← Print.paint c .separator [',', ' ']
      let rest ← Print.terms d c (t' :: ts)
      return str ++ sep ++ rest) := by
  conv_lhs =>
    rw [Print.terms]
    · skip
    · exact fun h => nomatch h

mutual
theorem print_congr (d d' : Map Key String) (c : Bool) : ∀ t : Term,
    (∀ u, u ∈ Print.atoms t ∨ u ∈ Print.complexes t → d (keyOf u.hash) = d' (keyOf u.hash)) →
    Print.term d c t = Print.term d' c t
  | .var .., _ => by rw [Print.term, Print.term]
  | .interval .., _ => by rw [Print.term, Print.term]
  | .atom a i, h => by
    have e := h (.atom a i) (.inl (by simp [Print.atoms]))
    rw [Print.term, Print.term]
    simp only [Print.named, e]
  | .stmt s k p i, h => by
    have e := h (.stmt s k p i) (.inr (by simp [Print.complexes]))
    have hs : ∀ u, u ∈ Print.atoms s ∨ u ∈ Print.complexes s → d (keyOf u.hash) = d' (keyOf u.hash) :=
      fun u hu => h u (by simp only [Print.atoms, Print.complexes, List.mem_append, List.mem_cons]; tauto)
    have hp : ∀ u, u ∈ Print.atoms p ∨ u ∈ Print.complexes p → d (keyOf u.hash) = d' (keyOf u.hash) :=
      fun u hu => h u (by simp only [Print.atoms, Print.complexes, List.mem_append, List.mem_cons]; tauto)
    have ha : Print.subjectArgs d c s = Print.subjectArgs d' c s := by
      cases s with
      | comp k ts j =>
        rw [Print.subjectArgs, Print.subjectArgs]
        refine prints_congr d d' c ts fun u hu => hs u ?_
        simp only [Print.atoms, Print.complexes, List.mem_cons]
        tauto
      | _ => rfl
    rw [Print.term, Print.term]
    simp only [Print.named, e, print_congr d d' c s hs, print_congr d d' c p hp, ha]
  | .comp k ts i, h => by
    have e := h (.comp k ts i) (.inr (by simp [Print.complexes]))
    have ht := prints_congr d d' c ts fun u hu => h u (by
      simp only [Print.atoms, Print.complexes, List.mem_cons]; tauto)
    rw [Print.term, Print.term]
    simp only [Print.named, e, ht]
theorem prints_congr (d d' : Map Key String) (c : Bool) : ∀ ts : List Term,
    (∀ u, u ∈ Print.atomsAll ts ∨ u ∈ Print.complexesAll ts → d (keyOf u.hash) = d' (keyOf u.hash)) →
    Print.terms d c ts = Print.terms d' c ts
  | [], _ => by rw [Print.terms, Print.terms]
  | [t], h => by
    rw [Print.terms, Print.terms]
    exact print_congr d d' c t fun u hu => h u (by
      simpa [Print.atomsAll, Print.complexesAll] using hu)
  | t :: t' :: ts, h => by
    have h1 := print_congr d d' c t fun u hu => h u (by
      simp only [Print.atomsAll, Print.complexesAll, List.mem_append]; tauto)
    have h2 := prints_congr d d' c (t' :: ts) fun u hu => h u (by
      rw [Print.atomsAll, Print.complexesAll, List.mem_append, List.mem_append]; tauto)
    rw [terms_cons, terms_cons, h1, h2]
end

/-- The atoms that are printed are leaves, and their keys are those of their addresses. -/
theorem Good.atoms_leaf {t : Term} (h : Good t) : ∀ u ∈ Print.atoms t,
    ∃ x ∈ atomsAll [t], keyOf u.hash = keyOf (Term.atomHash x.1) := by
  induction h with
  | atom a =>
    intro u hu
    rw [Term.mkAtom, Print.atoms, List.mem_singleton] at hu
    subst hu
    exact ⟨(a, false), by simp [atomsAll, leafTermsAll, Term.mkAtom, leafTerms, atomOf, Term.leafInfo], rfl⟩
  | operation a =>
    intro u hu
    rw [Term.mkOperation, Print.atoms, List.mem_singleton] at hu
    subst hu
    exact ⟨(a, true), by simp [atomsAll, leafTermsAll, Term.mkOperation, leafTerms, atomOf, Term.leafInfo], rfl⟩
  | interval n => intro u hu; rw [Term.mkInterval, Print.atoms] at hu; cases hu
  | var k n i => intro u hu; rw [Term.mkVar, Print.atoms] at hu; cases hu
  | stmt c _ _ ih1 ih2 =>
    intro u hu
    rw [Term.mkStmt, Print.atoms, List.mem_append] at hu
    rcases hu with hu | hu
    · obtain ⟨x, h1, h2⟩ := ih1 u hu
      refine ⟨x, ?_, h2⟩
      simp only [atomsAll, leafTermsAll_one, Term.mkStmt, leafTerms, List.filterMap_append] at h1 ⊢
      exact List.mem_append_left _ h1
    · obtain ⟨x, h1, h2⟩ := ih2 u hu
      refine ⟨x, ?_, h2⟩
      simp only [atomsAll, leafTermsAll_one, Term.mkStmt, leafTerms, List.filterMap_append] at h1 ⊢
      exact List.mem_append_right _ h1
  | comp c _ _ ih =>
    intro u hu
    rw [Term.finishComp, Print.atoms, Print.mem_atomsAll] at hu
    obtain ⟨t, ht, hu⟩ := hu
    obtain ⟨x, h1, h2⟩ := ih t ht u hu
    refine ⟨x, ?_, h2⟩
    have := atomsAll_mem ht h1
    simpa [atomsAll, leafTermsAll_one, Term.finishComp, leafTerms] using this

end Cnars.Parser
