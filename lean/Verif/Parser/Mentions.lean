import Verif.Parser.Accounts
import Verif.Parser.Renaming
import Verif.Parser.Stamps

/-!
# The words of a line and the atoms of its term
-/

namespace Cnars.Parser
open Cnars Cnars.Props

/-- What a leaf of a term is made from: `A`, `^go` or `go(…)`, `+1`. -/
inductive Mention where
  | name (s : List Char)
  | op (s : List Char)
  | interval (s : List Char)
deriving DecidableEq

mutual
/-- The words of a term, those for variables left out. -/
def Syn.mentions : Syn → List Mention
  | .name s => [.name s]
  | .op s => [.op s]
  | .interval s => [.interval s]
  | .var .. => []
  | .stmt s _ p => Syn.mentions s ++ Syn.mentions p
  | .comp _ ts => Syn.mentionsAll ts
  | .call f ts => Syn.mentions f ++ Syn.mentionsAll ts
  | .callName s ts => Syn.mentionsAll ts ++ [.op s]
/-- Of a list. -/
def Syn.mentionsAll : List Syn → List Mention
  | [] => []
  | t :: ts => Syn.mentions t ++ Syn.mentionsAll ts
end

/-- The name of the constant or operation. -/
def Mention.known : Mention → List String
  | .name s => [String.ofList s]
  | .op s => ["^" ++ String.ofList s]
  | .interval _ => []

/-- The names. -/
def namesIn (ms : List Mention) : List String := ms.flatMap Mention.known

/-- Every operation `^go` among the words is known together with a constant `go`, or both names are
unknown and were not mentioned before (`seen`). -/
def Paired (w : World) (seen : List Mention) : List Mention → Prop
  | [] => True
  | m :: ms =>
    (∀ s, m = .op s →
      (w.store.checkByName (String.ofList s) = true ∧
        w.store.checkByName ("^" ++ String.ofList s) = true) ∨
      (∀ n ∈ [String.ofList s, "^" ++ String.ofList s],
        w.store.checkByName n = false ∧ n ∉ namesIn seen)) ∧
    Paired w (seen ++ [m]) ms

theorem Paired.append {w : World} {ms ns : List Mention} : ∀ {seen : List Mention},
    Paired w seen (ms ++ ns) → Paired w seen ms ∧ Paired w (seen ++ ms) ns := by
  induction ms with
  | nil => intro seen h; exact ⟨trivial, by simpa using h⟩
  | cons m ms ih =>
    intro seen h
    obtain ⟨h1, h2⟩ := h
    obtain ⟨h3, h4⟩ := ih h2
    exact ⟨⟨h1, h3⟩, by simpa using h4⟩

/-- The account with the names of these words. -/
abbrev AcctN (ms : List Mention) : World → World → List Term → Prop := Acct (· ∈ namesIn ms)

theorem AcctN.more {ms ns : List Mention} {w0 w : World} {live : List Term} (h : AcctN ms w0 w live) :
    AcctN (ms ++ ns) w0 w live :=
  Acct.weaken h fun n hn => by simp only [namesIn, List.flatMap_append, List.mem_append]; exact .inl hn

/-- The allocator answers with addresses that differ from the living ones in the low 32 bits, as long as
there are fewer than `N` names. -/
def FreshBelow (M : Mach) (N : Nat) : Prop :=
  ∀ w, Reach false w → w.dictH.length < N → FreshAddr w (M.addr w)

theorem leafTermsAll_one (t : Term) : leafTermsAll [t] = leafTerms t := by simp [leafTermsAll]

theorem atomsAll_none {l : Term} (h : atomsAll [l] = []) {W : String → Prop} {w0 w : World}
    {live : List Term} (ha : Acct W w0 w live) : Acct W w0 w (live ++ [l]) :=
  ha.mono (by rw [atomsAll_append, h, List.append_nil])

theorem makingTerm_acct {W : String → Prop} {w0 : World} {e e' : Env} {live args : List Term} {res : Res Term}
    {r : Term} (h : makingTerm args res e = (.ok r, e')) (ha : Acct W w0 e.world (live ++ args))
    (hs : (leafTerms r).Subperm (leafTermsAll args)) :
    Acct W w0 e'.world (live ++ [r]) ∧ e'.world.dictH.length ≤ e.world.dictH.length := by
  obtain ⟨t', e1, h1, h⟩ := Act.bind_ok h
  obtain ⟨u, e2, h2, h⟩ := Act.bind_ok h
  change (Res.ok t', e2) = _ at h
  simp only [Prod.mk.injEq, Res.ok.injEq] at h
  obtain ⟨rfl, rfl⟩ := h
  simp only [Act.lift, Prod.mk.injEq] at h1
  obtain ⟨_, rfl⟩ := h1
  exact ha.settle hs h2

theorem operation_acct {M : Mach} {N : Nat} (hM : FreshBelow M N) {w0 : World} (h0 : Reach false w0)
    {s : List Char} {e e' : Env} {r : Term} {live : List Term} {seen : List Mention}
    (h : Action.theOperation M s e = (.ok r, e')) (ha : AcctN seen w0 e.world live)
    (hok : Paired w0 seen [.op s]) (hN : e.world.dictH.length < N) :
    AcctN (seen ++ [.op s]) w0 e'.world (live ++ [r]) ∧
      e'.world.dictH.length ≤ e.world.dictH.length + 1 := by
  obtain ⟨_, _, _, h1, h2⟩ := named_ok h
  refine ⟨ha.more.operation (hM _ ha.reach hN) (by simp [namesIn, Mention.known]) ?_ h1 h2,
    (operation_grows h1).2⟩
  rcases hok.1 s rfl with ⟨k1, k2⟩ | k
  · rw [ha.known h0 k1, ha.known h0 k2]
  · obtain ⟨k1, k2⟩ := k (String.ofList s) (by simp)
    obtain ⟨k3, k4⟩ := k ("^" ++ String.ofList s) (by simp)
    rw [ha.unknown h0 k1 k2, ha.unknown h0 k3 k4]

mutual
/-- Evaluation takes handles for the atoms of the result, and no others. -/
theorem Syn.eval_acct {M : Mach} (hord : ∀ l, (M.ord l).Perm l) {N : Nat} (hM : FreshBelow M N)
    {w0 : World} (h0 : Reach false w0) :
    ∀ (t : Syn) {e e' : Env} {r : Term} {live : List Term} {seen : List Mention},
    Syn.eval M t e = (.ok r, e') → AcctN seen w0 e.world live → Paired w0 seen t.mentions →
    e.world.dictH.length + t.mentions.length ≤ N →
    AcctN (seen ++ t.mentions) w0 e'.world (live ++ [r]) ∧
      e'.world.dictH.length ≤ e.world.dictH.length + t.mentions.length
  | .name s, e, e', r, live, seen, h, ha, hok, hN => by
    rw [Syn.mentions] at hok hN ⊢
    obtain ⟨_, _, _, h1, h2⟩ := named_ok h
    simp only [List.length_singleton] at hN ⊢
    exact ⟨ha.more.create (hM _ ha.reach (by omega)) (by simp [namesIn, Mention.known]) h1 h2,
      (create_grows h1).2⟩
  | .op s, e, e', r, live, seen, h, ha, hok, hN => by
    rw [Syn.mentions] at hok hN ⊢
    simp only [List.length_singleton] at hN ⊢
    exact operation_acct hM h0 h ha hok (by omega)
  | .interval s, e, e', r, live, seen, h, ha, hok, hN => by
    rw [Syn.eval] at h
    obtain ⟨x, e1, h1, h⟩ := Act.bind_ok h
    obtain ⟨n, e2, h2, h⟩ := Act.bind_ok h
    change (Res.ok _, e2) = _ at h
    simp only [Prod.mk.injEq, Res.ok.injEq, Act.lift] at h h1 h2
    obtain ⟨rfl, rfl⟩ := h
    obtain ⟨_, rfl⟩ := h1
    obtain ⟨_, rfl⟩ := h2
    exact ⟨atomsAll_none rfl ha.more, by omega⟩
  | .var k s, e, e', r, live, seen, h, ha, hok, hN => by
    rw [Syn.eval] at h
    obtain ⟨i, e1, h1, h⟩ := Act.bind_ok h
    change (Res.ok _, e1) = _ at h
    simp only [Prod.mk.injEq, Res.ok.injEq, Action.number] at h h1
    obtain ⟨rfl, rfl⟩ := h
    obtain ⟨rfl, rfl⟩ := h1
    exact ⟨atomsAll_none rfl ha.more, by simp⟩
  | .stmt s c p, e, e', r, live, seen, h, ha, hok, hN => by
    rw [Syn.mentions] at hok hN ⊢
    rw [List.length_append] at hN ⊢
    rw [Syn.eval] at h
    obtain ⟨s', e1, h1, h⟩ := Act.bind_ok h
    obtain ⟨p', e2, h2, h⟩ := Act.bind_ok h
    obtain ⟨hok1, hok2⟩ := hok.append
    obtain ⟨a1, d1⟩ := Syn.eval_acct hord hM h0 s h1 ha hok1 (by omega)
    obtain ⟨a2, d2⟩ := Syn.eval_acct hord hM h0 p h2 a1 hok2 (by omega)
    rw [List.append_assoc, List.append_assoc, List.singleton_append] at a2
    obtain ⟨g1, _⟩ := Syn.eval_names M s h1
    obtain ⟨g2, _⟩ := Syn.eval_names M p h2
    obtain ⟨h3, _⟩ := makingTerm_ok h
    obtain ⟨a3, d3⟩ := makingTerm_acct h a2 (newStatement_subperm hord g1 g2 h3)
    exact ⟨a3, by omega⟩
  | .comp c ts, e, e', r, live, seen, h, ha, hok, hN => by
    rw [Syn.mentions] at hok hN ⊢
    rw [Syn.eval] at h
    obtain ⟨ts', e1, h1, h⟩ := Act.bind_ok h
    obtain ⟨a1, d1⟩ := Syn.evalAll_acct hord hM h0 ts h1 ha hok hN
    obtain ⟨g1, _⟩ := Syn.evalAll_names M ts h1
    obtain ⟨h3, _⟩ := makingTerm_ok h
    obtain ⟨a3, d3⟩ := makingTerm_acct h a1 (mkComp_subperm hord g1 h3)
    exact ⟨a3, by omega⟩
  | .call f ts, e, e', r, live, seen, h, ha, hok, hN => by
    rw [Syn.mentions] at hok hN ⊢
    rw [List.length_append] at hN ⊢
    rw [Syn.eval] at h
    obtain ⟨f', e1, h1, h⟩ := Act.bind_ok h
    obtain ⟨ts', e2, h2, h⟩ := Act.bind_ok h
    obtain ⟨hok1, hok2⟩ := hok.append
    obtain ⟨a1, d1⟩ := Syn.eval_acct hord hM h0 f h1 ha hok1 (by omega)
    obtain ⟨a2, d2⟩ := Syn.evalAll_acct hord hM h0 ts h2 a1 hok2 (by omega)
    rw [List.append_assoc, List.append_assoc, List.singleton_append] at a2
    obtain ⟨g1, _⟩ := Syn.eval_names M f h1
    obtain ⟨g2, _⟩ := Syn.evalAll_names M ts h2
    obtain ⟨h3, _⟩ := makingTerm_ok h
    obtain ⟨a3, d3⟩ := makingTerm_acct h a2 (newOperation_subperm hord g1 g2 h3)
    exact ⟨a3, by omega⟩
  | .callName s ts, e, e', r, live, seen, h, ha, hok, hN => by
    rw [Syn.mentions] at hok hN ⊢
    rw [List.length_append, List.length_singleton] at hN ⊢
    rw [Syn.eval] at h
    obtain ⟨ts', e1, h1, h⟩ := Act.bind_ok h
    obtain ⟨f', e2, h2, h⟩ := Act.bind_ok h
    obtain ⟨hok1, hok2⟩ := hok.append
    obtain ⟨a1, d1⟩ := Syn.evalAll_acct hord hM h0 ts h1 ha hok1 (by omega)
    obtain ⟨a2, d2⟩ := operation_acct hM h0 h2 a1 hok2 (by omega)
    obtain ⟨g1, _⟩ := Syn.evalAll_names M ts h1
    obtain ⟨h5, h6, _⟩ := named_ok h2
    obtain ⟨h3, _⟩ := makingTerm_ok h
    rw [List.append_assoc, List.append_assoc] at a2
    obtain ⟨a3, d3⟩ := makingTerm_acct (live := live) h (by
      obtain ⟨k1, k2, js, k3, k4⟩ := a2
      refine ⟨k1, k2, ?_⟩
      have hp : (atomsAll (live ++ (ts' ++ [f']))).Perm (atomsAll (live ++ (f' :: ts'))) := by
        rw [atomsAll_append, atomsAll_append, atomsAll_append]
        refine List.Perm.append_left _ ?_
        have : f' :: ts' = [f'] ++ ts' := rfl
        rw [this, atomsAll_append]
        exact List.perm_append_comm
      obtain ⟨ks, q1, q2⟩ := List.perm_comp_forall₂ hp.symm k4.flip
      exact ⟨ks, k3.trans (q2.symm.append_left _), q1.flip⟩)
      (newOperation_subperm hord h5.good g1 h3)
    exact ⟨a3, by omega⟩
/-- The same for lists. -/
theorem Syn.evalAll_acct {M : Mach} (hord : ∀ l, (M.ord l).Perm l) {N : Nat} (hM : FreshBelow M N)
    {w0 : World} (h0 : Reach false w0) :
    ∀ (ts : List Syn) {e e' : Env} {rs : List Term} {live : List Term} {seen : List Mention},
    Syn.evalAll M ts e = (.ok rs, e') → AcctN seen w0 e.world live →
    Paired w0 seen (Syn.mentionsAll ts) →
    e.world.dictH.length + (Syn.mentionsAll ts).length ≤ N →
    AcctN (seen ++ Syn.mentionsAll ts) w0 e'.world (live ++ rs) ∧
      e'.world.dictH.length ≤ e.world.dictH.length + (Syn.mentionsAll ts).length
  | [], e, e', rs, live, seen, h, ha, hok, hN => by
    rw [Syn.evalAll] at h
    change (Res.ok [], e) = _ at h
    simp only [Prod.mk.injEq, Res.ok.injEq] at h
    obtain ⟨rfl, rfl⟩ := h
    exact ⟨by simpa using ha.more, by omega⟩
  | t :: ts, e, e', rs, live, seen, h, ha, hok, hN => by
    rw [Syn.mentionsAll] at hok hN ⊢
    rw [List.length_append] at hN ⊢
    rw [Syn.evalAll] at h
    obtain ⟨r, e1, h1, h⟩ := Act.bind_ok h
    obtain ⟨us, e2, h2, h⟩ := Act.bind_ok h
    change (Res.ok (r :: us), e2) = _ at h
    simp only [Prod.mk.injEq, Res.ok.injEq] at h
    obtain ⟨rfl, rfl⟩ := h
    obtain ⟨hok1, hok2⟩ := hok.append
    obtain ⟨a1, d1⟩ := Syn.eval_acct hord hM h0 t h1 ha hok1 (by omega)
    obtain ⟨a2, d2⟩ := Syn.evalAll_acct hord hM h0 ts h2 a1 hok2 (by omega)
    rw [List.append_assoc, List.append_assoc, List.singleton_append] at a2
    exact ⟨a2, by omega⟩
end

/-! ## Intervals -/

/-- Every interval of the term is the number of a word. -/
def Counted (M : Mach) (ms : List Mention) (t : Term) : Prop :=
  ∀ n i, .interval n i ∈ leafTerms t → ∃ s x, .interval s ∈ ms ∧ Action.stod M s = .ok x ∧
    Action.toInt x = .ok n

theorem Counted.mono {M : Mach} {ms ms' : List Mention} {t : Term} (h : Counted M ms t)
    (hm : ∀ m ∈ ms, m ∈ ms') : Counted M ms' t := fun n i hl => by
  obtain ⟨s, x, h1, h2⟩ := h n i hl
  exact ⟨s, x, hm _ h1, h2⟩

theorem IsNamed.counted {M : Mach} {ms : List Mention} {t : Term} (h : IsNamed t) : Counted M ms t := by
  obtain ⟨a, rfl | rfl⟩ := h <;>
  · intro n i hl
    simp [Term.mkOperation, Term.mkAtom, leafTerms] at hl

mutual
theorem Syn.eval_counted (M : Mach) : ∀ (t : Syn) {e e' : Env} {r : Term},
    Syn.eval M t e = (.ok r, e') → Counted M t.mentions r
  | .name s, e, e', r, h => (named_ok h).1.counted
  | .op s, e, e', r, h => (named_ok h).1.counted
  | .interval s, e, e', r, h => by
    rw [Syn.eval] at h
    obtain ⟨x, e1, h1, h⟩ := Act.bind_ok h
    obtain ⟨n, e2, h2, h⟩ := Act.bind_ok h
    change (Res.ok _, e2) = _ at h
    simp only [Prod.mk.injEq, Res.ok.injEq, Act.lift] at h h1 h2
    obtain ⟨rfl, rfl⟩ := h
    intro m i hl
    simp only [Term.mkInterval, leafTerms, List.mem_singleton, Term.interval.injEq] at hl
    obtain ⟨rfl, _⟩ := hl
    exact ⟨s, x, by simp [Syn.mentions], h1.1, h2.1⟩
  | .var k s, e, e', r, h => by
    rw [Syn.eval] at h
    obtain ⟨i, e1, h1, h⟩ := Act.bind_ok h
    change (Res.ok _, e1) = _ at h
    simp only [Prod.mk.injEq, Res.ok.injEq] at h
    obtain ⟨rfl, _⟩ := h
    intro m i hl
    simp [Term.mkVar, leafTerms] at hl
  | .stmt s c p, e, e', r, h => by
    rw [Syn.eval] at h
    obtain ⟨s', e1, h1, h⟩ := Act.bind_ok h
    obtain ⟨p', e2, h2, h⟩ := Act.bind_ok h
    obtain ⟨g1, _⟩ := Syn.eval_names M s h1
    obtain ⟨g2, _⟩ := Syn.eval_names M p h2
    obtain ⟨h3, _⟩ := makingTerm_ok h
    obtain ⟨_, hl⟩ := newStatement_leaves g1 g2 h3
    intro n i hn
    rw [Syn.mentions]
    rcases hl _ hn with hl | hl
    · exact (Syn.eval_counted M s h1).mono (by simp +contextual) n i hl
    · exact (Syn.eval_counted M p h2).mono (by simp +contextual) n i hl
  | .comp c ts, e, e', r, h => by
    rw [Syn.eval] at h
    obtain ⟨ts', e1, h1, h⟩ := Act.bind_ok h
    obtain ⟨g1, _⟩ := Syn.evalAll_names M ts h1
    obtain ⟨h3, _⟩ := makingTerm_ok h
    obtain ⟨_, hl⟩ := mkComp_leaves g1 h3
    intro n i hn
    rw [Syn.mentions]
    obtain ⟨t, ht, hl⟩ := hl _ hn
    exact Syn.evalAll_counted M ts h1 t ht n i hl
  | .call f ts, e, e', r, h => by
    rw [Syn.eval] at h
    obtain ⟨f', e1, h1, h⟩ := Act.bind_ok h
    obtain ⟨ts', e2, h2, h⟩ := Act.bind_ok h
    obtain ⟨g1, _⟩ := Syn.eval_names M f h1
    obtain ⟨g2, _⟩ := Syn.evalAll_names M ts h2
    obtain ⟨h3, _⟩ := makingTerm_ok h
    obtain ⟨_, hl⟩ := newOperation_leaves g1 g2 h3
    intro n i hn
    rw [Syn.mentions]
    rcases hl _ hn with hl | ⟨t, ht, hl⟩
    · exact (Syn.eval_counted M f h1).mono (by simp +contextual) n i hl
    · exact (Syn.evalAll_counted M ts h2 t ht).mono (by simp +contextual) n i hl
  | .callName s ts, e, e', r, h => by
    rw [Syn.eval] at h
    obtain ⟨ts', e1, h1, h⟩ := Act.bind_ok h
    obtain ⟨f', e2, h2, h⟩ := Act.bind_ok h
    obtain ⟨g1, _⟩ := Syn.evalAll_names M ts h1
    obtain ⟨h5, h6, _⟩ := named_ok h2
    obtain ⟨h3, _⟩ := makingTerm_ok h
    obtain ⟨_, hl⟩ := newOperation_leaves h5.good g1 h3
    intro n i hn
    rw [Syn.mentions]
    rcases hl _ hn with hl | ⟨t, ht, hl⟩
    · exact h5.counted n i hl
    · exact (Syn.evalAll_counted M ts h1 t ht).mono (by simp +contextual) n i hl
theorem Syn.evalAll_counted (M : Mach) : ∀ (ts : List Syn) {e e' : Env} {rs : List Term},
    Syn.evalAll M ts e = (.ok rs, e') → ∀ r ∈ rs, Counted M (Syn.mentionsAll ts) r
  | [], e, e', rs, h => by
    rw [Syn.evalAll] at h
    change (Res.ok [], e) = _ at h
    simp only [Prod.mk.injEq, Res.ok.injEq] at h
    obtain ⟨rfl, rfl⟩ := h
    simp
  | t :: ts, e, e', rs, h => by
    rw [Syn.evalAll] at h
    obtain ⟨r, e1, h1, h⟩ := Act.bind_ok h
    obtain ⟨us, e2, h2, h⟩ := Act.bind_ok h
    change (Res.ok (r :: us), e2) = _ at h
    simp only [Prod.mk.injEq, Res.ok.injEq] at h
    obtain ⟨rfl, rfl⟩ := h
    intro x hx
    rw [Syn.mentionsAll]
    rcases List.mem_cons.mp hx with rfl | hx
    · exact (Syn.eval_counted M t h1).mono (by simp +contextual)
    · exact (Syn.evalAll_counted M ts h2 x hx).mono (by simp +contextual)
end

/-! ## Words in syntax trees -/

/-- The words that stand directly below a node. -/
def Ast.ownWords (e : Emit) (cs : List Ast) : List Mention :=
  match e with
  | .atom_term => cs.map fun c => .name c.token
  | .operation => cs.map fun c => .op c.token
  | .interval => cs.map fun c => .interval c.token
  | .statement_operation2 => (cs.take 1).map fun c => .op c.token
  | _ => []

mutual
/-- The words of a syntax tree that stand for constants, operations and intervals. -/
def Ast.mentions : Ast → List Mention
  | .leaf .. => []
  | .node e cs =>
    Ast.mentionsAll cs ++ Ast.ownWords e cs
/-- Of siblings. -/
def Ast.mentionsAll : List Ast → List Mention
  | [] => []
  | a :: as => Ast.mentions a ++ Ast.mentionsAll as
end

/-- The words of a part. -/
def Part.mentions : Part → List Mention
  | .syn t => t.mentions
  | .sentence _ t _ => t.mentions
  | .task _ _ t _ => t.mentions
  | _ => []

theorem Part.syns?_mentions : ∀ {ps : List Part} {ts : List Syn},
    Part.syns? ps = some ts → Syn.mentionsAll ts = ps.flatMap Part.mentions
  | [], ts, h => by cases h; rfl
  | .syn t :: ps, ts, h => by
    simp only [Part.syns?, Option.map_eq_some_iff] at h
    obtain ⟨us, h, rfl⟩ := h
    simp [Syn.mentionsAll, Part.syns?_mentions h, Part.mentions]
  | .copula _ :: _, _, h => by simp [Part.syns?] at h
  | .conn _ :: _, _, h => by simp [Part.syns?] at h
  | .str _ :: _, _, h => by simp [Part.syns?] at h
  | .num _ :: _, _, h => by simp [Part.syns?] at h
  | .mark _ :: _, _, h => by simp [Part.syns?] at h
  | .budget _ :: _, _, h => by simp [Part.syns?] at h
  | .sentence .. :: _, _, h => by simp [Part.syns?] at h
  | .task .. :: _, _, h => by simp [Part.syns?] at h

theorem Part.marks?_mentions : ∀ {ps : List Part} {ts : List Mark},
    Part.marks? ps = some ts → ps.flatMap Part.mentions = []
  | [], ts, h => rfl
  | .mark t :: ps, ts, h => by
    simp only [Part.marks?, Option.map_eq_some_iff] at h
    obtain ⟨us, h, rfl⟩ := h
    simp [Part.marks?_mentions h, Part.mentions]
  | .copula _ :: _, _, h => by simp [Part.marks?] at h
  | .conn _ :: _, _, h => by simp [Part.marks?] at h
  | .str _ :: _, _, h => by simp [Part.marks?] at h
  | .num _ :: _, _, h => by simp [Part.marks?] at h
  | .syn _ :: _, _, h => by simp [Part.marks?] at h
  | .budget _ :: _, _, h => by simp [Part.marks?] at h
  | .sentence .. :: _, _, h => by simp [Part.marks?] at h
  | .task .. :: _, _, h => by simp [Part.marks?] at h

theorem Part.nums?_mentions : ∀ {ps : List Part} {ts : List (List Char)},
    Part.nums? ps = some ts → ps.flatMap Part.mentions = []
  | [], ts, h => rfl
  | .num t :: ps, ts, h => by
    simp only [Part.nums?, Option.map_eq_some_iff] at h
    obtain ⟨us, h, rfl⟩ := h
    simp [Part.nums?_mentions h, Part.mentions]
  | .copula _ :: _, _, h => by simp [Part.nums?] at h
  | .conn _ :: _, _, h => by simp [Part.nums?] at h
  | .str _ :: _, _, h => by simp [Part.nums?] at h
  | .mark _ :: _, _, h => by simp [Part.nums?] at h
  | .syn _ :: _, _, h => by simp [Part.nums?] at h
  | .budget _ :: _, _, h => by simp [Part.nums?] at h
  | .sentence .. :: _, _, h => by simp [Part.nums?] at h
  | .task .. :: _, _, h => by simp [Part.nums?] at h

/-- The words that a node adds to those of its parts. -/
def Part.own (e : Emit) (ps : List Part) : List Mention :=
  match e, ps with
  | .atom_term, [.str s] => [.name s]
  | .operation, [.str s] => [.op s]
  | .interval, [.num s] => [.interval s]
  | .statement_operation2, .str s :: _ => [.op s]
  | _, _ => []

theorem Part.build_mentions {e : Emit} {ps : List Part} {q : Part} (h : Part.build e ps = some q) :
    q.mentions = ps.flatMap Part.mentions ++ Part.own e ps := by
  unfold Part.build at h
  split at h
  all_goals first
    | (simp only [Option.some.injEq] at h
       subst h
       simp [Part.mentions, Syn.mentions, Syn.mentionsAll, Part.own])
    | (simp only [Option.map_eq_some_iff] at h
       obtain ⟨ts, h1, rfl⟩ := h
       first
       | simp [Part.mentions, Syn.mentions, Part.syns?_mentions h1, Part.own]
       | simp [Part.mentions, Part.marks?_mentions h1, Part.own]
       | simp [Part.mentions, Part.nums?_mentions h1, Part.own])
    | (simp only [Option.or_eq_some_iff, Option.map_eq_some_iff] at h
       rcases h with ⟨c, hc, rfl⟩ | ⟨_, c, hc, rfl⟩
       all_goals
         simp [Part.mentions, Part.own])
    | simp at h

theorem Part.build_num {e : Emit} {ps : List Part} {s : List Char} :
    Part.build e ps ≠ some (.num s) := by
  intro h
  unfold Part.build at h
  split at h <;>
    simp only [Option.some.injEq, Option.map_eq_some_iff, reduceCtorEq, and_false, exists_false,
      Option.or_eq_some_iff, or_self] at h

theorem Ast.part_num_leaf {a : Ast} {s : List Char} (h : a.part = some (.num s)) :
    ∃ e, a = .leaf e s := by
  cases a with
  | leaf e t =>
    simp only [Ast.part, Option.some.injEq, Part.ofLeaf] at h
    split at h <;> simp_all
  | node e cs =>
    simp only [Ast.part, Option.bind_eq_some_iff] at h
    obtain ⟨ps, _, h⟩ := h
    exact absurd h Part.build_num

theorem Ast.part_num {a : Ast} {s : List Char} (h : a.part = some (.num s)) : a.token = s := by
  obtain ⟨e, rfl⟩ := Ast.part_num_leaf h
  rfl

theorem one_of_partAll {cs : List Ast} {p : Part} (h : partAll cs = some [p]) :
    ∃ c, cs = [c] ∧ c.part = some p := by
  cases cs with
  | nil => simp [partAll] at h
  | cons c cs =>
    simp only [partAll, Option.bind_eq_some_iff, Option.map_eq_some_iff, List.cons.injEq] at h
    obtain ⟨q, h1, qs, h2, rfl, rfl⟩ := h
    cases cs with
    | nil => exact ⟨c, rfl, h1⟩
    | cons c' cs =>
      simp only [partAll, Option.bind_eq_some_iff, Option.map_eq_some_iff] at h2
      obtain ⟨_, _, _, _, h2⟩ := h2
      simp at h2

theorem Ast.token_of_part {a : Ast} {s : List Char} (h : a.part = some (.str s)) : a.token = s := by
  obtain ⟨e, rfl, _⟩ := Ast.part_str_leaf h
  rfl

theorem ownWords_eq {e : Emit} {cs : List Ast} {ps : List Part} {q : Part}
    (h1 : partAll cs = some ps) (h2 : Part.build e ps = some q) :
    Ast.ownWords e cs = Part.own e ps := by
  have key : e = .atom_term ∨ e = .operation ∨ e = .interval ∨ e = .statement_operation2 ∨
      (Ast.ownWords e cs = [] ∧ Part.own e ps = []) := by
    cases e <;> first | simp; done | exact .inr (.inr (.inr (.inr ⟨rfl, rfl⟩)))
  rcases key with rfl | rfl | rfl | rfl | ⟨k1, k2⟩
  · unfold Part.build at h2
    split at h2 <;> simp only [reduceCtorEq, Option.some.injEq] at *
    · obtain ⟨c, rfl, hc⟩ := one_of_partAll h1
      simp [Ast.ownWords, Part.own, Ast.token_of_part hc]
    · simp [Part.copula?, Part.conn?] at h2
  · unfold Part.build at h2
    split at h2 <;> simp only [reduceCtorEq, Option.some.injEq] at *
    · obtain ⟨c, rfl, hc⟩ := one_of_partAll h1
      simp [Ast.ownWords, Part.own, Ast.token_of_part hc]
    · simp [Part.copula?, Part.conn?] at h2
  · unfold Part.build at h2
    split at h2 <;> simp only [reduceCtorEq, Option.some.injEq] at *
    · obtain ⟨c, rfl, hc⟩ := one_of_partAll h1
      simp [Ast.ownWords, Part.own, Ast.part_num hc]
    · simp [Part.copula?, Part.conn?] at h2
  · unfold Part.build at h2
    split at h2 <;> simp only [reduceCtorEq] at *
    · cases cs with
      | nil => simp [partAll] at h1
      | cons c cs =>
        simp only [partAll, Option.bind_eq_some_iff, Option.map_eq_some_iff, List.cons.injEq] at h1
        obtain ⟨q, h3, qs, h4, rfl, rfl⟩ := h1
        simp [Ast.ownWords, Part.own, Ast.token_of_part h3]
    · simp [Part.copula?, Part.conn?] at h2
  · rw [k1, k2]

mutual
theorem Ast.part_mentions : ∀ {a : Ast} {p : Part}, a.part = some p → a.mentions = p.mentions
  | .leaf e s, p, h => by
    simp only [Ast.part, Option.some.injEq, Part.ofLeaf] at h
    split at h <;> subst h <;> simp [Ast.mentions, Part.mentions]
  | .node e cs, p, h => by
    simp only [Ast.part, Option.bind_eq_some_iff] at h
    obtain ⟨ps, h1, h2⟩ := h
    rw [Part.build_mentions h2, Ast.mentions, Ast.partAll_mentions h1]
    rw [ownWords_eq h1 h2]
theorem Ast.partAll_mentions : ∀ {as : List Ast} {ps : List Part}, partAll as = some ps →
    Ast.mentionsAll as = ps.flatMap Part.mentions
  | [], ps, h => by cases h; rfl
  | a :: as, ps, h => by
    simp only [partAll, Option.bind_eq_some_iff, Option.map_eq_some_iff] at h
    obtain ⟨p, h1, qs, h2, rfl⟩ := h
    rw [Ast.mentionsAll, Ast.part_mentions h1, Ast.partAll_mentions h2, List.flatMap_cons]
end

/-! ## Words in the text -/

/-- Characters that stand together in the line. -/
def Written (line : List WChar) (s : List Char) : Prop :=
  ∃ v, v <:+: line ∧ s = v.map fun c => Char.ofNat c.toNat

theorem Written.left {u v : List WChar} {s : List Char} (h : Written u s) : Written (u ++ v) s := by
  obtain ⟨x, h1, h2⟩ := h
  exact ⟨x, h1.trans (List.prefix_append u v).isInfix, h2⟩

theorem Written.right {u v : List WChar} {s : List Char} (h : Written v s) : Written (u ++ v) s := by
  obtain ⟨x, h1, h2⟩ := h
  exact ⟨x, h1.trans (List.suffix_append u v).isInfix, h2⟩

mutual
/-- The texts of the leaves. -/
def Ast.leafTexts : Ast → List (List Char)
  | .leaf _ s => [s]
  | .node _ cs => Ast.leafTextsAll cs
/-- Of siblings. -/
def Ast.leafTextsAll : List Ast → List (List Char)
  | [] => []
  | a :: as => Ast.leafTexts a ++ Ast.leafTextsAll as
end

theorem Ast.leafTextsAll_append (as bs : List Ast) :
    Ast.leafTextsAll (as ++ bs) = Ast.leafTextsAll as ++ Ast.leafTextsAll bs := by
  induction as with
  | nil => rfl
  | cons a as ih => simp [Ast.leafTextsAll, ih]

mutual
theorem Derives.written {g : Gram} {u : List WChar} {as : List Ast} (h : Derives g u as) :
    ∀ s ∈ Ast.leafTextsAll as, Written u s := by
  match h with
  | .tok_plain _ => simp [Ast.leafTextsAll]
  | .tok_leaf _ _ =>
    intro s hs
    simp only [Ast.leafTextsAll, Ast.leafTexts, List.append_nil, List.mem_singleton] at hs
    exact ⟨u, List.infix_rfl, hs⟩
  | .nt_plain _ h => exact h.written
  | .nt_node _ _ h =>
    intro s hs
    simp only [Ast.leafTextsAll, Ast.leafTexts, List.append_nil] at hs
    exact h.written s hs
  | .grp _ h => exact h.written
  | .opt_none => simp [Ast.leafTextsAll]
  | .opt_some h => exact h.written
  | .star_nil => simp [Ast.leafTextsAll]
  | .star_plus h => exact h.written
  | .plus_one h => exact h.written
  | .plus_more h1 h2 =>
    intro s hs
    rw [Ast.leafTextsAll_append, List.mem_append] at hs
    rcases hs with hs | hs
    · exact (h1.written s hs).left
    · exact (h2.written s hs).right
theorem DerivesAll.written {gs : List Gram} {u : List WChar} {as : List Ast} (h : DerivesAll gs u as) :
    ∀ s ∈ Ast.leafTextsAll as, Written u s := by
  match h with
  | .nil => simp [Ast.leafTextsAll]
  | .cons h1 h2 =>
    intro s hs
    rw [Ast.leafTextsAll_append, List.mem_append] at hs
    rcases hs with hs | hs
    · exact (h1.written s hs).left
    · exact (h2.written s hs).right
end

/-- The characters of the word. -/
def Mention.text : Mention → List Char
  | .name s | .op s | .interval s => s

mutual
theorem Ast.mentions_leaf : ∀ {a : Ast} {p : Part}, a.part = some p →
    ∀ m ∈ a.mentions, m.text ∈ a.leafTexts
  | .leaf e s, p, h => by simp [Ast.mentions]
  | .node e cs, p, h => by
    simp only [Ast.part, Option.bind_eq_some_iff] at h
    obtain ⟨ps, h1, h2⟩ := h
    rw [Ast.mentions, Ast.leafTexts, ownWords_eq h1 h2]
    intro m hm
    rcases List.mem_append.mp hm with hm1 | hm1
    · exact Ast.mentionsAll_leaf h1 m hm1
    · unfold Part.own at hm1
      split at hm1
      · obtain ⟨c, rfl, hc⟩ := one_of_partAll h1
        obtain ⟨e', rfl, _⟩ := Ast.part_str_leaf hc
        have hm := List.mem_singleton.mp hm1
        simp [hm, Mention.text, Ast.leafTextsAll, Ast.leafTexts]
      · obtain ⟨c, rfl, hc⟩ := one_of_partAll h1
        obtain ⟨e', rfl, _⟩ := Ast.part_str_leaf hc
        have hm := List.mem_singleton.mp hm1
        simp [hm, Mention.text, Ast.leafTextsAll, Ast.leafTexts]
      · obtain ⟨c, rfl, hc⟩ := one_of_partAll h1
        obtain ⟨e', rfl⟩ := Ast.part_num_leaf hc
        have hm := List.mem_singleton.mp hm1
        simp [hm, Mention.text, Ast.leafTextsAll, Ast.leafTexts]
      · cases cs with
        | nil => simp [partAll] at h1
        | cons c cs =>
          simp only [partAll, Option.bind_eq_some_iff, Option.map_eq_some_iff, List.cons.injEq] at h1
          obtain ⟨q, h3, qs, h4, rfl, rfl⟩ := h1
          obtain ⟨e', rfl, _⟩ := Ast.part_str_leaf h3
          have hm := List.mem_singleton.mp hm1
          simp [hm, Mention.text, Ast.leafTextsAll, Ast.leafTexts]
      · simp at hm1
theorem Ast.mentionsAll_leaf : ∀ {as : List Ast} {ps : List Part}, partAll as = some ps →
    ∀ m ∈ Ast.mentionsAll as, m.text ∈ Ast.leafTextsAll as
  | [], ps, h => by simp [Ast.mentionsAll]
  | a :: as, ps, h => by
    simp only [partAll, Option.bind_eq_some_iff, Option.map_eq_some_iff] at h
    obtain ⟨p, h1, qs, h2, rfl⟩ := h
    intro m hm
    rw [Ast.mentionsAll] at hm
    rw [Ast.leafTextsAll]
    rcases List.mem_append.mp hm with hm | hm
    · exact List.mem_append_left _ (Ast.mentions_leaf h1 m hm)
    · exact List.mem_append_right _ (Ast.mentionsAll_leaf h2 m hm)
end

end Cnars.Parser
