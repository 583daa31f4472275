import Verif.Interp.Faithful
import Verif.Parser.Calls

/-!
# What is printed for a line that was read
-/

namespace Cnars.Parser
open Cnars Cnars.Props Cnars.Print

/-! ## Trees up to the order of components -/

/-- The same tree, up to the order of the components of commutative compounds, of which none is
repeated more often. -/
inductive Same : Tree → Tree → Prop where
  | leaf (l : Str) : Same (.leaf l) (.leaf l)
  | angle {s s' p p' : Tree} (c : Copula) : Same s s' → Same p p' → Same (.angle s c p) (.angle s' c p')
  | paren {ts ts' : List Tree} (h : Str) : List.Forall₂ Same ts ts' → Same (.paren h ts) (.paren h ts')
  | set {ts us us' : List Tree} {c : Connector} : c.isCommutative = true → List.Forall₂ Same ts us →
      (∀ x, x ∈ us ↔ x ∈ us') → us'.length ≤ us.length → Same (.paren c.symbol.toList ts) (.paren c.symbol.toList us')
  | curly {ts us us' : List Tree} : List.Forall₂ Same ts us → (∀ x, x ∈ us ↔ x ∈ us') →
      us'.length ≤ us.length → Same (.curly ts) (.curly us')
  | square {ts us us' : List Tree} : List.Forall₂ Same ts us → (∀ x, x ∈ us ↔ x ∈ us') →
      us'.length ≤ us.length → Same (.square ts) (.square us')

/-! ## The tree of a written term -/

/-- A sequence inside a sequence is not shown as such. -/
def inner : Tree → List Tree
  | .paren h ts => if h = ['&', '/'] then ts else [.paren h ts]
  | t => [t]

/-- A compound. -/
def shownComp (c : Connector) (ts : List Tree) : Tree :=
  if c = .extensionalSet then .curly ts
  else if c = .intensionalSet then .square ts
  else .paren c.symbol.toList (if c = .sequentialEvents then ts.flatMap inner else ts)

/-- A statement: the copulas that abbreviate sets are not shown. -/
def shownStmt (s : Tree) (c : Copula) (p : Tree) : Tree :=
  match c with
  | .instance => .angle (.curly [s]) .inheritance p
  | .property => .angle s .inheritance (.square [p])
  | .instanceProperty => .angle (.curly [s]) .inheritance (.square [p])
  | c => .angle s c p

/-- The number written for an interval. -/
def shownInt (M : Mach) (s : List Char) : Str :=
  match (do Action.toInt (← Action.stod M s) : Res Int) with
  | .ok n => signed n
  | _ => []

mutual
/-- What should be printed for a term: words as they are written, variables numbered in the order in
which they occur, intervals with a sign. -/
def Syn.shown (M : Mach) : Syn → Seen → Tree × Seen
  | .name s, v => (.leaf s, v)
  | .op s, v => (.leaf ('^' :: s), v)
  | .interval s, v => (.leaf (shownInt M s), v)
  | .var k s, v =>
    let n := k.symbol ++ String.ofList s
    let new := if n ∈ v k then v k else v k ++ [n]
    (.leaf (k.symbol.toList ++ Nat.toDigits 10 (new.idxOf n)), fun k' => if k' = k then new else v k')
  | .stmt s c p, v =>
    let a := Syn.shown M s v
    let b := Syn.shown M p a.2
    (shownStmt a.1 c b.1, b.2)
  | .comp c ts, v =>
    let a := Syn.shownAll M ts v
    (shownComp c a.1, a.2)
  | .call f ts, v =>
    let a := Syn.shown M f v
    let b := Syn.shownAll M ts a.2
    (.paren a.1.text b.1, b.2)
  | .callName s ts, v =>
    let a := Syn.shownAll M ts v
    (.paren ('^' :: s) a.1, a.2)
/-- Of a list. -/
def Syn.shownAll (M : Mach) : List Syn → Seen → List Tree × Seen
  | [], v => ([], v)
  | t :: ts, v =>
    let a := Syn.shown M t v
    let b := Syn.shownAll M ts a.2
    (a.1 :: b.1, b.2)
end

/-- An operation or the call of one. -/
def Syn.operates : Syn → Bool
  | .op _ | .call .. | .callName .. => true
  | _ => false

/-- What is called is an operation; operations and calls are not predicates. -/
def Syn.Tells : Syn → Prop
  | .stmt _ _ p => p.operates = false
  | .call f _ => ∃ s, f = .op s
  | _ => True

/-- `σ n` is printed as `n`; it is an operation if it should be one. -/
def Labelled (d : Map Key String) (σ : String → Term) (ms : List Mention) : Prop :=
  (∀ s, .name s ∈ ms → label d (σ (String.ofList s)) = s ∧ operational (σ (String.ofList s)) = false) ∧
  ∀ s, .op s ∈ ms → label d (σ ("^" ++ String.ofList s)) = '^' :: s ∧
    operational (σ ("^" ++ String.ofList s)) = true

theorem Labelled.append {d : Map Key String} {σ : String → Term} {ms ns : List Mention}
    (h : Labelled d σ (ms ++ ns)) : Labelled d σ ms ∧ Labelled d σ ns :=
  ⟨⟨fun s hs => h.1 s (List.mem_append_left _ hs), fun s hs => h.2 s (List.mem_append_left _ hs)⟩,
    ⟨fun s hs => h.1 s (List.mem_append_right _ hs), fun s hs => h.2 s (List.mem_append_right _ hs)⟩⟩

/-! ## Compounds -/

theorem treeOf_comp (d : Map Key String) (c : Connector) (ts : List Term) :
    Print.treeOf d (Term.finishComp c ts) = if c = .extensionalSet then .curly (ts.map (Print.treeOf d))
      else if c = .intensionalSet then .square (ts.map (Print.treeOf d))
      else .paren c.symbol.toList (ts.map (Print.treeOf d)) := by
  rw [Term.finishComp, Print.treeOf, treesOf_eq]

theorem Same.comm {d : Map Key String} {c : Connector} (hc : c.isCommutative = true) {as : List Tree}
    {ts us : List Term} (h : List.Forall₂ Same as (ts.map (Print.treeOf d))) (hm : ∀ x, x ∈ us ↔ x ∈ ts)
    (hl : us.length ≤ ts.length) : Same (shownComp c as) (Print.treeOf d (Term.finishComp c us)) := by
  have hx : ∀ x, x ∈ ts.map (Print.treeOf d) ↔ x ∈ us.map (Print.treeOf d) := fun x => by
    simp only [List.mem_map]
    exact ⟨fun ⟨t, h1, h2⟩ => ⟨t, (hm t).2 h1, h2⟩, fun ⟨t, h1, h2⟩ => ⟨t, (hm t).1 h1, h2⟩⟩
  have hl : (us.map (Print.treeOf d)).length ≤ (ts.map (Print.treeOf d)).length := by simpa using hl
  rw [treeOf_comp, shownComp]
  split
  · exact .curly h hx hl
  · split
    · exact .square h hx hl
    · rw [if_neg (by rintro rfl; cases hc)]
      exact .set hc h hx hl

theorem setInsert_length {x : Term} : ∀ {s r : List Term}, setInsert x s = .ok r → r.length ≤ s.length + 1
  | [], r, h => by cases h; simp
  | y :: ys, r, h => by
    simp only [setInsert, Res.bind_eq_ok] at h
    obtain ⟨yx, _, xy, _, h⟩ := h
    split at h
    · cases h
    · split at h
      · simp only [Res.bind_eq_ok, Res.pure_eq, Res.ok.injEq] at h
        obtain ⟨r', h1, rfl⟩ := h
        have := setInsert_length h1
        simp only [List.length_cons]; omega
      · split at h <;>
        · simp only [Res.bind_eq_ok, Res.pure_eq, Res.ok.injEq] at h
          obtain ⟨_, _, rfl⟩ := h
          simp

theorem setInsertAll_length : ∀ {xs s r : List Term}, setInsertAll xs s = .ok r →
    r.length ≤ xs.length + s.length
  | [], s, r, h => by cases h; simp
  | x :: xs, s, r, h => by
    simp only [setInsertAll, Res.bind_eq_ok] at h
    obtain ⟨s', h1, h2⟩ := h
    have := setInsert_length h1
    have := setInsertAll_length h2
    simp only [List.length_cons]; omega

/-- A commutative compound of components that are told apart. -/
theorem mkComp_flat_inv {ord : Order} {c : Connector} {args : List Term} {b : Bool} {r : Term}
    (hord : ∀ l, (ord l).Perm l) (g : ∀ t ∈ args, Good t) (hc : c.isCommutative = true)
    (hsep : Separated args) (hplain : ∀ t ∈ args, category t = none) (hne : args ≠ [])
    (h : mkComp ord c args b = .ok r) :
    ∃ ts, r = Term.finishComp c ts ∧ (∀ x, x ∈ ts ↔ x ∈ args) ∧ ts.length ≤ args.length := by
  obtain ⟨ts, h1, _, _⟩ := mkComp_inv h
  simp only [Terms.ofList, hc, if_true, Res.bind_eq_ok, Res.pure_eq, Res.ok.injEq, Terms.mk.injEq,
    true_and] at h1
  obtain ⟨ts', e0, rfl⟩ := h1
  have hm := (orderly_of_built g hsep e0).2
  obtain ⟨t, ht⟩ := List.exists_mem_of_ne_nil _ hne
  rw [mkComp_flat_eq hord g hc e0 (List.ne_nil_of_mem ((hm t).2 ht)) hplain, Res.ok.injEq] at h
  exact ⟨_, h.symm, hm, setInsertAll_length e0⟩

/-- What is shown for `t` is what `r`, the result of evaluating it, is printed as. -/
structure Told (M : Mach) (d : Map Key String) (t : Syn) (v v' : Seen) (r : Term) : Prop where
  plain : Print.Plain r
  same : Same (t.shown M v).1 (Print.treeOf d r)
  seen : (t.shown M v).2 = v'
  oper : operational r = t.operates
  head : (∀ us i, r ≠ .comp .sequentialEvents us i) → ∀ ts, Print.treeOf d r ≠ .paren ['&', '/'] ts

/-- The same for lists. -/
structure ToldAll (M : Mach) (d : Map Key String) (ts : List Syn) (v v' : Seen) (rs : List Term) : Prop where
  plain : ∀ r ∈ rs, Print.Plain r
  same : List.Forall₂ Same (Syn.shownAll M ts v).1 (rs.map (Print.treeOf d))
  seen : (Syn.shownAll M ts v).2 = v'
  head : ∀ r ∈ rs, (∀ us i, r ≠ .comp .sequentialEvents us i) → ∀ ts, Print.treeOf d r ≠ .paren ['&', '/'] ts

theorem symbol_seq {c : Connector} (h : c.symbol.toList = ['&', '/']) : c = .sequentialEvents := by
  cases c <;> first | rfl | exact absurd h (by decide)

theorem comp_head {d : Map Key String} {c : Connector} {us : List Term} {i : Info}
    (hc : c ≠ .sequentialEvents) : ∀ ts, Print.treeOf d (.comp c us i) ≠ .paren ['&', '/'] ts := by
  intro ts h
  rw [Print.treeOf] at h
  split at h
  · cases h
  · split at h
    · cases h
    · simp only [Tree.paren.injEq] at h
      exact hc (symbol_seq h.1)

theorem unfold_cons (c : Connector) (t : Term) (ts : List Term) :
    unfold c (t :: ts) = unfold c [t] ++ unfold c ts := by simp [unfold]

theorem unfold_comp (c : Connector) (us : List Term) (i : Info) : unfold c [.comp c us i] = us := by
  simp [unfold]

theorem unfold_other {c : Connector} {t : Term} (h : ∀ us i, t ≠ .comp c us i) : unfold c [t] = [t] := by
  unfold unfold
  cases t with
  | comp c' us i =>
    have : c' ≠ c := fun e => h us i (by rw [e])
    simp [this]
  | _ => rfl

/-- Sequences in sequences. -/
theorem inner_unfold {d : Map Key String} {a : Tree} {r : Term} (h : Same a (Print.treeOf d r))
    (hr : (∀ us i, r ≠ .comp .sequentialEvents us i) → ∀ ts, Print.treeOf d r ≠ .paren ['&', '/'] ts) :
    List.Forall₂ Same (inner a) ((unfold .sequentialEvents [r]).map (Print.treeOf d)) := by
  by_cases hs : ∃ us i, r = .comp .sequentialEvents us i
  · obtain ⟨us, i, rfl⟩ := hs
    rw [unfold_comp]
    rw [Print.treeOf, if_neg (by decide), if_neg (by decide), treesOf_eq] at h
    generalize hb : Tree.paren Connector.sequentialEvents.symbol.toList (us.map (Print.treeOf d)) = b at h
    cases h with
    | leaf => cases hb
    | angle => cases hb
    | curly => cases hb
    | square => cases hb
    | paren h hf =>
      simp only [Tree.paren.injEq] at hb
      obtain ⟨rfl, rfl⟩ := hb
      exact hf
    | set hc hf hm _ =>
      simp only [Tree.paren.injEq] at hb
      obtain rfl := symbol_seq hb.1.symm
      cases hc
  · have hs : ∀ us i, r ≠ .comp .sequentialEvents us i := fun us i e => hs ⟨us, i, e⟩
    have hr := hr hs
    rw [unfold_other hs]
    have : inner a = [a] := by
      unfold inner
      split
      · split
        · rename_i h' ts e
          subst e
          generalize Print.treeOf d r = b at h hr
          generalize ha : Tree.paren ['&', '/'] ts = a at h
          cases h with
          | leaf => cases ha
          | angle => cases ha
          | curly => cases ha
          | square => cases ha
          | paren =>
            simp only [Tree.paren.injEq] at ha
            exact absurd (by rw [← ha.1]) (hr _)
          | set hc hf hm _ =>
            simp only [Tree.paren.injEq] at ha
            obtain rfl := symbol_seq ha.1.symm
            cases hc
        · rfl
      · rfl
    rw [this]
    exact .cons h .nil

theorem inner_unfold_all {d : Map Key String} : ∀ {as : List Tree} {rs : List Term},
    List.Forall₂ Same as (rs.map (Print.treeOf d)) →
    (∀ r ∈ rs, (∀ us i, r ≠ .comp .sequentialEvents us i) → ∀ ts, Print.treeOf d r ≠ .paren ['&', '/'] ts) →
    List.Forall₂ Same (as.flatMap inner) ((unfold .sequentialEvents rs).map (Print.treeOf d))
  | [], [], _, _ => .nil
  | _ :: _, [], h, _ => by cases h
  | [], _ :: _, h, _ => by cases h
  | a :: as, r :: rs, h, hr => by
    rw [List.map_cons] at h
    cases h with
    | cons h1 h2 =>
      rw [unfold_cons, List.map_append, List.flatMap_cons]
      exact List.rel_append (inner_unfold h1 (hr r (by simp)))
        (inner_unfold_all h2 fun r h => hr r (by simp [h]))

theorem unfold_mem {c : Connector} {ts : List Term} {u : Term} (h : u ∈ unfold c ts) :
    u ∈ ts ∨ ∃ us i, .comp c us i ∈ ts ∧ u ∈ us := by
  unfold unfold at h
  obtain ⟨t, ht, hu⟩ := List.mem_flatMap.mp h
  split at hu
  · split at hu
    · rename_i c' us i hc
      subst hc
      exact .inr ⟨us, i, ht, hu⟩
    · rw [List.mem_singleton.mp hu]; exact .inl ht
  · rw [List.mem_singleton.mp hu]; exact .inl ht

/-- A compound that was read. -/
theorem told_comp {M : Mach} (hord : ∀ l, (M.ord l).Perm l) {d : Map Key String} {c : Connector}
    {as : List Tree} {rs : List Term} {b : Bool} {r : Term} (g : ∀ t ∈ rs, Good t)
    (hp : ∀ t ∈ rs, Print.Plain t) (hs : List.Forall₂ Same as (rs.map (Print.treeOf d)))
    (hh : ∀ r ∈ rs, (∀ us i, r ≠ .comp .sequentialEvents us i) → ∀ ts, Print.treeOf d r ≠ .paren ['&', '/'] ts)
    (hc : c.isCommutative = true → Separated rs ∧ ∀ t ∈ rs, category t = none) (hne : rs ≠ [])
    (h : mkComp M.ord c rs b = .ok r) :
    Print.Plain r ∧ Same (shownComp c as) (Print.treeOf d r) ∧ ∃ ts, ts ≠ [] ∧ r = Term.finishComp c ts := by
  cases hcc : c.isCommutative with
  | true =>
    obtain ⟨h1, h2⟩ := hc hcc
    obtain ⟨ts, rfl, hm, hlen⟩ := mkComp_flat_inv hord g hcc h1 h2 hne h
    have hts : ts ≠ [] := by
      obtain ⟨t, ht⟩ := List.exists_mem_of_ne_nil _ hne
      exact List.ne_nil_of_mem ((hm t).2 ht)
    exact ⟨.comp _ _ hts fun t ht => hp t ((hm t).1 ht), Same.comm hcc hs hm hlen, ts, hts, rfl⟩
  | false =>
    rw [mkComp_ordered g hcc, Res.ok.injEq] at h
    subst h
    by_cases hq : c = .sequentialEvents
    · subst hq
      rw [if_pos (by decide)]
      have hpl : ∀ t ∈ unfold .sequentialEvents rs, Print.Plain t := fun t ht => by
        rcases unfold_mem ht with ht | ⟨us, i, h1, h2⟩
        · exact hp t ht
        · have := hp _ h1
          cases this with
          | comp _ _ _ h => exact h t h2
      have hts : unfold .sequentialEvents rs ≠ [] := by
        cases rs with
        | nil => exact absurd rfl hne
        | cons r rs =>
          rw [unfold_cons]
          intro e
          have e := (List.append_eq_nil_iff.mp e).1
          by_cases hs : ∃ us i, r = .comp .sequentialEvents us i
          · obtain ⟨us, i, rfl⟩ := hs
            rw [unfold_comp] at e
            have := hp _ List.mem_cons_self
            cases this with
            | comp _ _ h _ => exact h e
          · rw [unfold_other fun us i e => hs ⟨us, i, e⟩] at e
            cases e
      refine ⟨.comp _ _ hts hpl, ?_, _, hts, rfl⟩
      rw [treeOf_comp]
      exact Same.paren ['&', '/'] (inner_unfold_all hs hh)
    · have hr : c.isReducible = false := by
        cases c <;> first | rfl | exact absurd rfl hq | cases hcc
      rw [hr]
      refine ⟨.comp _ _ hne hp, ?_, _, hne, rfl⟩
      have h1 : c ≠ .extensionalSet := by rintro rfl; cases hcc
      have h2 : c ≠ .intensionalSet := by rintro rfl; cases hcc
      rw [treeOf_comp, shownComp, if_neg h1, if_neg h2, if_neg h1, if_neg h2, if_neg hq]
      exact .paren _ hs

theorem told_stmt {d : Map Key String} {a b : Tree} {s p : Term} {c : Copula} (hs : Print.Plain s)
    (hp : Print.Plain p) (ho : operational p = false) (h1 : Same a (Print.treeOf d s))
    (h2 : Same b (Print.treeOf d p)) :
    Print.Plain (Term.mkStmt s c p) ∧ Same (.angle a c b) (Print.treeOf d (Term.mkStmt s c p)) ∧
      operational (Term.mkStmt s c p) = false ∧
      ∀ ts, Print.treeOf d (Term.mkStmt s c p) ≠ .paren ['&', '/'] ts := by
  have e : Print.treeOf d (Term.mkStmt s c p) = .angle (Print.treeOf d s) c (Print.treeOf d p) := by
    rw [Term.mkStmt, Print.treeOf, ho]
    rfl
  refine ⟨.stmt _ _ ho hs hp, e ▸ .angle c h1 h2, ?_, fun ts h => ?_⟩
  · rw [Term.mkStmt, operational, ho]
  · rw [e] at h; cases h

/-- A statement that was read. -/
theorem told_statement {M : Mach} (hord : ∀ l, (M.ord l).Perm l) {d : Map Key String} {a b : Tree}
    {s p r : Term} {c : Copula} (gs : Good s) (gp : Good p) (hs : Print.Plain s) (hp : Print.Plain p)
    (ho : operational p = false) (h1 : Same a (Print.treeOf d s)) (h2 : Same b (Print.treeOf d p))
    (hh1 : (∀ us i, s ≠ .comp .sequentialEvents us i) → ∀ ts, Print.treeOf d s ≠ .paren ['&', '/'] ts)
    (hh2 : (∀ us i, p ≠ .comp .sequentialEvents us i) → ∀ ts, Print.treeOf d p ≠ .paren ['&', '/'] ts)
    (hc1 : c = .instance ∨ c = .instanceProperty → category s = none)
    (hc2 : c = .property ∨ c = .instanceProperty → category p = none)
    (h : Action.newStatement M s c p = .ok r) :
    Print.Plain r ∧ Same (shownStmt a c b) (Print.treeOf d r) ∧ operational r = false ∧
      ∀ ts, Print.treeOf d r ≠ .paren ['&', '/'] ts := by
  have single : ∀ {k : Connector} {t t' : Term} {x : Tree}, Good t → Print.Plain t → category t = none →
      Same x (Print.treeOf d t) →
      ((∀ us i, t ≠ .comp .sequentialEvents us i) → ∀ ts, Print.treeOf d t ≠ .paren ['&', '/'] ts) →
      mkComp M.ord k [t] false = .ok t' →
      Print.Plain t' ∧ Same (shownComp k [x]) (Print.treeOf d t') ∧ operational t' = false := by
    intro k t t' x g hp hc hs hh h
    obtain ⟨q1, q2, ts, _, rfl⟩ := told_comp hord (d := d) (as := [x]) (rs := [t]) (by simpa using g) (by simpa using hp)
      (.cons hs .nil) (by simpa using hh) (fun _ => ⟨separated_one _, by simpa using hc⟩) (by simp) h
    exact ⟨q1, q2, rfl⟩
  unfold Action.newStatement at h
  split at h
  · simp only [Res.bind_eq_ok] at h
    obtain ⟨s', k1, k2⟩ := h
    cases k2
    obtain ⟨q1, q2, _⟩ := single gs hs (hc1 (by simp)) h1 hh1 k1
    exact told_stmt q1 hp ho q2 h2
  · simp only [Res.bind_eq_ok] at h
    obtain ⟨p', k1, k2⟩ := h
    cases k2
    obtain ⟨q1, q2, q3⟩ := single gp hp (hc2 (by simp)) h2 hh2 k1
    exact told_stmt hs q1 q3 h1 q2
  · simp only [Res.bind_eq_ok] at h
    obtain ⟨s', k1, p', k3, k2⟩ := h
    cases k2
    obtain ⟨q1, q2, _⟩ := single gs hs (hc1 (by simp)) h1 hh1 k1
    obtain ⟨r1, r2, r3⟩ := single gp hp (hc2 (by simp)) h2 hh2 k3
    exact told_stmt q1 r1 r3 q2 r2
  · rename_i n1 n2 n3
    cases h
    have : shownStmt a c b = .angle a c b := by
      cases c <;> first | rfl | exact absurd rfl n1 | exact absurd rfl n2 | exact absurd rfl n3
    rw [this]
    exact told_stmt hs hp ho h1 h2

/-- A call that was read. -/
theorem told_call {M : Mach} {d : Map Key String} {as : List Tree} {f r : Term} {ts : List Term}
    {s : List Char} (hf : IsNamed f) (ho : operational f = true) (hl : label d f = '^' :: s)
    (g : ∀ t ∈ ts, Good t) (hp : ∀ t ∈ ts, Print.Plain t)
    (hs : List.Forall₂ Same as (ts.map (Print.treeOf d))) (h : Action.newOperation M f ts = .ok r) :
    Print.Plain r ∧ Same (.paren ('^' :: s) as) (Print.treeOf d r) ∧ operational r = true ∧
      ∀ ts, Print.treeOf d r ≠ .paren ['&', '/'] ts := by
  unfold Action.newOperation at h
  rw [mkComp_ordered g rfl] at h
  cases h
  have e : Print.treeOf d (Term.mkStmt (Term.finishComp .product ts) .inheritance f) =
      .paren ('^' :: s) (ts.map (Print.treeOf d)) := by
    rw [Term.mkStmt, Print.treeOf, ho, if_pos rfl, hl, Term.finishComp, treeArgs, treesOf_eq]
  have : Term.finishComp .product (if Connector.product.isReducible = true then unfold .product ts else ts) =
      Term.finishComp .product ts := rfl
  rw [this]
  refine ⟨?_, e ▸ .paren _ hs, ?_, fun ts h => ?_⟩
  · obtain ⟨a, rfl | rfl⟩ := hf
    · exact .opStmt _ _ _ _ ho hp
    · cases ho
  · rw [Term.mkStmt, operational, ho]
  · rw [e] at h
    simp only [Tree.paren.injEq, List.cons.injEq] at h
    exact absurd h.1.1 (by decide)

mutual
theorem Syn.eval_told {M : Mach} (hord : ∀ l, (M.ord l).Perm l) {N : Nat} (hM : FreshBelow M N)
    {w0 : World} (h0 : Reach false w0) {σ : String → Term} {A : List Named} {d : Map Key String} :
    ∀ (t : Syn) {e e' : Env} {r : Term} {live : List Term} {seen : List Mention},
    t.Clear M e → t.Filled → (∀ u ∈ t.subs, u.Tells) → t.eval M e = (.ok r, e') →
    AcctN seen w0 e.world live → Paired w0 seen t.mentions →
    e.world.dictH.length + t.mentions.length ≤ N → Later w0 e.world → e'.world.atoms <+: A →
    (∀ n ∈ namesIn t.mentions, ∀ a, Met w0 A n a → termOf a = σ n) → Labelled d σ t.mentions →
    Told M d t e.names e'.names r
  | .name s, e, e', r, live, seen, hcl, hf, ht, h, ha, hok, hN, hl, hA, hσ, hd => by
    obtain ⟨q, _⟩ := Syn.eval_first hord hM h0 _ h ha hok hN hl hA hσ
    rw [Syn.means, Res.ok.injEq, Prod.mk.injEq] at q
    obtain ⟨a, hr⟩ := (named_ok h).1
    obtain ⟨k1, k2⟩ := hd.1 s (by simp [Syn.mentions])
    rw [q.1] at k1 k2
    have hr : ∃ a i, r = .atom a i := by rcases hr with rfl | rfl <;> exact ⟨_, _, rfl⟩
    obtain ⟨a, i, rfl⟩ := hr
    have e : Print.treeOf d (.atom a i) = .leaf s := by rw [Print.treeOf, k1]
    exact ⟨.atom _ _, by rw [Syn.shown, e]; exact .leaf s, by rw [Syn.shown, ← q.2], k2, fun _ ts h => by
      rw [e] at h; cases h⟩
  | .op s, e, e', r, live, seen, hcl, hf, ht, h, ha, hok, hN, hl, hA, hσ, hd => by
    obtain ⟨q, _⟩ := Syn.eval_first hord hM h0 _ h ha hok hN hl hA hσ
    rw [Syn.means, Res.ok.injEq, Prod.mk.injEq] at q
    obtain ⟨a, hr⟩ := (named_ok h).1
    obtain ⟨k1, k2⟩ := hd.2 s (by simp [Syn.mentions])
    rw [q.1] at k1 k2
    have hr : ∃ a i, r = .atom a i := by rcases hr with rfl | rfl <;> exact ⟨_, _, rfl⟩
    obtain ⟨a, i, rfl⟩ := hr
    have e : Print.treeOf d (.atom a i) = .leaf ('^' :: s) := by rw [Print.treeOf, k1]
    exact ⟨.atom _ _, by rw [Syn.shown, e]; exact .leaf _, by rw [Syn.shown, ← q.2], k2, fun _ ts h => by
      rw [e] at h; cases h⟩
  | .interval s, e, e', r, live, seen, hcl, hf, ht, h, ha, hok, hN, hl, hA, hσ, hd => by
    obtain ⟨q, _⟩ := Syn.eval_first hord hM h0 _ h ha hok hN hl hA hσ
    rw [Syn.means] at q
    simp only [Res.bind_eq_ok, Res.pure_eq, Res.ok.injEq, Prod.mk.injEq] at q
    obtain ⟨x, h1, n, h2, rfl, h3⟩ := q
    have e : Print.treeOf d (Term.mkInterval n) = .leaf (shownInt M s) := by
      rw [Term.mkInterval, Print.treeOf, shownInt, h1, Res.ok_bind, h2]
    exact ⟨.interval _ _, by rw [Syn.shown, e]; exact .leaf _, by rw [Syn.shown, ← h3], rfl, fun _ ts h => by
      rw [e] at h; cases h⟩
  | .var k s, e, e', r, live, seen, hcl, hf, ht, h, ha, hok, hN, hl, hA, hσ, hd => by
    obtain ⟨q, _⟩ := Syn.eval_first hord hM h0 _ h ha hok hN hl hA hσ
    rw [Syn.means, Res.ok.injEq, Prod.mk.injEq] at q
    obtain ⟨rfl, h3⟩ := q
    exact ⟨.var _ _ _, by
      rw [Syn.shown, Term.mkVar, Print.treeOf]
      cases k <;> exact .leaf _, by rw [Syn.shown, ← h3], rfl, fun _ ts h => by
      rw [Term.mkVar, Print.treeOf] at h; cases h⟩
  | .stmt s c p, e, e', r, live, seen, hcl, hf, ht, h, ha, hok, hN, hl, hA, hσ, hd => by
    rw [Syn.mentions] at hok hN hσ hd
    rw [List.length_append] at hN
    rw [Syn.Clear] at hcl
    rw [Syn.Filled] at hf
    rw [Syn.subs] at ht
    rw [Syn.eval] at h
    obtain ⟨s', e1, h1, h⟩ := Act.bind_ok h
    obtain ⟨p', e2, h2, h⟩ := Act.bind_ok h
    obtain ⟨hok1, hok2⟩ := hok.append
    obtain ⟨hσ1, hσ2⟩ := forall_names hσ
    obtain ⟨hd1, hd2⟩ := hd.append
    obtain ⟨ht0, ht⟩ := List.forall_mem_cons.mp ht
    obtain ⟨ht1, ht2⟩ := List.forall_mem_append.mp ht
    obtain ⟨a1, d1⟩ := Syn.eval_acct hord hM h0 s h1 ha hok1 (by omega)
    have hA2 := (later_making h).1.trans hA
    have q1 := Syn.eval_told hord hM h0 s hcl.2.1 hf.1 ht1 h1 ha hok1 (by omega) hl
      ((Syn.eval_later p h2).1.trans hA2) hσ1 hd1
    have q2 := Syn.eval_told hord hM h0 p (hcl.2.2 _ _ h1) hf.2 ht2 h2 a1 hok2 (by omega)
      (hl.trans (Syn.eval_later s h1)) hA2 hσ2 hd2
    obtain ⟨h3, h4, _⟩ := makingTerm_ok h
    obtain ⟨k1, k2, k3, k4⟩ := told_statement hord (Syn.eval_names M s h1).1 (Syn.eval_names M p h2).1
      q1.plain q2.plain (q2.oper.trans ht0) q1.same q2.same q1.head q2.head
      (fun hc => Syn.eval_category (hcl.1.1 hc) h1) (fun hc => Syn.eval_category (hcl.1.2 hc) h2) h3
    exact ⟨k1, by rw [Syn.shown]; simp only [q1.seen]; exact k2, by
      rw [Syn.shown]; simp only [q1.seen, q2.seen, h4], k3, fun _ => k4⟩
  | .comp c ts, e, e', r, live, seen, hcl, hf, ht, h, ha, hok, hN, hl, hA, hσ, hd => by
    rw [Syn.mentions] at hok hN hσ hd
    have hcl' := hcl
    rw [Syn.Clear] at hcl
    rw [Syn.Filled] at hf
    rw [Syn.subs] at ht
    rw [Syn.eval] at h
    obtain ⟨ts', e1, h1, h⟩ := Act.bind_ok h
    obtain ⟨ht0, ht⟩ := List.forall_mem_cons.mp ht
    have hA2 := (later_making h).1.trans hA
    have q1 := Syn.evalAll_told hord hM h0 ts hcl.1 hf.2 ht h1 ha hok hN hl hA2 hσ hd
    obtain ⟨h3, h4, _⟩ := makingTerm_ok h
    have hne : ts' ≠ [] := by
      have := (evalAll_forall M _ h1).length_eq
      intro e
      rw [e] at this
      exact hf.1 (List.eq_nil_of_length_eq_zero this)
    obtain ⟨k1, k2, us, _, rfl⟩ := told_comp hord (Syn.evalAll_names M ts h1).1 q1.plain q1.same q1.head
      (clear_args hcl' h1) hne h3
    refine ⟨k1, by rw [Syn.shown]; exact k2, by rw [Syn.shown]; simp only [q1.seen, h4], rfl, fun hq => ?_⟩
    exact comp_head fun e => hq us _ (by rw [Term.finishComp, e])
  | .call f ts, e, e', r, live, seen, hcl, hf, ht, h, ha, hok, hN, hl, hA, hσ, hd => by
    rw [Syn.mentions] at hok hN hσ hd
    rw [List.length_append] at hN
    rw [Syn.Clear] at hcl
    rw [Syn.Filled] at hf
    rw [Syn.subs] at ht
    rw [Syn.eval] at h
    obtain ⟨f', e1, h1, h⟩ := Act.bind_ok h
    obtain ⟨ts', e2, h2, hmk⟩ := Act.bind_ok h
    obtain ⟨hok1, hok2⟩ := hok.append
    obtain ⟨hσ1, hσ2⟩ := forall_names hσ
    obtain ⟨hd1, hd2⟩ := hd.append
    obtain ⟨ht0, ht⟩ := List.forall_mem_cons.mp ht
    obtain ⟨ht1, ht2⟩ := List.forall_mem_append.mp ht
    obtain ⟨a1, d1⟩ := Syn.eval_acct hord hM h0 f h1 ha hok1 (by omega)
    have hA2 := (later_making hmk).1.trans hA
    obtain ⟨s, rfl⟩ := ht0
    obtain ⟨q, _⟩ := Syn.eval_first hord hM h0 _ h1 ha hok1 (by omega) hl
      ((Syn.evalAll_later ts h2).1.trans hA2) hσ1
    rw [Syn.means, Res.ok.injEq, Prod.mk.injEq] at q
    obtain ⟨l1, l2⟩ := hd1.2 s (by simp [Syn.mentions])
    rw [q.1] at l1 l2
    have q2 := Syn.evalAll_told hord hM h0 ts (hcl.2 _ _ h1) hf.2 ht2 h2 a1 hok2 (by omega)
      (hl.trans (Syn.eval_later _ h1)) hA2 hσ2 hd2
    obtain ⟨h3, h4, _⟩ := makingTerm_ok hmk
    obtain ⟨k1, k2, k3, k4⟩ := told_call (named_ok h1).1 l2 l1 (Syn.evalAll_names M ts h2).1 q2.plain q2.same h3
    refine ⟨k1, ?_, ?_, k3, fun _ => k4⟩
    · rw [Syn.shown, Syn.shown]
      simp only [q.2, Tree.text]
      exact k2
    · rw [Syn.shown, Syn.shown]
      simp only [q.2, q2.seen, h4]
  | .callName s ts, e, e', r, live, seen, hcl, hf, ht, h, ha, hok, hN, hl, hA, hσ, hd => by
    rw [Syn.mentions] at hok hN hσ hd
    rw [List.length_append, List.length_singleton] at hN
    rw [Syn.Clear] at hcl
    rw [Syn.Filled] at hf
    rw [Syn.subs] at ht
    rw [Syn.eval] at h
    obtain ⟨ts', e1, h1, h⟩ := Act.bind_ok h
    obtain ⟨f', e2, h2, h⟩ := Act.bind_ok h
    obtain ⟨hok1, hok2⟩ := hok.append
    obtain ⟨hσ1, hσ2⟩ := forall_names hσ
    obtain ⟨hd1, hd2⟩ := hd.append
    obtain ⟨ht0, ht⟩ := List.forall_mem_cons.mp ht
    obtain ⟨a1, d1⟩ := Syn.evalAll_acct hord hM h0 ts h1 ha hok1 (by omega)
    have hl1 := hl.trans (Syn.evalAll_later ts h1)
    have hl2 := later_operation (named_ok h2).2.2.2.1
    have hA2 := (later_making h).1.trans hA
    have q1 := Syn.evalAll_told hord hM h0 ts hcl hf ht h1 ha hok1 (by omega) hl (hl2.1.trans hA2) hσ1 hd1
    obtain ⟨a, m2, m3⟩ := op_last hM h0 h2 a1 hok2 (by omega) (hl1.trans hl2) hA2
    have hf' := hσ2 ("^" ++ String.ofList s) (by simp [namesIn, Mention.known]) a m2
    rw [m3] at hf'
    obtain ⟨l1, l2⟩ := hd2.2 s (by simp)
    rw [← hf'] at l1 l2
    obtain ⟨h3, h4, _⟩ := makingTerm_ok h
    obtain ⟨k1, k2, k3, k4⟩ := told_call (named_ok h2).1 l2 l1 (Syn.evalAll_names M ts h1).1 q1.plain q1.same h3
    refine ⟨k1, ?_, ?_, k3, fun _ => k4⟩
    · rw [Syn.shown]
      exact k2
    · rw [Syn.shown]
      simp only [q1.seen, h4, (named_ok h2).2.1]
/-- The same for lists. -/
theorem Syn.evalAll_told {M : Mach} (hord : ∀ l, (M.ord l).Perm l) {N : Nat} (hM : FreshBelow M N)
    {w0 : World} (h0 : Reach false w0) {σ : String → Term} {A : List Named} {d : Map Key String} :
    ∀ (ts : List Syn) {e e' : Env} {rs : List Term} {live : List Term} {seen : List Mention},
    Syn.ClearAll M ts e → Syn.FilledAll ts → (∀ u ∈ Syn.subsAll ts, u.Tells) →
    Syn.evalAll M ts e = (.ok rs, e') →
    AcctN seen w0 e.world live → Paired w0 seen (Syn.mentionsAll ts) →
    e.world.dictH.length + (Syn.mentionsAll ts).length ≤ N → Later w0 e.world → e'.world.atoms <+: A →
    (∀ n ∈ namesIn (Syn.mentionsAll ts), ∀ a, Met w0 A n a → termOf a = σ n) →
    Labelled d σ (Syn.mentionsAll ts) → ToldAll M d ts e.names e'.names rs
  | [], e, e', rs, live, seen, hcl, hf, ht, h, ha, hok, hN, hl, hA, hσ, hd => by
    rw [Syn.evalAll] at h
    obtain ⟨rfl, rfl⟩ := Act.pure_ok h
    exact ⟨by simp, by rw [Syn.shownAll]; exact .nil, by rw [Syn.shownAll], by simp⟩
  | t :: ts, e, e', rs, live, seen, hcl, hf, ht, h, ha, hok, hN, hl, hA, hσ, hd => by
    rw [Syn.mentionsAll] at hok hN hσ hd
    rw [List.length_append] at hN
    rw [Syn.ClearAll] at hcl
    rw [Syn.FilledAll] at hf
    rw [Syn.subsAll] at ht
    rw [Syn.evalAll] at h
    obtain ⟨r, e1, h1, h⟩ := Act.bind_ok h
    obtain ⟨us, e2, h2, h⟩ := Act.bind_ok h
    obtain ⟨rfl, rfl⟩ := Act.pure_ok h
    obtain ⟨hok1, hok2⟩ := hok.append
    obtain ⟨hσ1, hσ2⟩ := forall_names hσ
    obtain ⟨hd1, hd2⟩ := hd.append
    obtain ⟨ht1, ht2⟩ := List.forall_mem_append.mp ht
    obtain ⟨a1, d1⟩ := Syn.eval_acct hord hM h0 t h1 ha hok1 (by omega)
    have q1 := Syn.eval_told hord hM h0 t hcl.1 hf.1 ht1 h1 ha hok1 (by omega) hl
      ((Syn.evalAll_later ts h2).1.trans hA) hσ1 hd1
    have q2 := Syn.evalAll_told hord hM h0 ts (hcl.2 _ _ h1) hf.2 ht2 h2 a1 hok2 (by omega)
      (hl.trans (Syn.eval_later t h1)) hA hσ2 hd2
    refine ⟨?_, ?_, ?_, ?_⟩
    · simpa using ⟨q1.plain, q2.plain⟩
    · rw [Syn.shownAll, List.map_cons]
      simp only [q1.seen]
      exact .cons q1.same q2.same
    · rw [Syn.shownAll]
      simp only [q1.seen, q2.seen]
    · rintro x hx
      rcases List.mem_cons.mp hx with rfl | hx
      · exact q1.head
      · exact q2.head x hx
end

/-! ## Lines whose text is determined -/

/-- The symbols of commutative compounds other than sets. -/
def commutative (h : Str) : Prop := ∃ c : Connector, c.isCommutative = true ∧ c.symbol.toList = h

mutual
/-- Commutative compounds have one component. -/
def straight : Tree → Prop
  | .leaf _ => True
  | .angle s _ p => straight s ∧ straight p
  | .paren h ts => (commutative h → ts.length ≤ 1) ∧ straightAll ts
  | .curly ts => ts.length ≤ 1 ∧ straightAll ts
  | .square ts => ts.length ≤ 1 ∧ straightAll ts
/-- In all of a list. -/
def straightAll : List Tree → Prop
  | [] => True
  | t :: ts => straight t ∧ straightAll ts
end

theorem straightAll_mem {ts : List Tree} : straightAll ts ↔ ∀ t ∈ ts, straight t := by
  induction ts with
  | nil => simp [straightAll]
  | cons t ts ih => simp [straightAll, ih]

theorem one_member {α : Type} {us us' : List α} (h : us.length ≤ 1) (hm : ∀ x, x ∈ us ↔ x ∈ us')
    (hl : us'.length ≤ us.length) : us = us' := by
  match us, us', h, hm, hl with
  | [], [], _, _, _ => rfl
  | [x], [], _, hm, _ => exact absurd ((hm x).1 (by simp)) (by simp)
  | [x], [y], _, hm, _ => rw [List.mem_singleton.mp ((hm x).1 (by simp))]

mutual
theorem Same.eq : ∀ (a : Tree) {b : Tree}, Same a b → straight a → a = b
  | .leaf l, b, h, _ => by cases h; rfl
  | .angle s c p, b, h, hs => by
    rw [straight] at hs
    cases h with
    | angle _ h1 h2 => rw [Same.eq s h1 hs.1, Same.eq p h2 hs.2]
  | .paren hd ts, b, h, hs => by
    rw [straight] at hs
    generalize ha : Tree.paren hd ts = a at h
    cases h with
    | leaf => cases ha
    | angle => cases ha
    | curly => cases ha
    | square => cases ha
    | paren h hf =>
      simp only [Tree.paren.injEq] at ha
      obtain ⟨rfl, rfl⟩ := ha
      rw [Same.all_eq _ hf hs.2]
    | set hc hf hm hl =>
      simp only [Tree.paren.injEq] at ha
      obtain ⟨rfl, rfl⟩ := ha
      have e := Same.all_eq _ hf hs.2
      subst e
      rw [one_member (hs.1 ⟨_, hc, rfl⟩) hm hl]
  | .curly ts, b, h, hs => by
    rw [straight] at hs
    cases h with
    | curly hf hm hl =>
      have e := Same.all_eq _ hf hs.2
      subst e
      rw [one_member hs.1 hm hl]
  | .square ts, b, h, hs => by
    rw [straight] at hs
    cases h with
    | square hf hm hl =>
      have e := Same.all_eq _ hf hs.2
      subst e
      rw [one_member hs.1 hm hl]
theorem Same.all_eq : ∀ (as : List Tree) {bs : List Tree}, List.Forall₂ Same as bs → straightAll as → as = bs
  | [], bs, h, _ => by cases h; rfl
  | a :: as, bs, h, hs => by
    rw [straightAll] at hs
    cases h with
    | cons h1 h2 => rw [Same.eq a h1 hs.1, Same.all_eq as h2 hs.2]
end

/-- A commutative compound with one component, if it is one. -/
def Syn.Straight : Syn → Prop
  | .comp c ts => c.isCommutative = true → ts.length ≤ 1
  | _ => True

theorem straight_stmt {a b : Tree} {c : Copula} (ha : straight a) (hb : straight b) :
    straight (shownStmt a c b) := by
  unfold shownStmt
  split <;> simp [straight, straightAll, ha, hb]

theorem straight_inner {t : Tree} (h : straight t) : ∀ u ∈ inner t, straight u := by
  unfold inner
  split
  · split
    · rw [straight] at h
      exact straightAll_mem.mp h.2
    · simpa using h
  · simpa using h

theorem symbol_comm {c k : Connector} (hc : c.isCommutative = true) (hn : c.symbol = k.symbol) :
    k.isCommutative = true := by
  revert hc hn
  cases c <;> cases k <;> decide

theorem straight_comp {c : Connector} {ts : List Tree} (hc : c.isCommutative = true → ts.length ≤ 1)
    (h : ∀ t ∈ ts, straight t) : straight (shownComp c ts) := by
  unfold shownComp
  split
  · rename_i e
    subst e
    exact ⟨hc rfl, straightAll_mem.mpr h⟩
  · split
    · rename_i e
      subst e
      exact ⟨hc rfl, straightAll_mem.mpr h⟩
    · refine ⟨?_, ?_⟩
      · rintro ⟨k, hk, e⟩
        have hcc : c.isCommutative = true := symbol_comm hk (String.toList_inj.mp e)
        rw [if_neg (by rintro rfl; cases hcc)]
        exact hc hcc
      · split
        · exact straightAll_mem.mpr fun t ht => by
            obtain ⟨u, hu, ht⟩ := List.mem_flatMap.mp ht
            exact straight_inner (h u hu) t ht
        · exact straightAll_mem.mpr h

theorem caret_not_commutative (s : Str) : ¬ commutative ('^' :: s) := by
  rintro ⟨c, hc, e⟩
  have : c.symbol.toList.head? = some '^' := by rw [e]; rfl
  revert this
  cases c <;> decide

theorem shownAll_length (M : Mach) : ∀ (ts : List Syn) (v : Seen), (Syn.shownAll M ts v).1.length = ts.length
  | [], v => by rw [Syn.shownAll]; rfl
  | t :: ts, v => by rw [Syn.shownAll]; simp [shownAll_length M ts]

mutual
theorem Syn.shown_straight (M : Mach) : ∀ (t : Syn) (v : Seen), (∀ u ∈ t.subs, u.Straight) →
    (∀ u ∈ t.subs, u.Tells) → straight (t.shown M v).1
  | .name s, v, _, _ => by rw [Syn.shown]; trivial
  | .op s, v, _, _ => by rw [Syn.shown]; trivial
  | .interval s, v, _, _ => by rw [Syn.shown]; trivial
  | .var k s, v, _, _ => by rw [Syn.shown]; trivial
  | .stmt s c p, v, h, ht => by
    rw [Syn.subs] at h ht
    obtain ⟨_, h⟩ := List.forall_mem_cons.mp h
    obtain ⟨_, ht⟩ := List.forall_mem_cons.mp ht
    obtain ⟨h1, h2⟩ := List.forall_mem_append.mp h
    obtain ⟨t1, t2⟩ := List.forall_mem_append.mp ht
    rw [Syn.shown]
    exact straight_stmt (Syn.shown_straight M s v h1 t1) (Syn.shown_straight M p _ h2 t2)
  | .comp c ts, v, h, ht => by
    rw [Syn.subs] at h ht
    obtain ⟨h0, h⟩ := List.forall_mem_cons.mp h
    obtain ⟨_, ht⟩ := List.forall_mem_cons.mp ht
    rw [Syn.shown]
    exact straight_comp (fun hc => by rw [shownAll_length]; exact h0 hc)
      (straightAll_mem.mp (Syn.shownAll_straight M ts v h ht))
  | .call f ts, v, h, ht => by
    rw [Syn.subs] at h ht
    obtain ⟨_, h⟩ := List.forall_mem_cons.mp h
    obtain ⟨t0, ht⟩ := List.forall_mem_cons.mp ht
    obtain ⟨h1, h2⟩ := List.forall_mem_append.mp h
    obtain ⟨t1, t2⟩ := List.forall_mem_append.mp ht
    obtain ⟨s, rfl⟩ := t0
    rw [Syn.shown, Syn.shown]
    exact ⟨fun hc => absurd hc (caret_not_commutative s), Syn.shownAll_straight M ts _ h2 t2⟩
  | .callName s ts, v, h, ht => by
    rw [Syn.subs] at h ht
    obtain ⟨_, h⟩ := List.forall_mem_cons.mp h
    obtain ⟨_, ht⟩ := List.forall_mem_cons.mp ht
    rw [Syn.shown]
    exact ⟨fun hc => absurd hc (caret_not_commutative s), Syn.shownAll_straight M ts v h ht⟩
/-- The same for lists. -/
theorem Syn.shownAll_straight (M : Mach) : ∀ (ts : List Syn) (v : Seen), (∀ u ∈ Syn.subsAll ts, u.Straight) →
    (∀ u ∈ Syn.subsAll ts, u.Tells) → straightAll (Syn.shownAll M ts v).1
  | [], v, _, _ => by rw [Syn.shownAll]; trivial
  | t :: ts, v, h, ht => by
    rw [Syn.subsAll] at h ht
    obtain ⟨h1, h2⟩ := List.forall_mem_append.mp h
    obtain ⟨t1, t2⟩ := List.forall_mem_append.mp ht
    rw [Syn.shownAll]
    exact ⟨Syn.shown_straight M t v h1 t1, Syn.shownAll_straight M ts _ h2 t2⟩
end

end Cnars.Parser
