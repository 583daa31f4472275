import Verif.Narsese.Relabel
import Verif.Parser.TaskLemmas

/-!
# Renaming the variables of a sentence
-/

namespace Cnars.Parser
open Cnars

mutual
/-- Equality of syntax trees, decided. -/
def Ast.same : Ast → Ast → Bool
  | .leaf e s, .leaf e' s' => e == e' && s == s'
  | .node e cs, .node e' cs' => e == e' && Ast.sameAll cs cs'
  | _, _ => false
/-- The same for siblings. -/
def Ast.sameAll : List Ast → List Ast → Bool
  | [], [] => true
  | a :: as, b :: bs => Ast.same a b && Ast.sameAll as bs
  | _, _ => false
end

mutual
theorem Ast.same_iff : ∀ {a b : Ast}, Ast.same a b = true ↔ a = b
  | .leaf e s, .leaf e' s' => by simp [Ast.same]
  | .node e cs, .node e' cs' => by simp [Ast.same, Ast.sameAll_iff (as := cs) (bs := cs')]
  | .leaf .., .node .. => by simp [Ast.same]
  | .node .., .leaf .. => by simp [Ast.same]
theorem Ast.sameAll_iff : ∀ {as bs : List Ast}, Ast.sameAll as bs = true ↔ as = bs
  | [], [] => by simp [Ast.sameAll]
  | a :: as, b :: bs => by
    simp [Ast.sameAll, Ast.same_iff (a := a) (b := b), Ast.sameAll_iff (as := as) (bs := bs)]
  | [], _ :: _ => by simp [Ast.sameAll]
  | _ :: _, [] => by simp [Ast.sameAll]
end

instance : DecidableEq Ast := fun _ _ => decidable_of_iff _ Ast.same_iff

/-- Change the text of a leaf. -/
def Ast.retoken (g : List Char → List Char) : Ast → Ast
  | .leaf e s => .leaf e (g s)
  | .node e cs => .node e cs

/-- The kind of variable a node name stands for. -/
def varKind? : Emit → Option VarKind
  | .independent_var => some .independent
  | .dependent_var => some .dependent
  | .query_var => some .query
  | _ => none

mutual
/-- Change the names of the variables in a syntax tree, those of each kind by a function of its
own. -/
def Ast.rename (ρ : VarKind → List Char → List Char) : Ast → Ast
  | .leaf e s => .leaf e s
  | .node e cs =>
    match varKind? e with
    | some k => .node e (cs.map (Ast.retoken (ρ k)))
    | none => .node e (Ast.renameAll ρ cs)
/-- The same for siblings. -/
def Ast.renameAll (ρ : VarKind → List Char → List Char) : List Ast → List Ast
  | [] => []
  | a :: as => Ast.rename ρ a :: Ast.renameAll ρ as
end

/-- The corresponding function on names with their sign. -/
def nameMap (ρ : VarKind → List Char → List Char) (k : VarKind) (n : String) : String :=
  k.symbol ++ String.ofList (ρ k (n.toList.drop 1))

theorem nameMap_sign (ρ : VarKind → List Char → List Char) (k : VarKind) (s : List Char) :
    nameMap ρ k (k.symbol ++ String.ofList s) = k.symbol ++ String.ofList (ρ k s) := by
  unfold nameMap
  congr 2
  cases k <;> simp [VarKind.symbol]

mutual
/-- Change the names of the variables. -/
def Syn.rename (ρ : VarKind → List Char → List Char) : Syn → Syn
  | .var k s => .var k (ρ k s)
  | .stmt s c p => .stmt (Syn.rename ρ s) c (Syn.rename ρ p)
  | .comp c ts => .comp c (Syn.renameAll ρ ts)
  | .call f ts => .call (Syn.rename ρ f) (Syn.renameAll ρ ts)
  | .callName s ts => .callName s (Syn.renameAll ρ ts)
  | .name s => .name s
  | .op s => .op s
  | .interval s => .interval s
/-- The same for lists. -/
def Syn.renameAll (ρ : VarKind → List Char → List Char) : List Syn → List Syn
  | [] => []
  | t :: ts => Syn.rename ρ t :: Syn.renameAll ρ ts
end

/-- The same for parts. -/
def Part.rename (ρ : VarKind → List Char → List Char) : Part → Part
  | .syn t => .syn (t.rename ρ)
  | .sentence p t ms => .sentence p (t.rename ρ) ms
  | .task b p t ms => .task b p (t.rename ρ) ms
  | p => p

variable (ρ : VarKind → List Char → List Char)

theorem Part.syns?_rename : ∀ {ps : List Part} {ts : List Syn}, Part.syns? ps = some ts →
    Part.syns? (ps.map (Part.rename ρ)) = some (Syn.renameAll ρ ts)
  | [], ts, h => by cases h; rfl
  | .syn t :: ps, ts, h => by
    simp only [Part.syns?, Option.map_eq_some_iff] at h
    obtain ⟨us, h, rfl⟩ := h
    simp [Part.syns?, Part.rename, Part.syns?_rename h, Syn.renameAll]
  | .copula _ :: _, _, h => by simp [Part.syns?] at h
  | .conn _ :: _, _, h => by simp [Part.syns?] at h
  | .str _ :: _, _, h => by simp [Part.syns?] at h
  | .num _ :: _, _, h => by simp [Part.syns?] at h
  | .mark _ :: _, _, h => by simp [Part.syns?] at h
  | .budget _ :: _, _, h => by simp [Part.syns?] at h
  | .sentence .. :: _, _, h => by simp [Part.syns?] at h
  | .task .. :: _, _, h => by simp [Part.syns?] at h

theorem Part.marks?_rename : ∀ {ps : List Part} {ts : List Mark}, Part.marks? ps = some ts →
    Part.marks? (ps.map (Part.rename ρ)) = some ts
  | [], ts, h => h
  | .mark t :: ps, ts, h => by
    simp only [Part.marks?, Option.map_eq_some_iff] at h
    obtain ⟨us, h, rfl⟩ := h
    simp [Part.marks?, Part.rename, Part.marks?_rename h]
  | .copula _ :: _, _, h => by simp [Part.marks?] at h
  | .conn _ :: _, _, h => by simp [Part.marks?] at h
  | .str _ :: _, _, h => by simp [Part.marks?] at h
  | .num _ :: _, _, h => by simp [Part.marks?] at h
  | .syn _ :: _, _, h => by simp [Part.marks?] at h
  | .budget _ :: _, _, h => by simp [Part.marks?] at h
  | .sentence .. :: _, _, h => by simp [Part.marks?] at h
  | .task .. :: _, _, h => by simp [Part.marks?] at h

theorem Part.nums?_rename : ∀ {ps : List Part} {ts : List (List Char)}, Part.nums? ps = some ts →
    Part.nums? (ps.map (Part.rename ρ)) = some ts
  | [], ts, h => h
  | .num t :: ps, ts, h => by
    simp only [Part.nums?, Option.map_eq_some_iff] at h
    obtain ⟨us, h, rfl⟩ := h
    simp [Part.nums?, Part.rename, Part.nums?_rename h]
  | .copula _ :: _, _, h => by simp [Part.nums?] at h
  | .conn _ :: _, _, h => by simp [Part.nums?] at h
  | .str _ :: _, _, h => by simp [Part.nums?] at h
  | .mark _ :: _, _, h => by simp [Part.nums?] at h
  | .syn _ :: _, _, h => by simp [Part.nums?] at h
  | .budget _ :: _, _, h => by simp [Part.nums?] at h
  | .sentence .. :: _, _, h => by simp [Part.nums?] at h
  | .task .. :: _, _, h => by simp [Part.nums?] at h

theorem Part.build_rename {e : Emit} {ps : List Part} {q : Part} (h : Part.build e ps = some q)
    (hv : varKind? e = none) :
    Part.build e (ps.map (Part.rename ρ)) = some (q.rename ρ) := by
  unfold Part.build at h
  split at h
  all_goals first
    | (simp only [Option.some.injEq] at h
       subst h
       first
        | rfl
        | simp [varKind?] at hv)
    | (simp only [Option.map_eq_some_iff] at h
       obtain ⟨ts, h1, rfl⟩ := h
       first
       | (have h2 := Part.syns?_rename ρ h1
          simp [Part.build, Part.rename, Syn.rename, h2])
       | (have h2 := Part.marks?_rename ρ h1
          simp [Part.build, Part.rename, h2])
       | (have h2 := Part.nums?_rename ρ h1
          simp [Part.build, Part.rename, h2]))
    | (have h0 := h
       simp only [Option.or_eq_some_iff, Option.map_eq_some_iff] at h
       rcases h with ⟨c, hc, rfl⟩ | ⟨_, c, hc, rfl⟩
       all_goals
         simp only [List.map_nil, Part.rename]
         unfold Part.build
         split <;> first | exact h0 | simp_all)
    | simp at h

theorem Part.build_var {e : Emit} {k : VarKind} (hv : varKind? e = some k) {ps : List Part} {q : Part}
    (h : Part.build e ps = some q) :
    ∃ s, ps = [.str s] ∧ q = .syn (.var k s) := by
  unfold varKind? at hv
  split at hv <;> simp only [Option.some.injEq, reduceCtorEq] at hv <;> subst hv <;>
  · unfold Part.build at h
    split at h
    all_goals first
      | (simp only [Option.some.injEq] at h
         exact ⟨_, rfl, h.symm⟩)
      | (rename_i heq
         cases heq)
      | simp [Part.copula?, Part.conn?] at h

theorem build_var_str (e : Emit) (k : VarKind) (hv : varKind? e = some k) (s : List Char) :
    Part.build e [.str s] = some (.syn (.var k s)) := by
  unfold varKind? at hv
  split at hv <;> simp only [Option.some.injEq, reduceCtorEq] at hv <;> subst hv <;> rfl

theorem Ast.part_str_leaf {a : Ast} {s : List Char} (h : a.part = some (.str s)) :
    ∃ e, a = .leaf e s ∧ (e = .string ∨ e = .string_raw) := by
  cases a with
  | leaf e t =>
    simp only [Ast.part, Option.some.injEq, Part.ofLeaf] at h
    split at h
    · cases h; exact ⟨_, rfl, .inl rfl⟩
    · cases h; exact ⟨_, rfl, .inr rfl⟩
    · cases h
  | node e cs =>
    simp only [Ast.part, Option.bind_eq_some_iff] at h
    obtain ⟨ps, _, h⟩ := h
    exact absurd h Part.build_str

mutual
theorem Ast.part_rename : ∀ {a : Ast} {p : Part}, a.part = some p →
    (a.rename ρ).part = some (p.rename ρ)
  | .leaf e s, p, h => by
    simp only [Ast.part, Option.some.injEq] at h
    subst h
    simp only [Ast.rename, Ast.part, Part.ofLeaf]
    split <;> rfl
  | .node e cs, p, h => by
    simp only [Ast.part, Option.bind_eq_some_iff] at h
    obtain ⟨ps, h1, h2⟩ := h
    rw [Ast.rename]
    cases hv : varKind? e with
    | none =>
      simp only [Ast.part, Ast.partAll_rename h1, Option.bind_some]
      exact Part.build_rename ρ h2 hv
    | some k =>
      obtain ⟨s, rfl, rfl⟩ := Part.build_var hv h2
      cases cs with
      | nil => simp [partAll] at h1
      | cons c cs =>
        simp only [partAll, Option.bind_eq_some_iff, Option.map_eq_some_iff, List.cons.injEq] at h1
        obtain ⟨p, h1, qs, h3, rfl, rfl⟩ := h1
        obtain ⟨e', rfl, he⟩ := Ast.part_str_leaf h1
        cases cs with
        | nil =>
          rcases he with rfl | rfl <;>
          simp [Ast.retoken, Ast.part, partAll, Part.ofLeaf, Part.rename, Syn.rename,
            build_var_str e k hv]
        | cons c' cs =>
          simp only [partAll, Option.bind_eq_some_iff, Option.map_eq_some_iff] at h3
          obtain ⟨_, _, _, _, h3⟩ := h3
          simp at h3
theorem Ast.partAll_rename : ∀ {as : List Ast} {ps : List Part}, partAll as = some ps →
    partAll (Ast.renameAll ρ as) = some (ps.map (Part.rename ρ))
  | [], ps, h => by cases h; rfl
  | a :: as, ps, h => by
    simp only [partAll, Option.bind_eq_some_iff, Option.map_eq_some_iff] at h
    obtain ⟨p, h1, qs, h2, rfl⟩ := h
    simp [Ast.renameAll, partAll, Ast.part_rename h1, Ast.partAll_rename h2]
end

/-! ## Evaluation -/

/-- The state with other names. -/
def Env.relabel (f : VarKind → String → String) (e : Env) : Env :=
  { e with names := fun k => (e.names k).map (f k) }

/-- `y` does with other names what `x` does. -/
def Mirrors (f : VarKind → String → String) {α β : Type} (g : α → β) (x : Act α) (y : Act β) (e : Env) :
    Prop :=
  y (e.relabel f) = (g <$> (x e).1, (x e).2.relabel f)

section
variable {f : VarKind → String → String} {α β γ δ : Type}

theorem Mirrors.pure {g : α → β} {a : α} {b : β} (h : b = g a) (e : Env) :
    Mirrors f g (pure a) (pure b) e := by
  subst h; rfl

theorem Mirrors.lift {g : α → β} {r : Res α} {r' : Res β} (h : r' = g <$> r) (e : Env) :
    Mirrors f g (Act.lift r) (Act.lift r') e := by
  subst h; rfl

theorem Mirrors.onWorld (h : World → Res World) (e : Env) :
    Mirrors f id (Act.onWorld h) (Act.onWorld h) e := by
  unfold Mirrors Act.onWorld
  change (match h e.world with | _ => _) = _
  cases hw : h e.world <;> simp only [Env.relabel, hw] <;> rfl

theorem Mirrors.onGlobals (h : Stamp.Globals → α × Stamp.Globals) (e : Env) :
    Mirrors f id (Act.onGlobals h) (Act.onGlobals h) e := rfl

theorem Mirrors.bind {g : α → β} {g' : γ → δ} {x : Act α} {y : Act β} {k : α → Act γ}
    {k' : β → Act δ} {e : Env} (h : Mirrors f g x y e)
    (hk : ∀ a e', x e = (.ok a, e') → Mirrors f g' (k a) (k' (g a)) e') :
    Mirrors f g' (x >>= k) (y >>= k') e := by
  unfold Mirrors at h ⊢
  change Act.bind y k' _ = (_ <$> (Act.bind x k e).1, (Act.bind x k e).2.relabel f)
  unfold Act.bind
  rw [h]
  cases hx : x e with
  | mk r e' =>
    cases r with
    | ok a =>
      have := hk a e' hx
      unfold Mirrors at this
      simpa using this
    | throw m => rfl
    | ub => rfl
    | outOfFuel => rfl

end

variable {f : VarKind → String → String}

/-- The names seen are in a given set. -/
def Inside (S : VarKind → List String) (e : Env) : Prop := ∀ k, ∀ n ∈ e.names k, n ∈ S k

/-- Injective on a given set. -/
def InjOn (f : VarKind → String → String) (S : VarKind → List String) : Prop :=
  ∀ k, ∀ m ∈ S k, ∀ n ∈ S k, f k m = f k n → m = n

theorem idxOf_map {g : String → String} {n : String} : ∀ {l : List String},
    (∀ m ∈ l, g m = g n → m = n) → (l.map g).idxOf (g n) = l.idxOf n
  | [], _ => rfl
  | m :: l, h => by
    simp only [List.map_cons, List.idxOf_cons]
    have ih := idxOf_map (l := l) (g := g) (n := n) fun m hm => h m (by simp [hm])
    by_cases hm : m = n
    · simp [hm]
    · have : ¬ g m = g n := fun hg => hm (h m (by simp) hg)
      have h1 : (m == n) = false := by simp [hm]
      have h2 : (g m == g n) = false := by simp [this]
      rw [h1, h2, ih]

theorem Mirrors.number {S : VarKind → List String} (hS : InjOn f S) {e : Env} (he : Inside S e)
    {k : VarKind} {n : String} (hn : n ∈ S k) :
    Mirrors f id (Action.number k n) (Action.number k (f k n)) e := by
  have hi : ∀ m ∈ e.names k, f k m = f k n → m = n := fun m hm => hS k m (he k m hm) n hn
  have hmem : f k n ∈ (e.names k).map (f k) ↔ n ∈ e.names k := by
    constructor
    · intro h
      obtain ⟨m, hm, h⟩ := List.mem_map.mp h
      rw [← hi m hm h]; exact hm
    · exact fun h => List.mem_map_of_mem h
  have hl : (if f k n ∈ (e.names k).map (f k) then (e.names k).map (f k)
      else (e.names k).map (f k) ++ [f k n]) =
      (if n ∈ e.names k then e.names k else e.names k ++ [n]).map (f k) := by
    simp only [hmem]
    split <;> simp
  have e1 : Action.number k (f k n) (e.relabel f) =
      (let new := if f k n ∈ (e.names k).map (f k) then (e.names k).map (f k)
        else (e.names k).map (f k) ++ [f k n]
       (.ok (new.idxOf (f k n)), { e.relabel f with names := fun k' => if k' = k then new
                                                      else (e.relabel f).names k' })) := rfl
  unfold Mirrors
  rw [e1, hl]
  refine Prod.ext ?_ ?_
  · simp only [Action.number, Res.map_ok, id]
    rw [idxOf_map]
    intro m hm
    split at hm
    · exact hi m hm
    · rcases List.mem_append.mp hm with hm | hm
      · exact hi m hm
      · intro _; simpa using hm
  · simp only [Action.number, Env.relabel, Env.mk.injEq, true_and, and_true]
    funext k'
    split
    · rename_i h; subst h; rfl
    · rfl

theorem mkAtom_relabel (f : VarKind → String → String) (a : Word) :
    (Term.mkAtom a).relabel f = Term.mkAtom a := by
  simp [Term.mkAtom, Term.relabel]
theorem mkOperation_relabel (f : VarKind → String → String) (a : Word) :
    (Term.mkOperation a).relabel f = Term.mkOperation a := by
  simp [Term.mkOperation, Term.relabel]

theorem Mirrors.lastTerm (e : Env) : Mirrors f (Term.relabel f) lastTerm lastTerm e := by
  unfold Mirrors Parser.lastTerm
  change (lastAtom e.world, e.relabel f) = _
  refine Prod.ext ?_ rfl
  simp only
  unfold lastAtom
  split
  · rfl
  · split
    · rfl
    · split <;> simp [mkAtom_relabel, mkOperation_relabel]

mutual
theorem addrs_relabel (f : VarKind → String → String) : ∀ t : Term, addrs (t.relabel f) = addrs t
  | .atom .. => by simp [Term.relabel, addrs]
  | .interval .. => by simp [Term.relabel, addrs]
  | .var .. => by simp [Term.relabel, addrs]
  | .stmt s c p i => by simp [Term.relabel, addrs, addrs_relabel f s, addrs_relabel f p]
  | .comp c ts i => by simp [Term.relabel, addrs, addrsAll_relabel f ts]
theorem addrsAll_relabel (f : VarKind → String → String) :
    ∀ ts : List Term, addrsAll (Term.relabelAll f ts) = addrsAll ts
  | [] => rfl
  | t :: ts => by simp [Term.relabelAll, addrsAll, addrs_relabel f t, addrsAll_relabel f ts]
end

theorem Mirrors.makingTerm {args : List Term} {r r' : Res Term} (h : r' = (Term.relabel f) <$> r)
    (e : Env) :
    Mirrors f (Term.relabel f) (makingTerm args r) (makingTerm (args.map (Term.relabel f)) r') e := by
  unfold Parser.makingTerm
  refine Mirrors.bind (Mirrors.lift h e) fun t e' _ => ?_
  refine Mirrors.bind (g := id) ?_ fun _ e'' _ => Mirrors.pure rfl e''
  unfold settle
  rw [← relabelAll_eq, addrsAll_relabel, addrs_relabel]
  exact Mirrors.onWorld _ e'

theorem newStatement_relabel (M : Mach) (s : Term) (c : Copula) (p : Term) :
    Action.newStatement M (s.relabel f) c (p.relabel f) =
      (Term.relabel f) <$> Action.newStatement M s c p := by
  have h := fun c t => mkComp_relabel f M.ord c [t] false
  simp only [List.map_cons, List.map_nil] at h
  unfold Action.newStatement
  split <;> simp only [h, Res.bind_map, Res.map_bind, newStmt_relabel]

theorem newOperation_relabel (M : Mach) (o : Term) (ts : List Term) :
    Action.newOperation M (o.relabel f) (ts.map (Term.relabel f)) =
      (Term.relabel f) <$> Action.newOperation M o ts := by
  simp only [Action.newOperation, mkComp_relabel, Res.bind_map, Res.map_bind, newStmt_relabel]

theorem Inside.step {S : VarKind → List String} {e e' : Env} {v : VarKind → List String}
    (h : ∀ k, e'.names k = seen (e.names k) (v k)) (he : Inside S e) (hv : ∀ k, ∀ n ∈ v k, n ∈ S k) :
    Inside S e' := by
  intro k n hn
  rw [h, mem_seen] at hn
  exact hn.elim (he k n) (hv k n)

theorem Mirrors.theOperation (M : Mach) (s : List Char) (e : Env) :
    Mirrors f (Term.relabel f) (Action.theOperation M s) (Action.theOperation M s) e :=
  Mirrors.bind (Mirrors.onWorld _ e) fun _ e' _ => Mirrors.lastTerm e'

mutual
/-- Evaluation commutes with an injective renaming of variables. -/
theorem Syn.eval_rename (M : Mach) {S : VarKind → List String} (hS : InjOn (nameMap ρ) S) :
    ∀ (t : Syn) {e : Env}, (∀ k, ∀ n ∈ t.vars k, n ∈ S k) → Inside S e →
    Mirrors (nameMap ρ) (Term.relabel (nameMap ρ)) (t.eval M) ((t.rename ρ).eval M) e
  | .name s, e, _, _ => Mirrors.bind (Mirrors.onWorld _ e) fun _ e' _ => Mirrors.lastTerm e'
  | .op s, e, _, _ => Mirrors.theOperation M s e
  | .interval s, e, _, _ => by
    rw [Syn.rename, Syn.eval]
    refine Mirrors.bind (g := id) (Mirrors.lift (by cases Action.stod M s <;> rfl) e) fun x e' _ => ?_
    refine Mirrors.bind (g := id) (Mirrors.lift (by rw [id]; cases Action.toInt x <;> rfl) e') fun n e'' _ => ?_
    exact Mirrors.pure (by simp [Term.mkInterval, Term.relabel]) e''
  | .var k s, e, hv, he => by
    rw [Syn.rename, Syn.eval, Syn.eval, ← nameMap_sign]
    refine Mirrors.bind (g := id) (Mirrors.number hS he (hv k _ (by simp [Syn.vars]))) fun i e' _ => ?_
    exact Mirrors.pure (by simp [Term.mkVar, Term.relabel]) e'
  | .stmt s c p, e, hv, he => by
    rw [Syn.rename, Syn.eval, Syn.eval]
    have h1 : ∀ k, ∀ n ∈ s.vars k, n ∈ S k := fun k n hn => hv k n (by simp [Syn.vars, hn])
    have h2 : ∀ k, ∀ n ∈ p.vars k, n ∈ S k := fun k n hn => hv k n (by simp [Syn.vars, hn])
    refine Mirrors.bind (Syn.eval_rename M hS s h1 he) fun s' e1 hs => ?_
    have he1 : Inside S e1 := Inside.step (Syn.eval_names M s hs).2.1 he h1
    refine Mirrors.bind (Syn.eval_rename M hS p h2 he1) fun p' e2 _ => ?_
    exact Mirrors.makingTerm (args := [s', p']) (newStatement_relabel M s' c p') e2
  | .comp c ts, e, hv, he => by
    rw [Syn.rename, Syn.eval, Syn.eval]
    have h1 : ∀ k, ∀ n ∈ Syn.varsAll k ts, n ∈ S k := fun k n hn => hv k n (by simp [Syn.vars, hn])
    refine Mirrors.bind (Syn.evalAll_rename M hS ts h1 he) fun us e1 _ => ?_
    exact Mirrors.makingTerm (mkComp_relabel _ M.ord c us true) e1
  | .call o ts, e, hv, he => by
    rw [Syn.rename, Syn.eval, Syn.eval]
    have h1 : ∀ k, ∀ n ∈ o.vars k, n ∈ S k := fun k n hn => hv k n (by simp [Syn.vars, hn])
    have h2 : ∀ k, ∀ n ∈ Syn.varsAll k ts, n ∈ S k := fun k n hn => hv k n (by simp [Syn.vars, hn])
    refine Mirrors.bind (Syn.eval_rename M hS o h1 he) fun o' e1 hs => ?_
    have he1 : Inside S e1 := Inside.step (Syn.eval_names M o hs).2.1 he h1
    refine Mirrors.bind (Syn.evalAll_rename M hS ts h2 he1) fun us e2 _ => ?_
    exact Mirrors.makingTerm (args := o' :: us) (newOperation_relabel M o' us) e2
  | .callName s ts, e, hv, he => by
    rw [Syn.rename, Syn.eval, Syn.eval]
    have h1 : ∀ k, ∀ n ∈ Syn.varsAll k ts, n ∈ S k := fun k n hn => hv k n (by simp [Syn.vars, hn])
    refine Mirrors.bind (Syn.evalAll_rename M hS ts h1 he) fun us e1 _ => ?_
    refine Mirrors.bind (Mirrors.theOperation M s e1) fun o e2 _ => ?_
    exact Mirrors.makingTerm (args := o :: us) (newOperation_relabel M o us) e2
/-- The same for lists. -/
theorem Syn.evalAll_rename (M : Mach) {S : VarKind → List String} (hS : InjOn (nameMap ρ) S) :
    ∀ (ts : List Syn) {e : Env}, (∀ k, ∀ n ∈ Syn.varsAll k ts, n ∈ S k) → Inside S e →
    Mirrors (nameMap ρ) (List.map (Term.relabel (nameMap ρ))) (Syn.evalAll M ts)
      (Syn.evalAll M (Syn.renameAll ρ ts)) e
  | [], e, _, _ => Mirrors.pure rfl e
  | t :: ts, e, hv, he => by
    rw [Syn.renameAll, Syn.evalAll, Syn.evalAll]
    have h1 : ∀ k, ∀ n ∈ t.vars k, n ∈ S k := fun k n hn => hv k n (by simp [Syn.varsAll, hn])
    have h2 : ∀ k, ∀ n ∈ Syn.varsAll k ts, n ∈ S k := fun k n hn => hv k n (by simp [Syn.varsAll, hn])
    refine Mirrors.bind (Syn.eval_rename M hS t h1 he) fun t' e1 ht => ?_
    have he1 : Inside S e1 := Inside.step (Syn.eval_names M t ht).2.1 he h1
    refine Mirrors.bind (Syn.evalAll_rename M hS ts h2 he1) fun us e2 _ => Mirrors.pure rfl e2
end

/-! ## Tasks -/

/-- Other names in the term of a sentence. -/
def relabelSentence (f : VarKind → String → String) (s : Sentence ℚ) : Sentence ℚ :=
  { s with term := s.term.relabel f }

/-- Other names in the term of a task. -/
def Task.relabel (f : VarKind → String → String) (t : Task) : Task :=
  { t with sentence := relabelSentence f t.sentence }

/-- Other names in a value. -/
def Val.relabel (f : VarKind → String → String) : Val → Val
  | .term t => .term (t.relabel f)
  | .sentence s => .sentence (relabelSentence f s)
  | .task t => .task (t.relabel f)
  | v => v

/-- A computation that has nothing to do with names. -/
def Blank {α : Type} (x : Act α) : Prop := ∀ (f : VarKind → String → String) e, Mirrors f id x x e

section
variable {α β : Type}
theorem Blank.pure (a : α) : Blank (pure a) := fun _ _ => rfl
theorem Blank.lift (r : Res α) : Blank (Act.lift r) := fun _ e =>
  Mirrors.lift (by cases r <;> rfl) e
theorem Blank.bind {x : Act α} {k : α → Act β} (hx : Blank x) (hk : ∀ a, Blank (k a)) :
    Blank (x >>= k) := fun f e => Mirrors.bind (hx f e) fun a e' _ => hk a f e'
theorem Blank.onGlobals (h : Stamp.Globals → α × Stamp.Globals) : Blank (Act.onGlobals h) :=
  fun _ _ => rfl
end

theorem numbers_blank (M : Mach) : ∀ ss : List (List Char), Blank (numbers M ss)
  | [] => Blank.pure _
  | _ :: ss => Blank.bind (Blank.lift _) fun _ =>
      Blank.bind (numbers_blank M ss) fun _ => Blank.pure _

theorem Mark.eval_blank (M : Mach) : ∀ m : Mark, Blank (m.eval M)
  | .tense n => Blank.pure _
  | .time s => Blank.bind (Blank.lift _) fun _ => Blank.bind (Blank.lift _) fun _ => Blank.pure _
  | .truth ss => by
    refine Blank.bind (numbers_blank M ss) fun xs => ?_
    rw [truth_eq]
    exact Blank.pure _

theorem evalMarks_blank (M : Mach) : ∀ ms : List Mark, Blank (evalMarks M ms)
  | [] => Blank.pure _
  | m :: ms => Blank.bind (m.eval_blank M) fun _ =>
      Blank.bind (evalMarks_blank M ms) fun _ => Blank.pure _

theorem marks_blank : ∀ (vs : List Val) (s : Option Stamp.Stamp) (t : Option (Truth ℚ)),
    Blank (Action.marks vs s t)
  | [], _, _ => Blank.pure _
  | .tense _ :: vs, _, _ => Blank.bind (Blank.onGlobals _) fun _ => marks_blank vs _ _
  | .truth _ :: vs, _, _ => marks_blank vs _ _
  | .term _ :: vs, _, _ => marks_blank vs _ _
  | .copula _ :: vs, _, _ => marks_blank vs _ _
  | .conn _ :: vs, _, _ => marks_blank vs _ _
  | .str _ :: vs, _, _ => marks_blank vs _ _
  | .dbl _ :: vs, _, _ => marks_blank vs _ _
  | .budget _ :: vs, _, _ => marks_blank vs _ _
  | .sentence _ :: vs, _, _ => marks_blank vs _ _
  | .task _ :: vs, _, _ => marks_blank vs _ _
  | .cstr _ :: vs, _, _ => marks_blank vs _ _
  | .null :: vs, _, _ => marks_blank vs _ _

theorem stampOr_blank : ∀ s : Option Stamp.Stamp, Blank (Action.stampOr s)
  | some _ => Blank.pure _
  | none => Blank.onGlobals fun g => Stamp.sentenceStamp g none

theorem sentenceAction_relabel (M : Mach) (p : Punct) (t : Term) {vs : List Val}
    (hv : Action.allMarks vs = true) (e : Env) :
    Mirrors f (Val.relabel f) ((sentenceAction M p (.term t :: vs)).getD undefined)
      ((sentenceAction M p (.term (t.relabel f) :: vs)).getD undefined) e := by
  cases p <;>
  · simp only [sentenceAction, Action.judgement, Action.question, Action.goal, Action.quest,
      Action.believed, Action.asked, if_pos hv, Option.getD_some]
    refine Mirrors.bind (marks_blank vs none none f e) fun q e1 _ => ?_
    refine Mirrors.bind (stampOr_blank q.1 f e1) fun s e2 _ => ?_
    rfl

theorem evalSentence_rename (M : Mach) {S : VarKind → List String} (hS : InjOn (nameMap ρ) S)
    (p : Punct) (t : Syn) (ms : List Mark) {e : Env} (hv : ∀ k, ∀ n ∈ t.vars k, n ∈ S k)
    (he : Inside S e) :
    Mirrors (nameMap ρ) (Val.relabel (nameMap ρ)) (evalSentence M p t ms)
      (evalSentence M p (t.rename ρ) ms) e := by
  refine Mirrors.bind (Syn.eval_rename ρ M hS t hv he) fun t' e1 _ => ?_
  refine Mirrors.bind (evalMarks_blank M ms _ e1) fun vs e2 h => ?_
  exact sentenceAction_relabel M p t' (evalMarks_all M h) e2

theorem finishBudget_relabel (M : Mach) (b : Budget) (s : Sentence ℚ) :
    Action.finishBudget M b (relabelSentence f s) = Action.finishBudget M b s := rfl

theorem evalTaskPart_rename (M : Mach) {S : VarKind → List String} (hS : InjOn (nameMap ρ) S)
    (b : Option (List (List Char))) (p : Punct) (t : Syn) (ms : List Mark) {e : Env}
    (hv : ∀ k, ∀ n ∈ t.vars k, n ∈ S k) (he : Inside S e) :
    Mirrors (nameMap ρ) (Val.relabel (nameMap ρ)) (evalTaskPart M b p t ms)
      (evalTaskPart M b p (t.rename ρ) ms) e := by
  have key : ∀ {e : Env} (v : Val) (b : Budget), (∃ s, v = .sentence s) →
      Mirrors (nameMap ρ) (Val.relabel (nameMap ρ)) ((Action.task M [v]).getD undefined)
        ((Action.task M [v.relabel (nameMap ρ)]).getD undefined) e ∧
      Mirrors (nameMap ρ) (Val.relabel (nameMap ρ)) ((Action.task M [.budget b, v]).getD undefined)
        ((Action.task M [.budget b, v.relabel (nameMap ρ)]).getD undefined) e := by
    rintro e _ b ⟨s, rfl⟩
    constructor <;>
    · refine Mirrors.bind (Blank.lift _ _ e) fun x e1 _ => ?_
      rfl
  cases b with
  | none =>
    refine Mirrors.bind (evalSentence_rename ρ M hS p t ms hv he) fun v e1 h => ?_
    obtain ⟨_, _, _, s, _, _, rfl, _⟩ := evalSentence_ok h
    exact (key _ ⟨0, 0, 0⟩ ⟨s, rfl⟩).1
  | some ss =>
    refine Mirrors.bind (numbers_blank M ss _ e) fun xs e1 h0 => ?_
    obtain ⟨rfl, _⟩ := numbers_env M h0
    simp only [id, budget_eq, Option.getD_some, pure_bind]
    refine Mirrors.bind (evalSentence_rename ρ M hS p t ms hv he) fun v e2 h => ?_
    obtain ⟨_, _, _, s, _, _, rfl, _⟩ := evalSentence_ok h
    exact (key _ _ ⟨s, rfl⟩).2

/-- The evaluation of a tree and of its renaming. -/
theorem evalTask_rename {line line' : List WChar} {as : List Ast} (hn : IsNarsese line as)
    (hn' : IsNarsese line' (Ast.renameAll ρ as)) (M : Mach) (bad bad' : Act Val)
    (hS : InjOn (nameMap ρ) fun k => Ast.varsAll k as) {e : Env} (he : ∀ k, e.names k = []) :
    Mirrors (nameMap ρ) (Task.relabel (nameMap ρ)) (evalTask M bad as)
      (evalTask M bad' (Ast.renameAll ρ as)) e := by
  obtain ⟨b, p, t, ms, h1, h2⟩ := evalTask_part hn
  obtain ⟨b', p', t', ms', h3, h4⟩ := evalTask_part hn'
  have h5 := Ast.partAll_rename ρ h1
  rw [h3] at h5
  simp only [List.map_cons, List.map_nil, Part.rename, Option.some.injEq, List.cons.injEq,
    Part.task.injEq, and_true] at h5
  obtain ⟨rfl, rfl, rfl, rfl⟩ := h5
  rw [h2, h4]
  have hv : ∀ k, t.vars k = Ast.varsAll k as := fun k => by
    have := Ast.partAll_vars k h1
    simpa [Part.vars] using this.symm
  refine Mirrors.bind (evalTaskPart_rename ρ M hS _ _ t _ (fun k n hn => by rw [← hv]; exact hn)
    (fun k n hn => by rw [he] at hn; cases hn)) fun v e1 h => ?_
  obtain ⟨_, _, _, k, _, _, _, rfl, _⟩ := evalTaskPart_ok h
  rfl

end Cnars.Parser
