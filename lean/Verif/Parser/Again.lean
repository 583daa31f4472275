import Verif.Parser.Progress
import Verif.Parser.Sugar

/-!
# Reading a line with known names
-/

namespace Cnars.Parser
open Cnars Cnars.Props

/-! ## What a term is, given what its names are -/

/-- The names of the variables, by kind, as in `Env`. -/
abbrev Seen : Type := VarKind → List String

mutual
/-- The term that is written, if a name stands for the term that `σ` says; no handles. -/
def Syn.means (M : Mach) (σ : String → Term) : Syn → Seen → Res (Term × Seen)
  | .name s, v => .ok (σ (String.ofList s), v)
  | .op s, v => .ok (σ ("^" ++ String.ofList s), v)
  | .interval s, v => do
    let x ← Action.stod M s
    let n ← Action.toInt x
    pure (Term.mkInterval n, v)
  | .var k s, v =>
    let n := k.symbol ++ String.ofList s
    let new := if n ∈ v k then v k else v k ++ [n]
    .ok (Term.mkVar k n (new.idxOf n), fun k' => if k' = k then new else v k')
  | .stmt s c p, v => do
    let (s, v) ← Syn.means M σ s v
    let (p, v) ← Syn.means M σ p v
    let r ← Action.newStatement M s c p
    pure (r, v)
  | .comp c ts, v => do
    let (ts, v) ← Syn.meansAll M σ ts v
    let r ← mkComp M.ord c ts true
    pure (r, v)
  | .call f ts, v => do
    let (f, v) ← Syn.means M σ f v
    let (ts, v) ← Syn.meansAll M σ ts v
    let r ← Action.newOperation M f ts
    pure (r, v)
  | .callName s ts, v => do
    let (ts, v) ← Syn.meansAll M σ ts v
    let r ← Action.newOperation M (σ ("^" ++ String.ofList s)) ts
    pure (r, v)
/-- The terms of a list. -/
def Syn.meansAll (M : Mach) (σ : String → Term) : List Syn → Seen → Res (List Term × Seen)
  | [], v => .ok ([], v)
  | t :: ts, v => do
    let (t, v) ← Syn.means M σ t v
    let (ts, v) ← Syn.meansAll M σ ts v
    pure (t :: ts, v)
end

/-- The same outcome, the names included. -/
def Agrees {α : Type} (r : Res α × Env) (s : Res (α × Seen)) : Prop :=
  (∀ a e, r = (.ok a, e) → s = .ok (a, e.names)) ∧ s.bind (fun x => .ok x.1) = r.1

theorem Agrees.ok {α : Type} {a : α} {e : Env} {v : Seen} (h : e.names = v) :
    Agrees (.ok a, e) (.ok (a, v)) := by
  subst h
  refine ⟨fun a' e' h => ?_, rfl⟩
  simp only [Prod.mk.injEq, Res.ok.injEq] at h
  rw [h.1, h.2]

theorem Agrees.fst_eq {α : Type} {r r' : Res α × Env} {s : Res (α × Seen)} (h : Agrees r s)
    (h' : Agrees r' s) : r.1 = r'.1 := by
  rw [← h.2, ← h'.2]

theorem Agrees.bind {α β : Type} {x : Act α} {f : α → Act β} {e : Env} {s : Res (α × Seen)}
    {g : α × Seen → Res (β × Seen)} (hx : Agrees (x e) s)
    (hf : ∀ a e', x e = (.ok a, e') → Agrees (f a e') (g (a, e'.names))) :
    Agrees ((x >>= f) e) (s >>= g) := by
  change Agrees (Act.bind x f e) _
  unfold Act.bind
  obtain ⟨h1, h2⟩ := hx
  split <;> rename_i h
  · rw [h1 _ _ h]
    exact hf _ _ h
  all_goals
    rw [h] at h2
    cases s with
    | ok a => cases h2
    | throw m => cases h2 <;> exact ⟨fun _ _ h => by simp at h, rfl⟩
    | ub => cases h2 <;> exact ⟨fun _ _ h => by simp at h, rfl⟩
    | outOfFuel => cases h2 <;> exact ⟨fun _ _ h => by simp at h, rfl⟩

theorem Agrees.lift {α : Type} (r : Res α) (e : Env) :
    Agrees (Act.lift r e) (r >>= fun a => .ok (a, e.names)) := by
  cases r with
  | ok a => exact Agrees.ok rfl
  | throw m => exact ⟨fun _ _ h => by simp [Act.lift] at h, rfl⟩
  | ub => exact ⟨fun _ _ h => by simp [Act.lift] at h, rfl⟩
  | outOfFuel => exact ⟨fun _ _ h => by simp [Act.lift] at h, rfl⟩

/-! ## Names that are known already -/

/-- The term of an atom. -/
def termOf (a : Named) : Term := if a.isOp then Term.mkOperation a.addr else Term.mkAtom a.addr

/-- There is a handle on an atom with this name, and the atom is the term `σ n`. -/
def Knows (w : World) (σ : String → Term) (n : String) : Prop :=
  ∃ j ∈ w.handles, ∃ a, w.atoms[j]? = some a ∧ a.name = n ∧ termOf a = σ n

theorem lastAtom_term {w : World} {hs : List Nat} {j : Nat} {a : Named}
    (hh : w.handles = hs ++ [j]) (hj : w.atoms[j]? = some a) : lastAtom w = .ok (termOf a) := by
  unfold lastAtom
  simp only [hh, List.getLast?_append, List.getLast?_singleton, Option.some_or, hj]
  rfl

theorem Knows.named {W : String → Prop} {w0 : World} {e : Env} {live : List Term}
    {σ : String → Term} {n : String} (hk : Knows w0 σ n) (ha : Acct W w0 e.world live)
    {f : World → Res World} {w1 : World} (h1 : f e.world = .ok w1) (hg : e.world.atoms <+: w1.atoms)
    {r : Nat} (h2 : w1.handles = e.world.handles ++ [r])
    (h4 : ∀ t ∈ e.world.dictH, e.world.nameOf t = some n → r = t) :
    ((do
      Act.onWorld f
      lastTerm) : Act Term) e = (.ok (σ n), { e with world := w1 }) := by
  obtain ⟨j, hj, a, h5, rfl, h6⟩ := hk
  have hr : r = j := h4 j (ha.reach.tidy.1.sub j (ha.keeps hj)) (by
    simp [World.nameOf, prefix_get ha.atoms h5])
  subst hr
  exact named_some h1 (by rw [lastAtom_term h2 (prefix_get hg (prefix_get ha.atoms h5)), h6])

theorem Knows.create {W : String → Prop} {w0 : World} {e : Env} {live : List Term}
    {σ : String → Term} {n : String} (hk : Knows w0 σ n) (ha : Acct W w0 e.world live)
    {f : World → Word} (hf : FreshAddr e.world (f e.world)) :
    ∃ w', ((do
      Act.onWorld fun w => w.create n (f w)
      lastTerm) : Act Term) e = (.ok (σ n), { e with world := w' }) := by
  obtain ⟨w1, h1, _, _, r, h2, _, _, h4⟩ := step_create ha.reach.tidy.1 (n := n) hf
  exact ⟨w1, hk.named ha h1 (create_grows h1).1 h2 h4⟩

theorem Knows.operation {M : Mach} {N : Nat} (hM : FreshBelow M N) {w0 : World} (h0 : Reach false w0)
    {s : List Char} {e : Env} {live : List Term} {seen : List Mention} {σ : String → Term}
    (hk : Knows w0 σ ("^" ++ String.ofList s)) (ha : AcctN seen w0 e.world live)
    (hok : Paired w0 seen [.op s]) (hN : e.world.dictH.length < N) :
    ∃ w', Action.theOperation M s e = (.ok (σ ("^" ++ String.ofList s)), { e with world := w' }) := by
  have hg : e.world.store.checkByName (String.ofList s) =
      e.world.store.checkByName ("^" ++ String.ofList s) := by
    rcases hok.1 s rfl with ⟨k1, k2⟩ | k
    · rw [ha.known h0 k1, ha.known h0 k2]
    · obtain ⟨k1, k2⟩ := k (String.ofList s) (by simp)
      obtain ⟨k3, k4⟩ := k ("^" ++ String.ofList s) (by simp)
      rw [ha.unknown h0 k1 k2, ha.unknown h0 k3 k4]
  obtain ⟨w1, h1, _, _, r, h2, _, _, h4⟩ :=
    step_operation ha.reach.tidy.1 (n := String.ofList s) (hM _ ha.reach hN) hg
  exact ⟨w1, hk.named ha h1 (operation_grows h1).1 h2 h4⟩

theorem making_agree {W : String → Prop} {w0 : World} {e : Env} {live args : List Term}
    {res : Res Term} (ha : Acct W w0 e.world (live ++ args))
    (hs : ∀ r, res = .ok r → (leafTerms r).Subperm (leafTermsAll args)) :
    Agrees (makingTerm args res e) (res >>= fun r => .ok (r, e.names)) := by
  cases hr : res with
  | ok r =>
    obtain ⟨w', h, _⟩ := ha.settled (hs r hr)
    have : makingTerm args (.ok r) e = (.ok r, { e with world := w' }) := by
      change Act.bind _ _ _ = _
      unfold Act.bind
      change Act.bind _ _ _ = _
      unfold Act.bind
      simp only [h]
      rfl
    rw [this]
    exact Agrees.ok rfl
  | throw m =>
    change Agrees ((.throw m, e) : Res Term × Env) _
    exact ⟨fun _ _ h => by simp at h, rfl⟩
  | ub =>
    change Agrees ((.ub, e) : Res Term × Env) _
    exact ⟨fun _ _ h => by simp at h, rfl⟩
  | outOfFuel =>
    change Agrees ((.outOfFuel, e) : Res Term × Env) _
    exact ⟨fun _ _ h => by simp at h, rfl⟩

theorem namesIn_append (ms ns : List Mention) : namesIn (ms ++ ns) = namesIn ms ++ namesIn ns := by
  simp [namesIn]

theorem forall_names {P : String → Prop} {ms ns : List Mention} (h : ∀ n ∈ namesIn (ms ++ ns), P n) :
    (∀ n ∈ namesIn ms, P n) ∧ ∀ n ∈ namesIn ns, P n := by
  rw [namesIn_append] at h
  exact ⟨fun n hn => h n (List.mem_append_left _ hn), fun n hn => h n (List.mem_append_right _ hn)⟩

mutual
/-- If all names are known, evaluation gives what the names say. -/
theorem Syn.eval_means {M : Mach} (hord : ∀ l, (M.ord l).Perm l) {N : Nat} (hM : FreshBelow M N)
    {w0 : World} (h0 : Reach false w0) {σ : String → Term} :
    ∀ (t : Syn) {e : Env} {live : List Term} {seen : List Mention},
    AcctN seen w0 e.world live → Paired w0 seen t.mentions →
    (∀ n ∈ namesIn t.mentions, Knows w0 σ n) →
    e.world.dictH.length + t.mentions.length ≤ N →
    Agrees (t.eval M e) (t.means M σ e.names)
  | .name s, e, live, seen, ha, hok, hk, hN => by
    rw [Syn.mentions, List.length_singleton] at hN
    rw [Syn.mentions] at hk
    rw [Syn.eval, Syn.means]
    obtain ⟨w', h⟩ := (hk (String.ofList s) (by simp [namesIn, Mention.known])).create ha (f := M.addr)
      (hM _ ha.reach (by omega))
    rw [h]
    exact Agrees.ok rfl
  | .op s, e, live, seen, ha, hok, hk, hN => by
    rw [Syn.mentions, List.length_singleton] at hN
    rw [Syn.mentions] at hk hok
    rw [Syn.eval, Syn.means]
    obtain ⟨w', h⟩ := (hk ("^" ++ String.ofList s) (by simp [namesIn, Mention.known])).operation hM h0 ha hok
      (by omega)
    rw [h]
    exact Agrees.ok rfl
  | .interval s, e, live, seen, ha, hok, hk, hN => by
    rw [Syn.eval, Syn.means]
    have : (do
        let x ← Action.stod M s
        let n ← Action.toInt x
        pure (Term.mkInterval n, e.names)) =
      ((Action.stod M s >>= fun a => Res.ok (a, e.names)) >>= fun x =>
        (Action.toInt x.1 >>= fun a => Res.ok (a, x.2)) >>= fun y => Res.ok (Term.mkInterval y.1, y.2)) := by
      cases Action.stod M s with
      | ok x =>
        simp only [Res.ok_bind]
        cases Action.toInt x <;> rfl
      | _ => rfl
    rw [this]
    refine Agrees.bind (Agrees.lift _ _) fun x e1 _ => ?_
    refine Agrees.bind (Agrees.lift _ _) fun n e2 _ => ?_
    exact Agrees.ok rfl
  | .var k s, e, live, seen, ha, hok, hk, hN => by
    rw [Syn.eval, Syn.means]
    exact Agrees.ok rfl
  | .stmt s c p, e, live, seen, ha, hok, hk, hN => by
    rw [Syn.mentions] at hok hN hk
    rw [List.length_append] at hN
    rw [Syn.eval, Syn.means]
    obtain ⟨hok1, hok2⟩ := hok.append
    obtain ⟨hk1, hk2⟩ := forall_names hk
    refine Agrees.bind (Syn.eval_means hord hM h0 s ha hok1 hk1 (by omega)) fun s' e1 h1 => ?_
    obtain ⟨a1, d1⟩ := Syn.eval_acct hord hM h0 s h1 ha hok1 (by omega)
    refine Agrees.bind (Syn.eval_means hord hM h0 p a1 hok2 hk2 (by omega)) fun p' e2 h2 => ?_
    obtain ⟨a2, d2⟩ := Syn.eval_acct hord hM h0 p h2 a1 hok2 (by omega)
    rw [List.append_assoc, List.append_assoc, List.singleton_append] at a2
    exact making_agree a2 fun r h3 =>
      newStatement_subperm hord (Syn.eval_names M s h1).1 (Syn.eval_names M p h2).1 h3
  | .comp c ts, e, live, seen, ha, hok, hk, hN => by
    rw [Syn.mentions] at hok hN hk
    rw [Syn.eval, Syn.means]
    refine Agrees.bind (Syn.evalAll_means hord hM h0 ts ha hok hk hN) fun ts' e1 h1 => ?_
    obtain ⟨a1, d1⟩ := Syn.evalAll_acct hord hM h0 ts h1 ha hok hN
    exact making_agree a1 fun r h3 => mkComp_subperm hord (Syn.evalAll_names M ts h1).1 h3
  | .call f ts, e, live, seen, ha, hok, hk, hN => by
    rw [Syn.mentions] at hok hN hk
    rw [List.length_append] at hN
    rw [Syn.eval, Syn.means]
    obtain ⟨hok1, hok2⟩ := hok.append
    obtain ⟨hk1, hk2⟩ := forall_names hk
    refine Agrees.bind (Syn.eval_means hord hM h0 f ha hok1 hk1 (by omega)) fun f' e1 h1 => ?_
    obtain ⟨a1, d1⟩ := Syn.eval_acct hord hM h0 f h1 ha hok1 (by omega)
    refine Agrees.bind (Syn.evalAll_means hord hM h0 ts a1 hok2 hk2 (by omega)) fun ts' e2 h2 => ?_
    obtain ⟨a2, d2⟩ := Syn.evalAll_acct hord hM h0 ts h2 a1 hok2 (by omega)
    rw [List.append_assoc, List.append_assoc, List.singleton_append] at a2
    exact making_agree a2 fun r h3 =>
      newOperation_subperm hord (Syn.eval_names M f h1).1 (Syn.evalAll_names M ts h2).1 h3
  | .callName s ts, e, live, seen, ha, hok, hk, hN => by
    rw [Syn.mentions] at hok hN hk
    rw [List.length_append, List.length_singleton] at hN
    rw [Syn.eval, Syn.means]
    obtain ⟨hok1, hok2⟩ := hok.append
    obtain ⟨hk1, hk2⟩ := forall_names hk
    refine Agrees.bind (Syn.evalAll_means hord hM h0 ts ha hok1 hk1 (by omega)) fun ts' e1 h1 => ?_
    obtain ⟨a1, d1⟩ := Syn.evalAll_acct hord hM h0 ts h1 ha hok1 (by omega)
    obtain ⟨w', h2⟩ := (hk2 ("^" ++ String.ofList s) (by simp [namesIn, Mention.known])).operation hM h0 a1 hok2
      (by omega)
    rw [Act.bind_of_ok h2]
    obtain ⟨a2, d2⟩ := operation_acct hM h0 h2 a1 hok2 (by omega)
    rw [List.append_assoc, List.append_assoc] at a2
    exact making_agree a2.front fun r h3 =>
      newOperation_subperm hord (named_ok h2).1.good (Syn.evalAll_names M ts h1).1 h3
/-- The same for lists. -/
theorem Syn.evalAll_means {M : Mach} (hord : ∀ l, (M.ord l).Perm l) {N : Nat} (hM : FreshBelow M N)
    {w0 : World} (h0 : Reach false w0) {σ : String → Term} :
    ∀ (ts : List Syn) {e : Env} {live : List Term} {seen : List Mention},
    AcctN seen w0 e.world live → Paired w0 seen (Syn.mentionsAll ts) →
    (∀ n ∈ namesIn (Syn.mentionsAll ts), Knows w0 σ n) →
    e.world.dictH.length + (Syn.mentionsAll ts).length ≤ N →
    Agrees (Syn.evalAll M ts e) (Syn.meansAll M σ ts e.names)
  | [], e, live, seen, ha, hok, hk, hN => by
    rw [Syn.evalAll, Syn.meansAll]
    exact Agrees.ok rfl
  | t :: ts, e, live, seen, ha, hok, hk, hN => by
    rw [Syn.mentionsAll] at hok hN hk
    rw [List.length_append] at hN
    rw [Syn.evalAll, Syn.meansAll]
    obtain ⟨hok1, hok2⟩ := hok.append
    obtain ⟨hk1, hk2⟩ := forall_names hk
    refine Agrees.bind (Syn.eval_means hord hM h0 t ha hok1 hk1 (by omega)) fun r e1 h1 => ?_
    obtain ⟨a1, d1⟩ := Syn.eval_acct hord hM h0 t h1 ha hok1 (by omega)
    refine Agrees.bind (Syn.evalAll_means hord hM h0 ts a1 hok2 hk2 (by omega)) fun us e2 h2 => ?_
    exact Agrees.ok rfl
end

/-! ## The first time -/

/-- Only new atoms come, and none that has gone comes back. -/
def Later (w w' : World) : Prop :=
  w.atoms <+: w'.atoms ∧ ∀ j ∈ w'.dictH, j ∈ w.dictH ∨ w.atoms.length ≤ j

theorem Later.refl (w : World) : Later w w := ⟨List.prefix_rfl, fun _ h => .inl h⟩

theorem Later.trans {w w1 w2 : World} (h1 : Later w w1) (h2 : Later w1 w2) : Later w w2 := by
  refine ⟨h1.1.trans h2.1, fun j hj => ?_⟩
  rcases h2.2 j hj with h | h
  · exact h1.2 j h
  · exact .inr (h1.1.length_le.trans h)

theorem later_lookup {w w' : World} {n : String} (h : w.lookup n = .ok w') : Later w w' := by
  unfold World.lookup at h
  simp only at h
  split at h
  · cases h
  · split at h
    · simp only [Res.ok.injEq] at h
      rw [← h]
      exact ⟨List.prefix_rfl, fun _ h => .inl h⟩
    · cases h

theorem later_alloc (w : World) (n : String) (a : Word) (b : Bool) : Later w (w.alloc n a b) := by
  refine ⟨by simp [World.alloc], fun j hj => ?_⟩
  simp only [World.alloc, List.mem_append, List.mem_singleton] at hj
  rcases hj with hj | rfl
  · exact .inl hj
  · exact .inr (Nat.le_refl _)

theorem later_create {w w' : World} {n : String} {a : Word} (h : w.create n a = .ok w') : Later w w' := by
  unfold World.create at h
  split at h
  · exact later_lookup h
  · cases h; exact later_alloc ..

theorem later_operation {w w' : World} {n : String} {a : Word} (h : w.operation n a = .ok w') :
    Later w w' := by
  unfold World.operation at h
  split at h
  · exact later_lookup h
  · cases h; exact later_alloc ..

theorem later_removeF : ∀ (f : Nat) {w w' : World} {k : Key}, w.removeF f k = .ok w' →
    w'.atoms = w.atoms ∧ ∀ j ∈ w'.dictH, j ∈ w.dictH
  | 0, w, w', k, h => by cases h
  | f + 1, w, w', k, h => by
    unfold World.removeF at h
    split at h
    · cases h; exact ⟨rfl, fun _ h => h⟩
    · cases h; exact ⟨rfl, fun _ h => h⟩
    · cases h; exact ⟨rfl, fun _ h => h⟩
    · split at h
      · rename_i s x _ _
        dsimp only at h
        have fin : ∀ {v : World}, (v.atoms = w.atoms ∧ ∀ j ∈ v.dictH, j ∈ w.dictH) →
            (if x ∈ v.dictH then Res.ok { v with dictH := v.dictH.erase x, store := v.store.finishRemove k }
              else .ub) = .ok w' → w'.atoms = w.atoms ∧ ∀ j ∈ w'.dictH, j ∈ w.dictH := by
          intro v hv h
          split at h
          · cases h
            exact ⟨hv.1, fun j hj => hv.2 j (List.mem_of_mem_erase hj)⟩
          · cases h
        split at h
        · rw [Res.bind_eq_ok] at h
          obtain ⟨v, h1, h2⟩ := h
          have h3 := later_removeF f h1
          exact fin (v := v) h3 h2
        · rw [Res.bind_eq_ok] at h
          obtain ⟨v, h1, h2⟩ := h
          obtain rfl := Res.ok.inj h1
          exact fin (v := { w with store := s }) ⟨rfl, fun _ h => h⟩ h2
      · cases h

theorem later_dropAddr {a : Word} {w w' : World} (h : dropAddr a w = .ok w') : Later w w' := by
  unfold dropAddr at h
  split at h
  · unfold World.drop at h
    split at h
    · dsimp only at h
      split at h
      · rw [Res.bind_eq_ok] at h
        obtain ⟨v, h1, h2⟩ := h
        obtain ⟨k1, k2⟩ := later_removeF _ h1
        cases h2
        exact ⟨by rw [k1], fun j hj => .inl (k2 j hj)⟩
      · cases h; exact ⟨List.prefix_rfl, fun _ h => .inl h⟩
    · cases h
  · cases h; exact .refl _

theorem later_dropAll : ∀ {D : List Word} {w w' : World},
    D.foldlM (fun w a => dropAddr a w) w = .ok w' → Later w w'
  | [], w, w', h => by cases h; exact .refl _
  | a :: D, w, w', h => by
    rw [List.foldlM_cons, Res.bind_eq_ok] at h
    obtain ⟨v, h1, h2⟩ := h
    exact (later_dropAddr h1).trans (later_dropAll h2)

theorem later_making {args : List Term} {res : Res Term} {r : Term} {e e' : Env}
    (h : makingTerm args res e = (.ok r, e')) : Later e.world e'.world := by
  obtain ⟨t', e1, h1, h⟩ := Act.bind_ok h
  obtain ⟨u, e2, h2, h⟩ := Act.bind_ok h
  obtain ⟨rfl, rfl⟩ := Act.pure_ok h
  obtain ⟨_, rfl⟩ := Act.lift_ok h1
  exact later_dropAll (onWorld_ok h2).1

mutual
theorem Syn.eval_later {M : Mach} : ∀ (t : Syn) {e e' : Env} {r : Term},
    t.eval M e = (.ok r, e') → Later e.world e'.world
  | .name s, e, e', r, h => later_create (named_ok h).2.2.2.1
  | .op s, e, e', r, h => later_operation (named_ok h).2.2.2.1
  | .interval s, e, e', r, h => by
    rw [Syn.eval] at h
    obtain ⟨x, e1, h1, h⟩ := Act.bind_ok h
    obtain ⟨n, e2, h2, h⟩ := Act.bind_ok h
    rw [← (Act.pure_ok h).2, ← (Act.lift_ok h2).2, ← (Act.lift_ok h1).2]
    exact .refl _
  | .var k s, e, e', r, h => by
    rw [Syn.eval] at h
    obtain ⟨i, e1, h1, h⟩ := Act.bind_ok h
    rw [← (Act.pure_ok h).2]
    simp only [Action.number, Prod.mk.injEq] at h1
    rw [← h1.2]
    exact .refl _
  | .stmt s c p, e, e', r, h => by
    rw [Syn.eval] at h
    obtain ⟨s', e1, h1, h⟩ := Act.bind_ok h
    obtain ⟨p', e2, h2, h⟩ := Act.bind_ok h
    exact ((Syn.eval_later s h1).trans (Syn.eval_later p h2)).trans (later_making h)
  | .comp c ts, e, e', r, h => by
    rw [Syn.eval] at h
    obtain ⟨ts', e1, h1, h⟩ := Act.bind_ok h
    exact (Syn.evalAll_later ts h1).trans (later_making h)
  | .call f ts, e, e', r, h => by
    rw [Syn.eval] at h
    obtain ⟨f', e1, h1, h⟩ := Act.bind_ok h
    obtain ⟨ts', e2, h2, h⟩ := Act.bind_ok h
    exact ((Syn.eval_later f h1).trans (Syn.evalAll_later ts h2)).trans (later_making h)
  | .callName s ts, e, e', r, h => by
    rw [Syn.eval] at h
    obtain ⟨ts', e1, h1, h⟩ := Act.bind_ok h
    obtain ⟨f', e2, h2, h⟩ := Act.bind_ok h
    exact ((Syn.evalAll_later ts h1).trans (later_operation (named_ok h2).2.2.2.1)).trans (later_making h)
/-- The same for lists. -/
theorem Syn.evalAll_later {M : Mach} : ∀ (ts : List Syn) {e e' : Env} {rs : List Term},
    Syn.evalAll M ts e = (.ok rs, e') → Later e.world e'.world
  | [], e, e', rs, h => by
    rw [Syn.evalAll] at h
    rw [← (Act.pure_ok h).2]
    exact .refl _
  | t :: ts, e, e', rs, h => by
    rw [Syn.evalAll] at h
    obtain ⟨r, e1, h1, h⟩ := Act.bind_ok h
    obtain ⟨us, e2, h2, h⟩ := Act.bind_ok h
    rw [← (Act.pure_ok h).2]
    exact (Syn.eval_later t h1).trans (Syn.evalAll_later ts h2)
end

/-- An atom with this name that was alive in `w0` or came later; `A` has all atoms. -/
def Met (w0 : World) (A : List Named) (n : String) (a : Named) : Prop :=
  a.name = n ∧ ∃ j, A[j]? = some a ∧ (j ∈ w0.dictH ∨ w0.atoms.length ≤ j)

theorem met_last {w0 w w' : World} {A : List Named} (ht : World.Tidy w') (hl : Later w0 w')
    (hA : w'.atoms <+: A) {r : Nat} (h2 : w'.handles = w.handles ++ [r]) {n : String}
    (h3 : w'.nameOf r = some n) {t : Term} (h : lastAtom w' = .ok t) :
    ∃ a, Met w0 A n a ∧ termOf a = t := by
  obtain ⟨a, ha, hn⟩ := nameOf_some h3
  refine ⟨a, ⟨hn, r, prefix_get hA ha, hl.2 r (ht.sub r (by rw [h2]; simp))⟩, ?_⟩
  rw [lastAtom_term h2 ha] at h
  exact Res.ok.inj h

theorem op_last {M : Mach} {N : Nat} (hM : FreshBelow M N) {w0 : World} (h0 : Reach false w0)
    {s : List Char} {e e' : Env} {r : Term} {live : List Term} {seen : List Mention} {A : List Named}
    (h : Action.theOperation M s e = (.ok r, e')) (ha : AcctN seen w0 e.world live)
    (hok : Paired w0 seen [.op s]) (hN : e.world.dictH.length < N) (hl : Later w0 e'.world)
    (hA : e'.world.atoms <+: A) : ∃ a, Met w0 A ("^" ++ String.ofList s) a ∧ termOf a = r := by
  obtain ⟨_, _, _, h1, h2⟩ := named_ok h
  have hg : e.world.store.checkByName (String.ofList s) =
      e.world.store.checkByName ("^" ++ String.ofList s) := by
    rcases hok.1 s rfl with ⟨k1, k2⟩ | k
    · rw [ha.known h0 k1, ha.known h0 k2]
    · obtain ⟨k1, k2⟩ := k (String.ofList s) (by simp)
      obtain ⟨k3, k4⟩ := k ("^" ++ String.ofList s) (by simp)
      rw [ha.unknown h0 k1 k2, ha.unknown h0 k3 k4]
  obtain ⟨w1, k1, k2, _, j, k3, k4, _⟩ :=
    step_operation ha.reach.tidy.1 (n := String.ofList s) (hM _ ha.reach hN) hg
  rw [h1] at k1; cases k1
  exact met_last k2 hl hA k3 k4 h2

mutual
/-- If each name was met as one term only, evaluation gives what the names say, and each name was
met. -/
theorem Syn.eval_first {M : Mach} (hord : ∀ l, (M.ord l).Perm l) {N : Nat} (hM : FreshBelow M N)
    {w0 : World} (h0 : Reach false w0) {σ : String → Term} {A : List Named} :
    ∀ (t : Syn) {e e' : Env} {r : Term} {live : List Term} {seen : List Mention},
    t.eval M e = (.ok r, e') → AcctN seen w0 e.world live → Paired w0 seen t.mentions →
    e.world.dictH.length + t.mentions.length ≤ N → Later w0 e.world → e'.world.atoms <+: A →
    (∀ n ∈ namesIn t.mentions, ∀ a, Met w0 A n a → termOf a = σ n) →
    t.means M σ e.names = .ok (r, e'.names) ∧ ∀ n ∈ namesIn t.mentions, ∃ a, Met w0 A n a
  | .name s, e, e', r, live, seen, h, ha, hok, hN, hl, hA, hσ => by
    rw [Syn.mentions, List.length_singleton] at hN
    rw [Syn.mentions] at hσ ⊢
    have hl' := hl.trans (Syn.eval_later _ h)
    obtain ⟨_, h3, _, h1, h2⟩ := named_ok h
    obtain ⟨w1, k1, k2, _, j, k3, k4, _⟩ :=
      step_create ha.reach.tidy.1 (n := String.ofList s) (hM _ ha.reach (by omega))
    rw [h1] at k1; cases k1
    obtain ⟨a, m1, m2⟩ := met_last k2 hl' hA k3 k4 h2
    have := hσ (String.ofList s) (by simp [namesIn, Mention.known]) a m1
    rw [Syn.means, ← this, m2, h3]
    exact ⟨rfl, by simpa [namesIn, Mention.known] using ⟨a, m1⟩⟩
  | .op s, e, e', r, live, seen, h, ha, hok, hN, hl, hA, hσ => by
    rw [Syn.mentions, List.length_singleton] at hN
    rw [Syn.mentions] at hσ hok ⊢
    have hl' := hl.trans (Syn.eval_later _ h)
    obtain ⟨a, m1, m2⟩ := op_last hM h0 h ha hok (by omega) hl' hA
    have := hσ ("^" ++ String.ofList s) (by simp [namesIn, Mention.known]) a m1
    rw [Syn.means, ← this, m2, (named_ok h).2.1]
    exact ⟨rfl, by simpa [namesIn, Mention.known] using ⟨a, m1⟩⟩
  | .interval s, e, e', r, live, seen, h, ha, hok, hN, hl, hA, hσ => by
    rw [Syn.eval] at h
    obtain ⟨x, e1, h1, h⟩ := Act.bind_ok h
    obtain ⟨n, e2, h2, h⟩ := Act.bind_ok h
    obtain ⟨rfl, rfl⟩ := Act.pure_ok h
    obtain ⟨k1, rfl⟩ := Act.lift_ok h1
    obtain ⟨k2, rfl⟩ := Act.lift_ok h2
    rw [Syn.means, k1, Res.ok_bind, k2, Syn.mentions]
    exact ⟨rfl, by simp [namesIn, Mention.known]⟩
  | .var k s, e, e', r, live, seen, h, ha, hok, hN, hl, hA, hσ => by
    rw [Syn.eval] at h
    obtain ⟨i, e1, h1, h⟩ := Act.bind_ok h
    obtain ⟨rfl, rfl⟩ := Act.pure_ok h
    simp only [Action.number, Prod.mk.injEq, Res.ok.injEq] at h1
    rw [Syn.means, ← h1.2, ← h1.1, Syn.mentions]
    exact ⟨rfl, by simp [namesIn]⟩
  | .stmt s c p, e, e', r, live, seen, h, ha, hok, hN, hl, hA, hσ => by
    rw [Syn.mentions] at hok hN hσ ⊢
    rw [List.length_append] at hN
    rw [Syn.eval] at h
    obtain ⟨s', e1, h1, h⟩ := Act.bind_ok h
    obtain ⟨p', e2, h2, h⟩ := Act.bind_ok h
    obtain ⟨hok1, hok2⟩ := hok.append
    obtain ⟨hσ1, hσ2⟩ := forall_names hσ
    obtain ⟨a1, d1⟩ := Syn.eval_acct hord hM h0 s h1 ha hok1 (by omega)
    have hl1 := Syn.eval_later s h1
    have hA2 := (later_making h).1.trans hA
    obtain ⟨q1, m1⟩ := Syn.eval_first hord hM h0 s h1 ha hok1 (by omega) hl
      ((Syn.eval_later p h2).1.trans hA2) hσ1
    obtain ⟨q2, m2⟩ := Syn.eval_first hord hM h0 p h2 a1 hok2 (by omega) (hl.trans hl1) hA2 hσ2
    obtain ⟨h3, h4, _⟩ := makingTerm_ok h
    refine ⟨?_, fun n hn => ?_⟩
    · rw [Syn.means, q1, Res.ok_bind]
      dsimp only
      rw [q2, Res.ok_bind]
      dsimp only
      rw [h3, h4]
      rfl
    · rw [namesIn_append, List.mem_append] at hn
      exact hn.elim (m1 n) (m2 n)
  | .comp c ts, e, e', r, live, seen, h, ha, hok, hN, hl, hA, hσ => by
    rw [Syn.mentions] at hok hN hσ ⊢
    rw [Syn.eval] at h
    obtain ⟨ts', e1, h1, h⟩ := Act.bind_ok h
    obtain ⟨q1, m1⟩ := Syn.evalAll_first hord hM h0 ts h1 ha hok hN hl ((later_making h).1.trans hA) hσ
    obtain ⟨h3, h4, _⟩ := makingTerm_ok h
    refine ⟨?_, m1⟩
    rw [Syn.means, q1, Res.ok_bind]
    dsimp only
    rw [h3, h4]
    rfl
  | .call f ts, e, e', r, live, seen, h, ha, hok, hN, hl, hA, hσ => by
    rw [Syn.mentions] at hok hN hσ ⊢
    rw [List.length_append] at hN
    rw [Syn.eval] at h
    obtain ⟨f', e1, h1, h⟩ := Act.bind_ok h
    obtain ⟨ts', e2, h2, h⟩ := Act.bind_ok h
    obtain ⟨hok1, hok2⟩ := hok.append
    obtain ⟨hσ1, hσ2⟩ := forall_names hσ
    obtain ⟨a1, d1⟩ := Syn.eval_acct hord hM h0 f h1 ha hok1 (by omega)
    have hl1 := Syn.eval_later f h1
    have hA2 := (later_making h).1.trans hA
    obtain ⟨q1, m1⟩ := Syn.eval_first hord hM h0 f h1 ha hok1 (by omega) hl
      ((Syn.evalAll_later ts h2).1.trans hA2) hσ1
    obtain ⟨q2, m2⟩ := Syn.evalAll_first hord hM h0 ts h2 a1 hok2 (by omega) (hl.trans hl1) hA2 hσ2
    obtain ⟨h3, h4, _⟩ := makingTerm_ok h
    refine ⟨?_, fun n hn => ?_⟩
    · rw [Syn.means, q1, Res.ok_bind]
      dsimp only
      rw [q2, Res.ok_bind]
      dsimp only
      rw [h3, h4]
      rfl
    · rw [namesIn_append, List.mem_append] at hn
      exact hn.elim (m1 n) (m2 n)
  | .callName s ts, e, e', r, live, seen, h, ha, hok, hN, hl, hA, hσ => by
    rw [Syn.mentions] at hok hN hσ ⊢
    rw [List.length_append, List.length_singleton] at hN
    rw [Syn.eval] at h
    obtain ⟨ts', e1, h1, h⟩ := Act.bind_ok h
    obtain ⟨f', e2, h2, h⟩ := Act.bind_ok h
    obtain ⟨hok1, hok2⟩ := hok.append
    obtain ⟨hσ1, hσ2⟩ := forall_names hσ
    obtain ⟨a1, d1⟩ := Syn.evalAll_acct hord hM h0 ts h1 ha hok1 (by omega)
    have hl1 := hl.trans (Syn.evalAll_later ts h1)
    have hl2 := later_operation (named_ok h2).2.2.2.1
    have hA2 := (later_making h).1.trans hA
    obtain ⟨q1, m1⟩ := Syn.evalAll_first hord hM h0 ts h1 ha hok1 (by omega) hl (hl2.1.trans hA2) hσ1
    obtain ⟨a, m2, m3⟩ := op_last hM h0 h2 a1 hok2 (by omega) (hl1.trans hl2) hA2
    have := hσ2 ("^" ++ String.ofList s) (by simp [namesIn, Mention.known]) a m2
    obtain ⟨h3, h4, _⟩ := makingTerm_ok h
    refine ⟨?_, fun n hn => ?_⟩
    · rw [Syn.means, q1, Res.ok_bind]
      dsimp only
      rw [← this, m3, h3, h4, (named_ok h2).2.1]
      rfl
    · rw [namesIn_append, List.mem_append] at hn
      rcases hn with hn | hn
      · exact m1 n hn
      · simp only [namesIn, List.flatMap_cons, List.flatMap_nil, Mention.known, List.append_nil,
          List.mem_singleton] at hn
        exact ⟨a, hn ▸ m2⟩
/-- The same for lists. -/
theorem Syn.evalAll_first {M : Mach} (hord : ∀ l, (M.ord l).Perm l) {N : Nat} (hM : FreshBelow M N)
    {w0 : World} (h0 : Reach false w0) {σ : String → Term} {A : List Named} :
    ∀ (ts : List Syn) {e e' : Env} {rs : List Term} {live : List Term} {seen : List Mention},
    Syn.evalAll M ts e = (.ok rs, e') → AcctN seen w0 e.world live →
    Paired w0 seen (Syn.mentionsAll ts) →
    e.world.dictH.length + (Syn.mentionsAll ts).length ≤ N → Later w0 e.world → e'.world.atoms <+: A →
    (∀ n ∈ namesIn (Syn.mentionsAll ts), ∀ a, Met w0 A n a → termOf a = σ n) →
    Syn.meansAll M σ ts e.names = .ok (rs, e'.names) ∧
      ∀ n ∈ namesIn (Syn.mentionsAll ts), ∃ a, Met w0 A n a
  | [], e, e', rs, live, seen, h, ha, hok, hN, hl, hA, hσ => by
    rw [Syn.evalAll] at h
    obtain ⟨rfl, rfl⟩ := Act.pure_ok h
    rw [Syn.meansAll, Syn.mentionsAll]
    exact ⟨rfl, by simp [namesIn]⟩
  | t :: ts, e, e', rs, live, seen, h, ha, hok, hN, hl, hA, hσ => by
    rw [Syn.mentionsAll] at hok hN hσ ⊢
    rw [List.length_append] at hN
    rw [Syn.evalAll] at h
    obtain ⟨r, e1, h1, h⟩ := Act.bind_ok h
    obtain ⟨us, e2, h2, h⟩ := Act.bind_ok h
    obtain ⟨rfl, rfl⟩ := Act.pure_ok h
    obtain ⟨hok1, hok2⟩ := hok.append
    obtain ⟨hσ1, hσ2⟩ := forall_names hσ
    obtain ⟨a1, d1⟩ := Syn.eval_acct hord hM h0 t h1 ha hok1 (by omega)
    obtain ⟨q1, m1⟩ := Syn.eval_first hord hM h0 t h1 ha hok1 (by omega) hl
      ((Syn.evalAll_later ts h2).1.trans hA) hσ1
    obtain ⟨q2, m2⟩ := Syn.evalAll_first hord hM h0 ts h2 a1 hok2 (by omega)
      (hl.trans (Syn.eval_later t h1)) hA hσ2
    refine ⟨?_, fun n hn => ?_⟩
    · rw [Syn.meansAll, q1, Res.ok_bind]
      dsimp only
      rw [q2]
      rfl
    · rw [namesIn_append, List.mem_append] at hn
      exact hn.elim (m1 n) (m2 n)
end

/-! ## Tasks -/

/-- The same kind of outcome, with related results or the same exception. -/
def RelRes {α β : Type} (R : α → β → Prop) : Res α → Res β → Prop
  | .ok a, .ok b => R a b
  | .throw m, .throw m' => m = m'
  | .ub, .ub => True
  | .outOfFuel, .outOfFuel => True
  | _, _ => False

section
variable {α β γ δ : Type} {R : α → β → Prop} {S : γ → δ → Prop}

theorem RelRes.bind {x : Act α} {y : Act β} {f : α → Act γ} {g : β → Act δ} {e d : Env}
    (h : RelRes R (x e).1 (y d).1)
    (hf : ∀ a b e' d', x e = (.ok a, e') → y d = (.ok b, d') → R a b → RelRes S (f a e').1 (g b d').1) :
    RelRes S ((x >>= f) e).1 ((y >>= g) d).1 := by
  change RelRes S (Act.bind x f e).1 (Act.bind y g d).1
  unfold Act.bind
  rcases hx : x e with ⟨r, e'⟩
  rcases hy : y d with ⟨s, d'⟩
  rw [hx, hy] at h
  cases r <;> cases s <;> first | exact h | exact hf _ _ _ _ hx hy h | exact h.elim

theorem RelRes.of_eq {r s : Res α} (h : r = s) : RelRes (fun a b => a = b) r s := by
  subst h
  cases r <;> trivial

theorem RelRes.ok_left {r : Res α} {s : Res β} (h : RelRes R r s) {a : α} (hr : r = .ok a) :
    ∃ b, s = .ok b ∧ R a b := by
  subst hr
  cases s with
  | ok b => exact ⟨b, rfl, h⟩
  | _ => exact h.elim

end

theorem numbers_const (M : Mach) (ss : List (List Char)) (e d : Env) :
    (numbers M ss e).1 = (numbers M ss d).1 := by
  induction ss with
  | nil => rfl
  | cons s ss ih =>
    simp only [numbers]
    change (Act.bind _ _ e).1 = (Act.bind _ _ d).1
    unfold Act.bind Act.lift
    cases Action.stod M s with
    | ok x =>
      dsimp only
      change (Act.bind _ _ e).1 = (Act.bind _ _ d).1
      unfold Act.bind
      rcases h1 : numbers M ss e with ⟨r, e'⟩
      rcases h2 : numbers M ss d with ⟨r', d'⟩
      rw [h1, h2] at ih
      dsimp only at ih
      subst ih
      cases r <;> rfl
    | _ => rfl

theorem Mark.eval_const (M : Mach) (m : Mark) (e d : Env) : (m.eval M e).1 = (m.eval M d).1 := by
  cases m with
  | tense n => rfl
  | time s =>
    simp only [Mark.eval]
    change (Act.bind _ _ e).1 = (Act.bind _ _ d).1
    unfold Act.bind Act.lift
    cases Action.stod M s with
    | ok x =>
      dsimp only
      change (Act.bind _ _ e).1 = (Act.bind _ _ d).1
      unfold Act.bind
      cases Action.toInt x <;> rfl
    | _ => rfl
  | truth ss =>
    simp only [Mark.eval]
    change (Act.bind _ _ e).1 = (Act.bind _ _ d).1
    unfold Act.bind
    have := numbers_const M ss e d
    rcases h1 : numbers M ss e with ⟨r, e'⟩
    rcases h2 : numbers M ss d with ⟨r', d'⟩
    rw [h1, h2] at this
    dsimp only at this
    subst this
    cases r with
    | ok xs => simp only [truth_eq, Option.getD_some]; rfl
    | _ => rfl

theorem evalMarks_const (M : Mach) (ms : List Mark) (e d : Env) :
    (evalMarks M ms e).1 = (evalMarks M ms d).1 := by
  induction ms generalizing e d with
  | nil => rfl
  | cons m ms ih =>
    simp only [evalMarks]
    change (Act.bind _ _ e).1 = (Act.bind _ _ d).1
    unfold Act.bind
    have := m.eval_const M e d
    rcases h1 : m.eval M e with ⟨r, e'⟩
    rcases h2 : m.eval M d with ⟨r', d'⟩
    rw [h1, h2] at this
    dsimp only at this
    subst this
    cases r with
    | ok v =>
      dsimp only
      change (Act.bind _ _ e').1 = (Act.bind _ _ d').1
      unfold Act.bind
      have := ih e' d'
      rcases h1 : evalMarks M ms e' with ⟨r, e'⟩
      rcases h2 : evalMarks M ms d' with ⟨r', d'⟩
      rw [h1, h2] at this
      dsimp only at this
      subst this
      cases r <;> rfl
    | _ => rfl

/-- The same sentence, the stamp aside. -/
def SameSentence (s s' : Sentence ℚ) : Prop :=
  s.term = s'.term ∧ s.punct = s'.punct ∧ s.truth = s'.truth

theorem finishBudget_same (M : Mach) (b : Budget) {s s' : Sentence ℚ} (h : SameSentence s s') :
    Action.finishBudget M b s = Action.finishBudget M b s' := by
  obtain ⟨_, h1, h2⟩ := h
  unfold Action.finishBudget
  rw [h1, h2]

theorem evalSentence_same {M : Mach} {p : Punct} {t : Syn} {ms : List Mark} {e d : Env}
    (ht : (t.eval M e).1 = (t.eval M d).1) :
    RelRes (fun v v' => ∃ s s', v = .sentence s ∧ v' = .sentence s' ∧ SameSentence s s' ∧
      ∃ vs, s.truth = truthFor M s.punct vs)
      (evalSentence M p t ms e).1 (evalSentence M p t ms d).1 := by
  unfold evalSentence
  refine RelRes.bind (RelRes.of_eq ht) fun r _ e1 d1 _ _ hr => ?_
  subst hr
  refine RelRes.bind (RelRes.of_eq (evalMarks_const M ms e1 d1)) fun vs _ e2 d2 h2 _ hr => ?_
  subst hr
  have hv := evalMarks_all M h2
  obtain ⟨v, e3, h3⟩ := (sentenceAction_ends (P := False) (Q := fun _ => False) (F := False) M p r hv e2).ok
  obtain ⟨v', d3, h4⟩ := (sentenceAction_ends (P := False) (Q := fun _ => False) (F := False) M p r hv d2).ok
  obtain ⟨s, rfl, k1, k2, k3, _⟩ := sentenceAction_ok hv h3
  obtain ⟨s', rfl, l1, l2, l3, _⟩ := sentenceAction_ok hv h4
  rw [h3, h4]
  exact ⟨s, s', rfl, rfl, ⟨by rw [k1, l1], by rw [k2, l2], by rw [k3, l3]⟩, vs, by rw [k3, k2]⟩

/-- The same task, the stamp aside. -/
def SameTask (k k' : Task) : Prop := k.budget = k'.budget ∧ SameSentence k.sentence k'.sentence

theorem evalTask_same {line : List WChar} {as : List Ast} (hn : IsNarsese line as)
    {b : Option (List (List Char))} {p : Punct} {t : Syn} {ms : List Mark}
    (hp : partAll as = some [.task b p t ms]) {M : Mach} {bad bad' : Act Val} {e d : Env}
    (ht : (t.eval M e).1 = (t.eval M d).1) :
    RelRes SameTask (evalTask M bad as e).1 (evalTask M bad' as d).1 := by
  obtain ⟨b', p', t', ms', h1, h2⟩ := evalTask_part hn
  rw [hp] at h1
  simp only [Option.some.injEq, List.cons.injEq, Part.task.injEq, and_true] at h1
  obtain ⟨rfl, rfl, rfl, rfl⟩ := h1
  rw [h2, h2]
  have fin : ∀ {bu : Budget} {e1 d1 : Env} {s s' : Sentence ℚ}, SameSentence s s' →
      RelRes (fun v v' => ∃ k k', v = .task k ∧ v' = .task k' ∧ SameTask k k')
        ((do
          let b ← Act.lift (Action.finishBudget M bu s)
          pure (.task ⟨b, s⟩) : Act Val) e1).1
        ((do
          let b ← Act.lift (Action.finishBudget M bu s')
          pure (.task ⟨b, s'⟩) : Act Val) d1).1 := by
    intro bu e1 d1 s s' hs
    refine RelRes.bind (RelRes.of_eq (finishBudget_same M bu hs)) fun x _ e2 d2 _ _ hx => ?_
    subst hx
    exact ⟨_, _, rfl, rfl, rfl, hs⟩
  refine RelRes.bind (R := fun v v' => ∃ k k', v = .task k ∧ v' = .task k' ∧ SameTask k k') ?_
    fun v v' e1 d1 _ _ ⟨k, k', h3, h4, h5⟩ => by subst h3 h4; exact h5
  cases b with
  | none =>
    simp only [evalTaskPart]
    refine RelRes.bind (evalSentence_same ht) fun v v' e1 d1 _ _ hv => ?_
    obtain ⟨s, s', rfl, rfl, hs, _⟩ := hv
    simp only [Action.task, Option.getD_some]
    exact fin hs
  | some ss =>
    simp only [evalTaskPart]
    refine RelRes.bind (RelRes.of_eq (numbers_const M ss e d)) fun xs _ e1 d1 h3 h4 hx => ?_
    subst hx
    obtain rfl := (numbers_env M h3).1
    obtain rfl := (numbers_env M h4).1
    simp only [budget_eq, Option.getD_some, pure_bind]
    refine RelRes.bind (evalSentence_same ht) fun v v' e2 d2 _ _ hv => ?_
    obtain ⟨s, s', rfl, rfl, hs, _⟩ := hv
    simp only [Action.task, Option.getD_some]
    exact fin hs

end Cnars.Parser
