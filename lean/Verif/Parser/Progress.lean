import Verif.Narsese.Mingled
import Verif.Parser.Built
import Verif.Parser.Numerals
import Verif.Props.Compounds
import Verif.Props.Handles

/-!
# When evaluation gives no result
-/

namespace Cnars.Parser
open Cnars Cnars.Props

/-- The possible ends of a computation: a result, `std::stod` throws although `P`, undefined
behaviour in a state with `Q`, or no end although `F`. -/
def Ends {α : Type} (P : Prop) (Q : Env → Prop) (F : Prop) (r : Res α × Env) : Prop :=
  match r.1 with
  | .ok _ => True
  | .throw m => m = "stod" ∧ P
  | .ub => Q r.2
  | .outOfFuel => F

section
variable {α β : Type} {P P' F F' : Prop} {Q Q' : Env → Prop}

theorem Ends.imp {r : Res α × Env} (h : Ends P Q F r)
    (hP : P → P') (hQ : ∀ e, Q e → Q' e) (hF : F → F') : Ends P' Q' F' r := by
  obtain ⟨x, e⟩ := r
  cases x with
  | ok a => trivial
  | throw m => exact ⟨h.1, hP h.2⟩
  | ub => exact hQ _ h
  | outOfFuel => exact hF h

theorem Ends.of_ok {r : Res α × Env} {a : α} {e : Env} (h : r = (.ok a, e)) : Ends P Q F r := by
  rw [h]; trivial

theorem Ends.pure (a : α) (e : Env) : Ends P Q F ((pure a : Act α) e) := Ends.of_ok rfl

theorem Ends.bind {x : Act α} {f : α → Act β} {e : Env}
    (hx : Ends P Q F (x e)) (hf : ∀ a e', x e = (.ok a, e') → Ends P Q F (f a e')) :
    Ends P Q F ((x >>= f) e) := by
  change Ends P Q F (Act.bind x f e)
  unfold Act.bind
  split <;> rename_i h
  · exact hf _ _ h
  all_goals
    rw [h] at hx
    exact hx

theorem Ends.ok {r : Res α × Env} (h : Ends False (fun _ => False) False r) :
    ∃ a e, r = (.ok a, e) := by
  obtain ⟨x, e⟩ := r
  cases x with
  | ok a => exact ⟨a, e, rfl⟩
  | throw m => exact h.2.elim
  | ub => exact h.elim
  | outOfFuel => exact h.elim

theorem Ends.lift {r : Res α} {e : Env} (hP : ∀ m, r = .throw m → m = "stod" ∧ P)
    (hQ : r = .ub → Q e) (hF : r = .outOfFuel → F) : Ends P Q F (Act.lift r e) := by
  cases r with
  | ok a => trivial
  | throw m => exact hP m rfl
  | ub => exact hQ rfl
  | outOfFuel => exact hF rfl

end

/-! ## Throwing -/

/-- A numeral that `std::stod` does not take. -/
def Unread (M : Mach) (ss : List (List Char)) : Prop := ∃ s ∈ ss, ∃ m, Action.stod M s = .throw m

/-- A numeral of a number that is no `int`. -/
def Beyond (M : Mach) (ss : List (List Char)) : Prop :=
  ∃ s ∈ ss, ∃ x, Action.stod M s = .ok x ∧ Action.toInt x = .ub

theorem Unread.mono {M : Mach} {ss ss' : List (List Char)} (h : Unread M ss) (hm : ∀ s ∈ ss, s ∈ ss') :
    Unread M ss' := by
  obtain ⟨s, h1, h2⟩ := h
  exact ⟨s, hm _ h1, h2⟩

theorem Beyond.mono {M : Mach} {ss ss' : List (List Char)} (h : Beyond M ss) (hm : ∀ s ∈ ss, s ∈ ss') :
    Beyond M ss' := by
  obtain ⟨s, h1, h2⟩ := h
  exact ⟨s, hm _ h1, h2⟩

theorem stod_throws {M : Mach} {s : List Char} {m : String} (h : Action.stod M s = .throw m) :
    m = "stod" := by
  unfold Action.stod at h
  split at h
  · exact (Res.throw.inj h).symm
  · split at h
    · exact (Res.throw.inj h).symm
    · cases h

theorem stod_ends {M : Mach} {s : List Char} {e : Env} {P F : Prop} {Q : Env → Prop}
    (hP : ∀ m, Action.stod M s = .throw m → P) : Ends P Q F (Act.lift (Action.stod M s) e) := by
  refine Ends.lift (fun m h => ⟨stod_throws h, hP m h⟩) (fun h => ?_) (fun h => ?_) <;>
  · unfold Action.stod at h; split at h <;> [cases h; (split at h <;> cases h)]

theorem toInt_ends {x : ℚ} {e : Env} {P F : Prop} {Q : Env → Prop} (hQ : Action.toInt x = .ub → Q e) :
    Ends P Q F (Act.lift (Action.toInt x) e) := by
  refine Ends.lift (fun m h => ?_) hQ (fun h => ?_) <;>
  · unfold Action.toInt at h; dsimp only at h; split at h <;> (try split at h) <;> cases h

/-- Throws nothing. -/
def Quiet {α : Type} (r : Res α) : Prop := ∀ m, r ≠ .throw m

theorem Quiet.bind {α β : Type} {x : Res α} {f : α → Res β} (hx : Quiet x) (hf : ∀ a, Quiet (f a)) :
    Quiet (x >>= f) := by
  cases x with
  | ok a => exact hf a
  | throw m => exact absurd rfl (hx m)
  | ub => intro m h; cases h
  | outOfFuel => intro m h; cases h

theorem quiet_ok {α : Type} (a : α) : Quiet (Res.ok a) := fun _ h => by cases h
theorem quiet_ub {α : Type} : Quiet (Res.ub : Res α) := fun _ h => by cases h

theorem quiet_nf {α : Type} {x : Res α} (h : NF x) : Quiet x := by
  rcases h with ⟨a, rfl⟩ | rfl
  · exact quiet_ok a
  · exact quiet_ub

theorem quiet_lookup (w : World) (n : String) : Quiet (w.lookup n) := by
  unfold World.lookup
  dsimp only
  split
  · exact quiet_ub
  · split
    · exact quiet_ok _
    · exact quiet_ub

theorem quiet_removeF : ∀ (f : Nat) (w : World) (k : Key), Quiet (w.removeF f k)
  | 0, w, k => fun _ h => by cases h
  | f + 1, w, k => by
    unfold World.removeF
    split
    · exact quiet_ok _
    · exact quiet_ok _
    · exact quiet_ok _
    · split
      · dsimp only
        split
        · refine Quiet.bind (quiet_removeF f _ _) fun w' => ?_
          split
          · exact quiet_ok _
          · exact quiet_ub
        · refine Quiet.bind (quiet_ok _) fun w' => ?_
          split
          · exact quiet_ok _
          · exact quiet_ub
      · exact quiet_ub

theorem quiet_dropAddr (a : Word) (w : World) : Quiet (dropAddr a w) := by
  unfold dropAddr
  split
  · unfold World.drop
    split
    · dsimp only
      split
      · exact Quiet.bind (quiet_removeF _ _ _) fun w' => quiet_ok _
      · exact Quiet.bind (quiet_ok _) fun w' => quiet_ok _
    · exact quiet_ub
  · exact quiet_ok _

theorem quiet_foldlM {α β : Type} {f : β → α → Res β} (hf : ∀ b a, Quiet (f b a)) :
    ∀ (l : List α) (b : β), Quiet (l.foldlM f b)
  | [], b => quiet_ok b
  | a :: l, b => by
    rw [List.foldlM_cons]
    exact Quiet.bind (hf b a) fun b => quiet_foldlM hf l b

theorem nf_mkComp {ord : Order} (hord : ∀ l, (ord l).Perm l) {c : Connector} {args : List Term}
    {b : Bool} (g : ∀ z ∈ args, Good z) : NF (mkComp ord c args b) := by
  unfold mkComp
  refine NF.bind (nf_ofList g) fun t ht => ?_
  obtain ⟨_, hm, _⟩ := ofList_mem ht
  exact nf_mkCompF hord (fun z hz => g z (hm z hz)) (by
    have := heights_le (ts := t.items) (us := args) fun z hz => height_le_heights (hm z hz)
    omega)

theorem nf_newStatement {M : Mach} (hord : ∀ l, (M.ord l).Perm l) {s p : Term} {c : Copula}
    (gs : Good s) (gp : Good p) : NF (Action.newStatement M s c p) := by
  have set : ∀ {k : Connector} {t : Term}, Good t → NF (mkComp M.ord k [t] false) := fun g =>
    nf_mkComp hord (by simpa using g)
  have fin : ∀ {s p : Term} {c : Copula}, NF (newStmt s c p true) := .inl ⟨_, rfl⟩
  unfold Action.newStatement
  split
  · exact (set gs).bind fun _ _ => fin
  · exact (set gp).bind fun _ _ => fin
  · exact (set gs).bind fun _ _ => (set gp).bind fun _ _ => fin
  · exact fin

theorem newOperation_ok {M : Mach} {f : Term} {ts : List Term} (g : ∀ t ∈ ts, Good t) :
    ∃ r, Action.newOperation M f ts = .ok r := by
  unfold Action.newOperation
  rw [mkComp_ordered g (by decide)]
  exact ⟨_, rfl⟩

/-- Throws nothing, in any state. -/
def Still {α : Type} (x : Act α) : Prop := ∀ e, Ends False (fun _ => True) True (x e)

theorem Still.ends {α : Type} {x : Act α} (h : Still x) (P : Prop) (e : Env) :
    Ends P (fun _ => True) True (x e) := (h e).imp False.elim (fun _ h => h) id

theorem still_lift {α : Type} {r : Res α} (h : Quiet r) : Still (Act.lift r) := fun _ =>
  Ends.lift (fun m hm => absurd hm (h m)) (fun _ => trivial) (fun _ => trivial)

theorem still_world {f : World → Res World} (h : ∀ w, Quiet (f w)) : Still (Act.onWorld f) := by
  intro e
  unfold Act.onWorld
  cases hf : f e.world with
  | ok w => trivial
  | throw m => exact absurd hf (h _ m)
  | ub => trivial
  | outOfFuel => trivial

theorem still_settle (args : List Term) (r : Term) : Still (settle args r) :=
  still_world fun _ => quiet_foldlM (fun w a => quiet_dropAddr a w) _ _

theorem still_makingTerm {args : List Term} {r : Res Term} (h : Quiet r) : Still (makingTerm args r) :=
  fun e => (still_lift h e).bind fun _ _ _ => (still_settle _ _ _).bind fun _ _ _ => Ends.pure _ _

theorem still_lastTerm : Still lastTerm := by
  intro e
  have : Quiet (lastAtom e.world) := by
    unfold lastAtom
    split
    · exact quiet_ub
    · split
      · exact quiet_ub
      · exact quiet_ok _
  exact still_lift this e

theorem quiet_create (w : World) (n : String) (a : Word) : Quiet (w.create n a) := by
  unfold World.create
  split
  · exact quiet_lookup _ _
  · exact quiet_ok _

theorem quiet_operation (w : World) (n : String) (a : Word) : Quiet (w.operation n a) := by
  unfold World.operation
  split
  · exact quiet_lookup _ _
  · exact quiet_ok _

theorem still_theOperation (M : Mach) (s : List Char) : Still (Action.theOperation M s) := fun e =>
  (still_world (fun _ => quiet_operation _ _ _) e).bind fun _ _ _ => still_lastTerm _

mutual
/-- Evaluation only throws for numerals. -/
theorem Syn.eval_throws {M : Mach} (hord : ∀ l, (M.ord l).Perm l) : ∀ (t : Syn) (e : Env),
    Ends (Unread M t.nums) (fun _ => True) True (t.eval M e)
  | .name s, e => by
    rw [Syn.eval]
    exact ((still_world fun _ => quiet_create _ _ _).ends _ e).bind fun _ e _ => still_lastTerm.ends _ e
  | .op s, e => by rw [Syn.eval]; exact (still_theOperation M s).ends _ e
  | .interval s, e => by
    rw [Syn.eval]
    refine Ends.bind (stod_ends fun m h => ⟨s, by simp [Syn.nums], m, h⟩) fun x e1 h1 => ?_
    exact Ends.bind (toInt_ends fun _ => trivial) fun _ _ _ => Ends.pure _ _
  | .var k s, e => by rw [Syn.eval]; exact Ends.bind (Ends.of_ok rfl) fun _ _ _ => Ends.pure _ _
  | .stmt s c p, e => by
    rw [Syn.eval]
    refine Ends.bind ((Syn.eval_throws hord s e).imp (·.mono (by simp +contextual [Syn.nums])) (fun _ h => h) id)
      fun s' e1 h1 => ?_
    refine Ends.bind ((Syn.eval_throws hord p e1).imp (·.mono (by simp +contextual [Syn.nums])) (fun _ h => h) id)
      fun p' e2 h2 => ?_
    exact (still_makingTerm (quiet_nf (nf_newStatement hord (Syn.eval_names M s h1).1
      (Syn.eval_names M p h2).1))).ends _ _
  | .comp c ts, e => by
    rw [Syn.eval]
    refine Ends.bind ((Syn.evalAll_throws hord ts e).imp (·.mono (by simp [Syn.nums])) (fun _ h => h) id)
      fun ts' e1 h1 => ?_
    exact (still_makingTerm (quiet_nf (nf_mkComp hord (Syn.evalAll_names M ts h1).1))).ends _ _
  | .call f ts, e => by
    rw [Syn.eval]
    refine Ends.bind ((Syn.eval_throws hord f e).imp (·.mono (by simp +contextual [Syn.nums])) (fun _ h => h) id)
      fun f' e1 h1 => ?_
    refine Ends.bind ((Syn.evalAll_throws hord ts e1).imp (·.mono (by simp +contextual [Syn.nums])) (fun _ h => h) id)
      fun ts' e2 h2 => ?_
    obtain ⟨r, hr⟩ := newOperation_ok (M := M) (f := f') (Syn.evalAll_names M ts h2).1
    exact (still_makingTerm (by rw [hr]; exact quiet_ok r)).ends _ _
  | .callName s ts, e => by
    rw [Syn.eval]
    refine Ends.bind ((Syn.evalAll_throws hord ts e).imp (·.mono (by simp [Syn.nums])) (fun _ h => h) id)
      fun ts' e1 h1 => ?_
    refine Ends.bind ((still_theOperation M s).ends _ e1) fun f' e2 h2 => ?_
    obtain ⟨r, hr⟩ := newOperation_ok (M := M) (f := f') (Syn.evalAll_names M ts h1).1
    exact (still_makingTerm (by rw [hr]; exact quiet_ok r)).ends _ _
/-- The same for lists. -/
theorem Syn.evalAll_throws {M : Mach} (hord : ∀ l, (M.ord l).Perm l) : ∀ (ts : List Syn) (e : Env),
    Ends (Unread M (Syn.numsAll ts)) (fun _ => True) True (Syn.evalAll M ts e)
  | [], e => by rw [Syn.evalAll]; exact Ends.pure _ _
  | t :: ts, e => by
    rw [Syn.evalAll]
    refine Ends.bind ((Syn.eval_throws hord t e).imp (·.mono (by simp +contextual [Syn.numsAll]))
      (fun _ h => h) id) fun t' e1 h1 => ?_
    refine Ends.bind ((Syn.evalAll_throws hord ts e1).imp (·.mono (by simp +contextual [Syn.numsAll]))
      (fun _ h => h) id) fun ts' e2 h2 => ?_
    exact Ends.pure _ _
end

/-! ## Undefined behaviour -/

mutual
/-- The terms in it, itself included. -/
def Syn.subs : Syn → List Syn
  | .name s => [.name s]
  | .op s => [.op s]
  | .interval s => [.interval s]
  | .var k s => [.var k s]
  | .stmt s c p => .stmt s c p :: (Syn.subs s ++ Syn.subs p)
  | .comp c ts => .comp c ts :: Syn.subsAll ts
  | .call f ts => .call f ts :: (Syn.subs f ++ Syn.subsAll ts)
  | .callName s ts => .callName s ts :: Syn.subsAll ts
/-- In all of a list. -/
def Syn.subsAll : List Syn → List Syn
  | [] => []
  | t :: ts => Syn.subs t ++ Syn.subsAll ts
end

/-- Terms without variables, and some others. -/
def Mixed (rs : List Term) (t : Term) : Prop := t ∈ rs ∨ Good t ∧ t.info.hasVar = false

/-- A state in which these words can be looked up or made: the dictionary is a reachable one, the machine finds
addresses for all of them, and of the two names of an operation both are known or none. -/
def Poised (M : Mach) (e : Env) (ms : List Mention) : Prop :=
  ∃ N, FreshBelow M N ∧ Reach false e.world ∧ Paired e.world [] ms ∧ e.world.dictH.length + ms.length ≤ N

/-- After its components have been evaluated, with the state `e'`: commutative compounds among them are not mingled, that is,
there are others in them, or other ones that consist of too little, or that are intersected and have no common component; or
one has variables; or two that differ have the same hash and variables,
and the comparator is no order on the components and the terms without variables; or an abbreviation makes a set of such a set. -/
inductive Stuck (M : Mach) (e' : Env) : Syn → Prop where
  | nested {c : Connector} {ts : List Syn} {e : Env} {rs : List Term} : c.isCommutative = true →
      Poised M e (Syn.mentionsAll ts) → Syn.evalAll M ts e = (.ok rs, e') →
      (¬ ∃ a, ∀ r ∈ rs, Mingled c a r) → Stuck M e' (.comp c ts)
  | variable {c : Connector} {ts : List Syn} {e : Env} {rs : List Term} {k : Connector} {us : List Term}
      {i : Info} : c.isCommutative = true → Syn.evalAll M ts e = (.ok rs, e') →
      .comp k us i ∈ rs → k.isCommutative = true → i.hasVar = true → Stuck M e' (.comp c ts)
  | hash {c : Connector} {ts : List Syn} {e : Env} {rs : List Term} {a b : Term} :
      c.isCommutative = true → Poised M e (Syn.mentionsAll ts) → Syn.evalAll M ts e = (.ok rs, e') → a ∈ rs → b ∈ rs → a ≠ b →
      a.hash = b.hash → a.info.hasVar = true → b.info.hasVar = true → ¬ Keyed (Mixed rs) → Stuck M e' (.comp c ts)
  | instance {s p : Syn} {c : Copula} {e : Env} {us : List Term} {i : Info} {b : Term} :
      c = .instance ∨ c = .instanceProperty → Poised M e (Syn.mentionsAll [s, p]) →
      Syn.evalAll M [s, p] e = (.ok [.comp .extensionalSet us i, b], e') →
      (¬ ∃ a, Mingled .extensionalSet a (.comp .extensionalSet us i)) ∨ i.hasVar = true → Stuck M e' (.stmt s c p)
  | property {s p : Syn} {c : Copula} {e : Env} {us : List Term} {i : Info} {a : Term} :
      c = .property ∨ c = .instanceProperty → Poised M e (Syn.mentionsAll [s, p]) →
      Syn.evalAll M [s, p] e = (.ok [a, .comp .intensionalSet us i], e') →
      (¬ ∃ a, Mingled .intensionalSet a (.comp .intensionalSet us i)) ∨ i.hasVar = true → Stuck M e' (.stmt s c p)

/-- Undefined because of a term in this one. -/
def Gets (M : Mach) (t : Syn) (e' : Env) : Prop := Beyond M t.nums ∨ ∃ u ∈ t.subs, Stuck M e' u
def GetsAll (M : Mach) (ts : List Syn) (e' : Env) : Prop :=
  Beyond M (Syn.numsAll ts) ∨ ∃ u ∈ Syn.subsAll ts, Stuck M e' u

theorem mixed_keyed {rs : List Term} (g : ∀ t ∈ rs, Good t)
    (hk : ∀ a b, a ∈ rs → b ∈ rs → a.hash = b.hash → a.info.hasVar = true → b.info.hasVar = true → a = b) :
    Keyed (Mixed rs) := by
  refine keyed_of_good (fun a h => h.elim (g a) (·.1)) fun a b ha hb he h1 h2 => ?_
  rcases ha with ha | ⟨_, ha⟩
  · rcases hb with hb | ⟨_, hb⟩
    · exact hk a b ha hb he h1 h2
    · rw [hb] at h2; cases h2
  · rw [ha] at h1; cases h1

theorem mixed_calm {rs : List Term} (g : ∀ t ∈ rs, Good t)
    (hv : ∀ k us i, .comp k us i ∈ rs → k.isCommutative = true → i.hasVar = false) : Calm (Mixed rs) where
  good h := h.elim (g _) (·.1)
  mute h := .inr h
  still h hk := by
    rcases h with h | ⟨_, h⟩
    · exact hv _ _ _ h hk
    · exact h

theorem mkComp_stuck {M : Mach} (hord : ∀ l, (M.ord l).Perm l) {c : Connector} {rs : List Term}
    (g : ∀ t ∈ rs, Good t) (hne : rs ≠ []) {ts : List Syn} {e e' : Env} (hp : Poised M e (Syn.mentionsAll ts))
    (he : Syn.evalAll M ts e = (.ok rs, e')) :
    (∃ r, mkComp M.ord c rs true = .ok r) ∨ Stuck M e' (.comp c ts) := by
  cases hc : c.isCommutative with
  | false => exact .inl ⟨_, mkComp_ordered g hc⟩
  | true =>
    by_cases hv : ∀ k us i, .comp k us i ∈ rs → k.isCommutative = true → i.hasVar = false
    · by_cases hk : Keyed (Mixed rs)
      · by_cases hm : ∃ a, ∀ r ∈ rs, Mingled c a r
        · obtain ⟨a, hm⟩ := hm
          obtain ⟨r, h, _⟩ := mkComp_mingled (b := true) hord hc hk (mixed_calm g hv) hne
            fun t ht => ⟨hm t ht, .inl ht⟩
          exact .inl ⟨r, h⟩
        · exact .inr (.nested hc hp he hm)
      · have hk' := mt (mixed_keyed g) hk
        push Not at hk'
        obtain ⟨a, b, h1, h2, h3, h4, h5, h6⟩ := hk'
        exact .inr (.hash hc hp he h1 h2 h6 h3 h4 h5 hk)
    · push Not at hv
      obtain ⟨k, us, i, h1, h2, h3⟩ := hv
      exact .inr (.variable hc he h1 h2 (by simpa using h3))

theorem set_mingled {M : Mach} (hord : ∀ l, (M.ord l).Perm l) {c : Connector} (hc : c.isCommutative = true)
    {us : List Term} {i : Info} {a : Term} (g : Good (.comp c us i)) (h : Mingled c a (.comp c us i)) (hv : i.hasVar = false) :
    ∃ r, mkComp M.ord c [.comp c us i] false = .ok r := by
  obtain ⟨r, h, _⟩ := mkComp_mingled (b := false) hord hc (args := [.comp c us i]) (S := Mixed [.comp c us i])
    (mixed_keyed (by simpa using g) fun a b ha hb _ _ _ => by
      rw [List.mem_singleton] at ha hb
      rw [ha, hb])
    (mixed_calm (by simpa using g) fun k us' i' h _ => by
      rw [List.mem_singleton] at h
      cases h
      exact hv)
    (by simp) (fun t ht => ⟨by rw [List.mem_singleton.mp ht]; exact h, .inl ht⟩)
  exact ⟨_, h⟩

theorem set_ok {M : Mach} (hord : ∀ l, (M.ord l).Perm l) {c : Connector} (hc : c.isCommutative = true)
    {t : Term} (ht : Constructed t) (hs : ∀ us i, t ≠ .comp c us i) :
    ∃ r, mkComp M.ord c [t] false = .ok r := by
  by_cases h : category t = none
  · refine mkComp_flat hord (by simpa using ht.good) hc ?_ (by simp) (by simpa using h)
    refine keyed_of_good (by simpa using ht.good) ?_
    intro a b ha hb
    simp only [List.mem_singleton] at ha hb
    simp [ha, hb]
  · unfold category at h
    split at h
    · split at h
      · rename_i k us i hk
        obtain ⟨c', j, h1⟩ := C18_unwrapped_counterexample hord hc hk ht (b := false)
          fun e => hs us i (by rw [e])
        exact ⟨_, h1⟩
      · exact absurd rfl h
    · exact absurd rfl h

theorem statement_stuck {M : Mach} (hord : ∀ l, (M.ord l).Perm l) {c : Copula} {s p : Syn} {a b : Term}
    (ha : Constructed a) (hb : Constructed b) {e e' : Env} (hp : Poised M e (Syn.mentionsAll [s, p]))
    (he : Syn.evalAll M [s, p] e = (.ok [a, b], e')) :
    (∃ r, Action.newStatement M a c b = .ok r) ∨ Stuck M e' (.stmt s c p) := by
  have left : (c = .instance ∨ c = .instanceProperty) →
      (∃ r, mkComp M.ord .extensionalSet [a] false = .ok r) ∨ Stuck M e' (.stmt s c p) := fun hc => by
    by_cases h : ∃ us i, a = .comp .extensionalSet us i
    · obtain ⟨us, i, rfl⟩ := h
      by_cases hw : (∃ x, Mingled .extensionalSet x (.comp .extensionalSet us i)) ∧ i.hasVar = false
      · obtain ⟨⟨x, hw⟩, hv⟩ := hw
        exact .inl (set_mingled hord (by decide) ha.good hw hv)
      · refine .inr (.instance hc hp he ?_)
        rcases not_and_or.mp hw with h | h
        · exact .inl h
        · exact .inr (by simpa using h)
    · push Not at h
      exact .inl (set_ok hord (by decide) ha h)
  have right : (c = .property ∨ c = .instanceProperty) →
      (∃ r, mkComp M.ord .intensionalSet [b] false = .ok r) ∨ Stuck M e' (.stmt s c p) := fun hc => by
    by_cases h : ∃ us i, b = .comp .intensionalSet us i
    · obtain ⟨us, i, rfl⟩ := h
      by_cases hw : (∃ x, Mingled .intensionalSet x (.comp .intensionalSet us i)) ∧ i.hasVar = false
      · obtain ⟨⟨x, hw⟩, hv⟩ := hw
        exact .inl (set_mingled hord (by decide) hb.good hw hv)
      · refine .inr (.property hc hp he ?_)
        rcases not_and_or.mp hw with h | h
        · exact .inl h
        · exact .inr (by simpa using h)
    · push Not at h
      exact .inl (set_ok hord (by decide) hb h)
  unfold Action.newStatement
  split
  · rcases left (by simp) with ⟨r, h⟩ | h
    · rw [h]; exact .inl ⟨_, rfl⟩
    · exact .inr h
  · rcases right (by simp) with ⟨r, h⟩ | h
    · rw [h]; exact .inl ⟨_, rfl⟩
    · exact .inr h
  · rcases left (by simp) with ⟨r, h⟩ | h
    · rcases right (by simp) with ⟨r', h'⟩ | h'
      · rw [h, h']; exact .inl ⟨_, rfl⟩
      · exact .inr h'
    · exact .inr h
  · exact .inl ⟨_, rfl⟩

theorem evalAll_cons {M : Mach} {t : Syn} {ts : List Syn} {e e1 e2 : Env} {r : Term} {rs : List Term}
    (h1 : t.eval M e = (.ok r, e1)) (h2 : Syn.evalAll M ts e1 = (.ok rs, e2)) :
    Syn.evalAll M (t :: ts) e = (.ok (r :: rs), e2) := by
  rw [Syn.evalAll]
  change Act.bind _ _ _ = _
  unfold Act.bind
  rw [h1]
  change Act.bind _ _ _ = _
  unfold Act.bind
  rw [h2]
  rfl

theorem lastAtom_some {w : World} {hs : List Nat} {j : Nat} {n : String} (hh : w.handles = hs ++ [j])
    (hj : w.nameOf j = some n) : ∃ t, lastAtom w = .ok t := by
  obtain ⟨a, ha, _⟩ := nameOf_some hj
  unfold lastAtom
  simp only [hh, List.getLast?_append, List.getLast?_singleton, Option.some_or, ha]
  exact ⟨_, rfl⟩

theorem named_some {f : World → Res World} {e : Env} {w : World} {t : Term} (h1 : f e.world = .ok w)
    (h2 : lastAtom w = .ok t) : ((do
      Act.onWorld f
      lastTerm) : Act Term) e = (.ok t, { e with world := w }) := by
  change Act.bind _ _ _ = _
  unfold Act.bind Act.onWorld
  rw [h1]
  simp only [lastTerm, h2]

theorem create_runs {W : String → Prop} {w0 : World} {live : List Term} {e : Env}
    (h : Acct W w0 e.world live) {n : String} {f : World → Word} (hf : FreshAddr e.world (f e.world)) :
    ∃ t e', ((do
      Act.onWorld fun w => w.create n (f w)
      lastTerm) : Act Term) e = (.ok t, e') := by
  obtain ⟨w1, h1, _, _, r, h2, h3, _⟩ := step_create h.reach.tidy.1 (n := n) hf
  obtain ⟨t, ht⟩ := lastAtom_some h2 h3
  exact ⟨t, _, named_some h1 ht⟩

theorem operation_runs {M : Mach} {N : Nat} (hM : FreshBelow M N) {w0 : World} (h0 : Reach false w0)
    {s : List Char} {e : Env} {live : List Term} {seen : List Mention}
    (ha : AcctN seen w0 e.world live) (hok : Paired w0 seen [.op s]) (hN : e.world.dictH.length < N) :
    ∃ t e', Action.theOperation M s e = (.ok t, e') := by
  have hg : e.world.store.checkByName (String.ofList s) =
      e.world.store.checkByName ("^" ++ String.ofList s) := by
    rcases hok.1 s rfl with ⟨k1, k2⟩ | k
    · rw [ha.known h0 k1, ha.known h0 k2]
    · obtain ⟨k1, k2⟩ := k (String.ofList s) (by simp)
      obtain ⟨k3, k4⟩ := k ("^" ++ String.ofList s) (by simp)
      rw [ha.unknown h0 k1 k2, ha.unknown h0 k3 k4]
  obtain ⟨w1, h1, _, _, r, h2, h3, _⟩ :=
    step_operation ha.reach.tidy.1 (n := String.ofList s) (hM _ ha.reach hN) hg
  obtain ⟨t, ht⟩ := lastAtom_some h2 h3
  exact ⟨t, _, named_some h1 ht⟩

theorem making_runs {W : String → Prop} {w0 : World} {e : Env} {live args : List Term} {r : Term}
    (ha : Acct W w0 e.world (live ++ args)) (hs : (leafTerms r).Subperm (leafTermsAll args)) :
    ∃ e', makingTerm args (.ok r) e = (.ok r, e') := by
  obtain ⟨w', h, _⟩ := ha.settled hs
  refine ⟨{ e with world := w' }, ?_⟩
  change Act.bind _ _ _ = _
  unfold Act.bind
  change Act.bind _ _ _ = _
  unfold Act.bind
  simp only [h]
  rfl

theorem Acct.front {W : String → Prop} {w0 w : World} {live ts : List Term} {f : Term}
    (h : Acct W w0 w (live ++ (ts ++ [f]))) : Acct W w0 w (live ++ (f :: ts)) := by
  obtain ⟨k1, k2, js, k3, k4⟩ := h
  refine ⟨k1, k2, ?_⟩
  have hp : (atomsAll (live ++ (ts ++ [f]))).Perm (atomsAll (live ++ (f :: ts))) := by
    rw [atomsAll_append, atomsAll_append, atomsAll_append]
    refine List.Perm.append_left _ ?_
    have : f :: ts = [f] ++ ts := rfl
    rw [this, atomsAll_append]
    exact List.perm_append_comm
  obtain ⟨ks, q1, q2⟩ := List.perm_comp_forall₂ hp.symm k4.flip
  exact ⟨ks, k3.trans (q2.symm.append_left _), q1.flip⟩

theorem Gets.mono {M : Mach} {t : Syn} {ss : List (List Char)} {us : List Syn} {e' : Env}
    (h : Gets M t e') (h1 : ∀ s ∈ t.nums, s ∈ ss) (h2 : ∀ u ∈ t.subs, u ∈ us) :
    Beyond M ss ∨ ∃ u ∈ us, Stuck M e' u := by
  rcases h with h | ⟨u, hu, h⟩
  · exact .inl (h.mono h1)
  · exact .inr ⟨u, h2 u hu, h⟩

theorem GetsAll.mono {M : Mach} {ts : List Syn} {ss : List (List Char)} {us : List Syn} {e' : Env}
    (h : GetsAll M ts e') (h1 : ∀ s ∈ Syn.numsAll ts, s ∈ ss) (h2 : ∀ u ∈ Syn.subsAll ts, u ∈ us) :
    Beyond M ss ∨ ∃ u ∈ us, Stuck M e' u := by
  rcases h with h | ⟨u, hu, h⟩
  · exact .inl (h.mono h1)
  · exact .inr ⟨u, h2 u hu, h⟩

theorem evalAll_length {M : Mach} : ∀ {ts : List Syn} {e e' : Env} {rs : List Term},
    Syn.evalAll M ts e = (.ok rs, e') → rs.length = ts.length
  | [], e, e', rs, h => by
    rw [Syn.evalAll] at h
    change (Res.ok [], e) = _ at h
    simp only [Prod.mk.injEq, Res.ok.injEq] at h
    rw [← h.1]
    rfl
  | t :: ts, e, e', rs, h => by
    rw [Syn.evalAll] at h
    obtain ⟨r, e1, h1, h⟩ := Act.bind_ok h
    obtain ⟨us, e2, h2, h⟩ := Act.bind_ok h
    change (Res.ok (r :: us), e2) = _ at h
    simp only [Prod.mk.injEq, Res.ok.injEq] at h
    rw [← h.1, List.length_cons, evalAll_length h2, List.length_cons]

/-- The names that are known later. -/
theorem Paired.later {w0 w : World} (h0 : Reach false w0) {seen : List Mention} {live : List Term}
    (ha : AcctN seen w0 w live) : ∀ {ms more : List Mention}, Paired w0 (seen ++ more) ms → Paired w more ms
  | [], _, _ => trivial
  | m :: ms, more, h => by
    refine ⟨fun s hs => ?_, Paired.later h0 ha (by rw [← List.append_assoc]; exact h.2)⟩
    rcases h.1 s hs with ⟨h1, h2⟩ | h
    · exact .inl ⟨ha.known h0 h1, ha.known h0 h2⟩
    · refine .inr fun n hn => ?_
      obtain ⟨h1, h2⟩ := h n hn
      simp only [namesIn, List.flatMap_append, List.mem_append, not_or] at h2
      exact ⟨ha.unknown h0 h1 h2.1, h2.2⟩

theorem poised {M : Mach} {N : Nat} (hM : FreshBelow M N) {w0 : World} (h0 : Reach false w0) {e : Env}
    {live : List Term} {seen ms : List Mention} (ha : AcctN seen w0 e.world live) (hok : Paired w0 seen ms)
    (hN : e.world.dictH.length + ms.length ≤ N) : Poised M e ms :=
  ⟨N, hM, ha.reach, Paired.later h0 ha (by simpa using hok), hN⟩

theorem Syn.subs_self (t : Syn) : t ∈ t.subs := by
  cases t <;> simp [Syn.subs]

mutual
/-- The ends of an evaluation with a regular account. -/
theorem Syn.eval_ends {M : Mach} (hord : ∀ l, (M.ord l).Perm l) {N : Nat} (hM : FreshBelow M N)
    {w0 : World} (h0 : Reach false w0) :
    ∀ (t : Syn) {e : Env} {live : List Term} {seen : List Mention},
    t.Filled → AcctN seen w0 e.world live → Paired w0 seen t.mentions →
    e.world.dictH.length + t.mentions.length ≤ N →
    Ends (Unread M t.nums) (Gets M t) False (t.eval M e)
  | .name s, e, live, seen, hf, ha, hok, hN => by
    rw [Syn.mentions, List.length_singleton] at hN
    rw [Syn.eval]
    obtain ⟨t, e', h⟩ := create_runs ha (f := M.addr) (n := String.ofList s)
      (hM _ ha.reach (by omega))
    exact Ends.of_ok h
  | .op s, e, live, seen, hf, ha, hok, hN => by
    rw [Syn.mentions, List.length_singleton] at hN
    rw [Syn.mentions] at hok
    rw [Syn.eval]
    obtain ⟨t, e', h⟩ := operation_runs hM h0 ha hok (by omega)
    exact Ends.of_ok h
  | .interval s, e, live, seen, hf, ha, hok, hN => by
    rw [Syn.eval]
    refine Ends.bind (stod_ends fun m h => ⟨s, by simp [Syn.nums], m, h⟩) fun x e1 h1 => ?_
    simp only [Act.lift, Prod.mk.injEq] at h1
    exact Ends.bind (toInt_ends fun h => .inl ⟨s, by simp [Syn.nums], x, h1.1, h⟩)
      fun _ _ _ => Ends.pure _ _
  | .var k s, e, live, seen, hf, ha, hok, hN => by
    rw [Syn.eval]; exact Ends.bind (Ends.of_ok rfl) fun _ _ _ => Ends.pure _ _
  | .stmt s c p, e, live, seen, hf, ha, hok, hN => by
    have hp : Poised M e (Syn.mentionsAll [s, p]) := poised hM h0 ha
      (by simpa [Syn.mentions, Syn.mentionsAll] using hok) (by simpa [Syn.mentions, Syn.mentionsAll] using hN)
    rw [Syn.mentions] at hok hN
    rw [List.length_append] at hN
    rw [Syn.Filled] at hf
    rw [Syn.eval]
    obtain ⟨hok1, hok2⟩ := hok.append
    refine Ends.bind ((Syn.eval_ends hord hM h0 s hf.1 ha hok1 (by omega)).imp
      (·.mono (by simp +contextual [Syn.nums])) (fun _ h => h.mono (by simp +contextual [Syn.nums])
      (by simp +contextual [Syn.subs])) id) fun s' e1 h1 => ?_
    obtain ⟨a1, d1⟩ := Syn.eval_acct hord hM h0 s h1 ha hok1 (by omega)
    refine Ends.bind ((Syn.eval_ends hord hM h0 p hf.2 a1 hok2 (by omega)).imp
      (·.mono (by simp +contextual [Syn.nums])) (fun _ h => h.mono (by simp +contextual [Syn.nums])
      (by simp +contextual [Syn.subs])) id) fun p' e2 h2 => ?_
    obtain ⟨a2, d2⟩ := Syn.eval_acct hord hM h0 p h2 a1 hok2 (by omega)
    rw [List.append_assoc, List.append_assoc, List.singleton_append] at a2
    obtain ⟨g1, _⟩ := Syn.eval_names M s h1
    obtain ⟨g2, _⟩ := Syn.eval_names M p h2
    have hall := evalAll_cons h1 (evalAll_cons h2 (show Syn.evalAll M [] e2 = _ from rfl))
    rcases nf_newStatement hord (c := c) g1 g2 with ⟨r, hr⟩ | hr
    · obtain ⟨e', h⟩ := making_runs a2 (newStatement_subperm hord g1 g2 hr)
      rw [hr]
      exact Ends.of_ok h
    · rcases statement_stuck hord (c := c) (Syn.eval_constructed hord s h1)
        (Syn.eval_constructed hord p h2) hp hall with ⟨r, h⟩ | h
      · rw [hr] at h; cases h
      · rw [hr]
        exact .inr ⟨_, Syn.subs_self _, h⟩
  | .comp c ts, e, live, seen, hf, ha, hok, hN => by
    rw [Syn.mentions] at hok hN
    rw [Syn.Filled] at hf
    rw [Syn.eval]
    refine Ends.bind ((Syn.evalAll_ends hord hM h0 ts hf.2 ha hok hN).imp
      (·.mono (by simp [Syn.nums])) (fun _ h => h.mono (by simp [Syn.nums])
      (by simp +contextual [Syn.subs])) id) fun rs e1 h1 => ?_
    obtain ⟨a1, d1⟩ := Syn.evalAll_acct hord hM h0 ts h1 ha hok hN
    obtain ⟨g1, _⟩ := Syn.evalAll_names M ts h1
    have hne : rs ≠ [] := by
      have := evalAll_length h1
      intro h
      rw [h] at this
      exact hf.1 (List.length_eq_zero_iff.mp this.symm)
    rcases nf_mkComp hord (c := c) (b := true) g1 with ⟨r, hr⟩ | hr
    · obtain ⟨e', h⟩ := making_runs a1 (mkComp_subperm hord g1 hr)
      rw [hr]
      exact Ends.of_ok h
    · rcases mkComp_stuck hord (c := c) g1 hne (poised hM h0 ha hok hN) h1 with ⟨r, h⟩ | h
      · rw [hr] at h; cases h
      · rw [hr]
        exact .inr ⟨_, Syn.subs_self _, h⟩
  | .call f ts, e, live, seen, hf, ha, hok, hN => by
    rw [Syn.mentions] at hok hN
    rw [List.length_append] at hN
    rw [Syn.Filled] at hf
    rw [Syn.eval]
    obtain ⟨hok1, hok2⟩ := hok.append
    refine Ends.bind ((Syn.eval_ends hord hM h0 f hf.1 ha hok1 (by omega)).imp
      (·.mono (by simp +contextual [Syn.nums])) (fun _ h => h.mono (by simp +contextual [Syn.nums])
      (by simp +contextual [Syn.subs])) id) fun f' e1 h1 => ?_
    obtain ⟨a1, d1⟩ := Syn.eval_acct hord hM h0 f h1 ha hok1 (by omega)
    refine Ends.bind ((Syn.evalAll_ends hord hM h0 ts hf.2 a1 hok2 (by omega)).imp
      (·.mono (by simp +contextual [Syn.nums])) (fun _ h => h.mono (by simp +contextual [Syn.nums])
      (by simp +contextual [Syn.subs])) id) fun ts' e2 h2 => ?_
    obtain ⟨a2, d2⟩ := Syn.evalAll_acct hord hM h0 ts h2 a1 hok2 (by omega)
    rw [List.append_assoc, List.append_assoc, List.singleton_append] at a2
    obtain ⟨g1, _⟩ := Syn.eval_names M f h1
    obtain ⟨g2, _⟩ := Syn.evalAll_names M ts h2
    obtain ⟨r, hr⟩ := newOperation_ok (M := M) (f := f') g2
    obtain ⟨e', h⟩ := making_runs a2 (newOperation_subperm hord g1 g2 hr)
    rw [hr]
    exact Ends.of_ok h
  | .callName s ts, e, live, seen, hf, ha, hok, hN => by
    rw [Syn.mentions] at hok hN
    rw [List.length_append, List.length_singleton] at hN
    rw [Syn.Filled] at hf
    rw [Syn.eval]
    obtain ⟨hok1, hok2⟩ := hok.append
    refine Ends.bind ((Syn.evalAll_ends hord hM h0 ts hf ha hok1 (by omega)).imp
      (·.mono (by simp [Syn.nums])) (fun _ h => h.mono (by simp [Syn.nums])
      (by simp +contextual [Syn.subs])) id) fun ts' e1 h1 => ?_
    obtain ⟨a1, d1⟩ := Syn.evalAll_acct hord hM h0 ts h1 ha hok1 (by omega)
    obtain ⟨f', e2, h2⟩ := operation_runs hM h0 a1 hok2 (by omega)
    refine Ends.bind (Ends.of_ok h2) fun f1 e3 h3 => ?_
    obtain ⟨a2, d2⟩ := operation_acct hM h0 h3 a1 hok2 (by omega)
    obtain ⟨g1, _⟩ := Syn.evalAll_names M ts h1
    obtain ⟨h5, _⟩ := named_ok h3
    rw [List.append_assoc, List.append_assoc] at a2
    obtain ⟨r, hr⟩ := newOperation_ok (M := M) (f := f1) g1
    obtain ⟨e', h⟩ := making_runs (Acct.front a2) (newOperation_subperm hord h5.good g1 hr)
    rw [hr]
    exact Ends.of_ok h
/-- The same for lists. -/
theorem Syn.evalAll_ends {M : Mach} (hord : ∀ l, (M.ord l).Perm l) {N : Nat} (hM : FreshBelow M N)
    {w0 : World} (h0 : Reach false w0) :
    ∀ (ts : List Syn) {e : Env} {live : List Term} {seen : List Mention},
    Syn.FilledAll ts → AcctN seen w0 e.world live → Paired w0 seen (Syn.mentionsAll ts) →
    e.world.dictH.length + (Syn.mentionsAll ts).length ≤ N →
    Ends (Unread M (Syn.numsAll ts)) (GetsAll M ts) False (Syn.evalAll M ts e)
  | [], e, live, seen, hf, ha, hok, hN => by rw [Syn.evalAll]; exact Ends.pure _ _
  | t :: ts, e, live, seen, hf, ha, hok, hN => by
    rw [Syn.mentionsAll] at hok hN
    rw [List.length_append] at hN
    rw [Syn.FilledAll] at hf
    rw [Syn.evalAll]
    obtain ⟨hok1, hok2⟩ := hok.append
    refine Ends.bind ((Syn.eval_ends hord hM h0 t hf.1 ha hok1 (by omega)).imp
      (·.mono (by simp +contextual [Syn.numsAll])) (fun _ h => h.mono (by simp +contextual [Syn.numsAll])
      (by simp +contextual [Syn.subsAll])) id) fun r e1 h1 => ?_
    obtain ⟨a1, d1⟩ := Syn.eval_acct hord hM h0 t h1 ha hok1 (by omega)
    refine Ends.bind ((Syn.evalAll_ends hord hM h0 ts hf.2 a1 hok2 (by omega)).imp
      (·.mono (by simp +contextual [Syn.numsAll])) (fun _ h => h.mono (by simp +contextual [Syn.numsAll])
      (by simp +contextual [Syn.subsAll])) id) fun rs e2 h2 => ?_
    exact Ends.pure _ _
end

/-! ## Tasks -/

section
variable {P F : Prop} {Q : Env → Prop}

theorem numbers_ends (M : Mach) : ∀ (ss : List (List Char)) {e : Env}, (Unread M ss → P) →
    Ends P Q F (numbers M ss e)
  | [], e, _ => Ends.pure _ _
  | s :: ss, e, hP => by
    rw [numbers]
    refine Ends.bind (stod_ends fun m h => hP ⟨s, List.mem_cons_self, m, h⟩) fun x e1 _ => ?_
    exact Ends.bind (numbers_ends M ss fun h => hP (h.mono fun _ => List.mem_cons_of_mem _))
      fun _ _ _ => Ends.pure _ _

theorem Mark.eval_ends (M : Mach) (m : Mark) {e : Env} (hP : Unread M m.nums → P)
    (hQ : Beyond M m.nums → Q e) : Ends P Q F (m.eval M e) := by
  cases m with
  | tense n => exact Ends.pure _ _
  | time s =>
    rw [Mark.eval]
    refine Ends.bind (stod_ends fun m h => hP ⟨s, by simp [Mark.nums], m, h⟩) fun x e1 h1 => ?_
    obtain ⟨h2, rfl⟩ := Act.lift_ok h1
    exact Ends.bind (toInt_ends fun h => hQ ⟨s, by simp [Mark.nums], x, h2, h⟩)
      fun _ _ _ => Ends.pure _ _
  | truth ss =>
    rw [Mark.eval]
    refine Ends.bind (numbers_ends M ss hP) fun xs e1 _ => ?_
    rw [truth_eq]
    exact Ends.pure _ _

theorem evalMarks_ends (M : Mach) : ∀ (ms : List Mark) {e : Env},
    (Unread M (ms.flatMap Mark.nums) → P) → (Beyond M (ms.flatMap Mark.nums) → Q e) →
    Ends P Q F (evalMarks M ms e)
  | [], e, _, _ => Ends.pure _ _
  | m :: ms, e, hP, hQ => by
    rw [evalMarks]
    refine Ends.bind (m.eval_ends M (fun h => hP (h.mono (by simp +contextual)))
      fun h => hQ (h.mono (by simp +contextual))) fun v e1 h1 => ?_
    obtain rfl := Mark.eval_env M h1
    exact Ends.bind (evalMarks_ends M ms
      (fun h => hP (h.mono fun s hs => by rw [List.flatMap_cons]; exact List.mem_append_right _ hs))
      fun h => hQ (h.mono fun s hs => by rw [List.flatMap_cons]; exact List.mem_append_right _ hs))
      fun _ _ _ => Ends.pure _ _

theorem marks_ends : ∀ (vs : List Val) (s : Option Stamp.Stamp) (t : Option (Truth ℚ)) (e : Env),
    Ends P Q F (Action.marks vs s t e)
  | [], s, t, e => Ends.pure _ _
  | v :: vs, s, t, e => by
    cases v with
    | tense n =>
      rw [Action.marks]
      exact Ends.bind (Ends.of_ok rfl) fun _ _ _ => marks_ends vs _ _ _
    | truth x => rw [Action.marks]; exact marks_ends vs _ _ _
    | _ =>
      rw [Action.marks]
      · exact marks_ends vs _ _ _
      all_goals simp

theorem stampOr_ends (s : Option Stamp.Stamp) (e : Env) : Ends P Q F (Action.stampOr s e) := by
  cases s <;> exact Ends.of_ok rfl

theorem sentenceAction_ends (M : Mach) (p : Punct) (t : Term) {vs : List Val}
    (hv : Action.allMarks vs = true) (e : Env) :
    Ends P Q F ((sentenceAction M p (.term t :: vs)).getD undefined e) := by
  cases p <;>
  · simp only [sentenceAction, Action.judgement, Action.question, Action.goal, Action.quest,
      Action.believed, Action.asked, if_pos hv, Option.getD_some]
    refine Ends.bind (marks_ends _ _ _ _) fun x e1 _ => ?_
    exact Ends.bind (stampOr_ends _ _) fun _ _ _ => Ends.of_ok rfl

theorem evalSentence_ends {M : Mach} {p : Punct} {t : Syn} {ms : List Mark} {e : Env}
    (ht : Ends P Q F (t.eval M e)) (hP : Unread M (ms.flatMap Mark.nums) → P)
    (hQ : ∀ e, Beyond M (ms.flatMap Mark.nums) → Q e) : Ends P Q F (evalSentence M p t ms e) := by
  unfold evalSentence
  refine Ends.bind ht fun t' e1 _ => ?_
  refine Ends.bind (evalMarks_ends M ms hP (hQ _)) fun vs e2 h2 => ?_
  exact sentenceAction_ends M p t' (evalMarks_all M h2) e2

theorem finishBudget_some (M : Mach) (b : Budget) {s : Sentence ℚ} {vs : List Val}
    (h : s.truth = truthFor M s.punct vs) : ∃ b', Action.finishBudget M b s = .ok b' := by
  unfold Action.finishBudget
  cases hp : s.punct with
  | question => exact ⟨_, rfl⟩
  | quest => exact ⟨_, rfl⟩
  | _ =>
    rw [hp, truthFor] at h
    simp only [h, Res.ofOption]
    split <;> exact ⟨_, rfl⟩

theorem evalTaskPart_ends {M : Mach} {b : Option (List (List Char))} {p : Punct} {t : Syn}
    {ms : List Mark} {e : Env} (ht : Ends P Q F (t.eval M e)) (hP : Unread M (taskNums b t ms) → P)
    (hQ : ∀ e, Beyond M (taskNums b t ms) → Q e) : Ends P Q F (evalTaskPart M b p t ms e) := by
  have hs : Ends P Q F (evalSentence M p t ms e) :=
    evalSentence_ends ht (fun h => hP (h.mono (by simp +contextual [taskNums])))
      fun e h => hQ e (h.mono (by simp +contextual [taskNums]))
  cases b with
  | none =>
    rw [evalTaskPart]
    refine Ends.bind hs fun v e1 h1 => ?_
    obtain ⟨r, e2, vs, s, _, _, rfl, _, rfl, h6, _⟩ := evalSentence_ok h1
    simp only [Action.task, Option.getD_some]
    obtain ⟨b', hb⟩ := finishBudget_some M ⟨M.cfg.priority, M.cfg.durability, M.cfg.quality⟩ h6
    rw [hb]
    exact Ends.of_ok rfl
  | some ss =>
    rw [evalTaskPart]
    refine Ends.bind (numbers_ends M ss fun h => hP (h.mono (by simp +contextual [taskNums])))
      fun xs e0 h0 => ?_
    obtain ⟨rfl, _⟩ := numbers_env M h0
    simp only [budget_eq, Option.getD_some, pure_bind]
    refine Ends.bind hs fun v e1 h1 => ?_
    obtain ⟨r, e2, vs, s, _, _, rfl, _, rfl, h6, _⟩ := evalSentence_ok h1
    simp only [Action.task, Option.getD_some]
    obtain ⟨b', hb⟩ := finishBudget_some M (budgetFor M (some xs)) h6
    rw [hb]
    exact Ends.of_ok rfl

theorem evalTask_ends {line : List WChar} {as : List Ast} (hn : IsNarsese line as)
    {b : Option (List (List Char))} {p : Punct} {t : Syn} {ms : List Mark}
    (hp : partAll as = some [.task b p t ms]) {M : Mach} {bad : Act Val} {e : Env}
    (ht : Ends P Q F (t.eval M e)) (hP : Unread M (taskNums b t ms) → P)
    (hQ : ∀ e, Beyond M (taskNums b t ms) → Q e) : Ends P Q F (evalTask M bad as e) := by
  obtain ⟨b', p', t', ms', h1, h2⟩ := evalTask_part hn
  rw [hp] at h1
  simp only [Option.some.injEq, List.cons.injEq, Part.task.injEq, and_true] at h1
  obtain ⟨rfl, rfl, rfl, rfl⟩ := h1
  rw [h2]
  refine Ends.bind (evalTaskPart_ends ht hP hQ) fun v e1 h3 => ?_
  obtain ⟨r, e2, vs, k, xs, _, _, rfl, _⟩ := evalTaskPart_ok h3
  exact Ends.pure _ _

end

/-! ## Numerals out of range -/

theorem unread_range {line : List WChar} {as : List Ast} (hn : IsNarsese line as)
    {b : Option (List (List Char))} {p : Punct} {t : Syn} {ms : List Mark}
    (hp : partAll as = some [.task b p t ms]) {M : Mach} (h : Unread M (taskNums b t ms)) :
    ∃ s x, Written line s ∧ Denotes s x ∧ M.erange x = true := by
  obtain ⟨s, hs, m, h⟩ := h
  obtain ⟨h1, x, h2, h3⟩ := hn.nums hp s hs
  refine ⟨s, x, h1, h2, ?_⟩
  unfold Action.stod at h
  rw [h3] at h
  simp only at h
  split at h
  · assumption
  · cases h

theorem toInt_range {R : Rnd ℚ} (hR : R.Sound) (hi : IntExact R) {x : ℚ}
    (h : Action.toInt (R.d x) = .ub) : x < -2 ^ 31 ∨ 2 ^ 31 - 1 < x := by
  by_contra hc
  push Not at hc
  obtain ⟨h1, h2⟩ := hc
  have k1 : (-2147483648 : ℚ) ≤ R.d x := by
    have e := hi (-2147483648) (by norm_num) (by norm_num)
    have := hR.d_mono (show (((-2147483648 : Int)) : ℚ) ≤ x by norm_num at h1 ⊢; exact h1)
    rw [e] at this
    simpa using this
  have k2 : R.d x ≤ (2147483647 : ℚ) := by
    have e := hi 2147483647 (by norm_num) (by norm_num)
    have := hR.d_mono (show x ≤ ((2147483647 : Int) : ℚ) by norm_num at h2 ⊢; exact h2)
    rw [e] at this
    simpa using this
  have k3 : -2147483648 ≤ (if 0 ≤ R.d x then ⌊R.d x⌋ else ⌈R.d x⌉) ∧
      (if 0 ≤ R.d x then ⌊R.d x⌋ else ⌈R.d x⌉) ≤ 2147483647 := by
    split
    · exact ⟨Int.le_floor.mpr (by push_cast; exact k1),
        Int.floor_le_iff.mpr (by push_cast; linarith)⟩
    · exact ⟨Int.le_ceil_iff.mpr (by push_cast; linarith), Int.ceil_le.mpr (by push_cast; exact k2)⟩
  unfold Action.toInt at h
  dsimp only at h
  rw [if_pos k3] at h
  cases h

theorem beyond_range {line : List WChar} {as : List Ast} (hn : IsNarsese line as)
    {b : Option (List (List Char))} {p : Punct} {t : Syn} {ms : List Mark}
    (hp : partAll as = some [.task b p t ms]) {M : Mach} (hR : M.R.Sound) (hi : IntExact M.R)
    (h : Beyond M (taskNums b t ms)) :
    ∃ s x, Written line s ∧ Denotes s x ∧ (x < -2 ^ 31 ∨ 2 ^ 31 - 1 < x) := by
  obtain ⟨s, hs, y, h4, h5⟩ := h
  obtain ⟨h1, x, h2, h3⟩ := hn.nums hp s hs
  refine ⟨s, x, h1, h2, ?_⟩
  unfold Action.stod at h4
  rw [h3] at h4
  simp only at h4
  split at h4
  · cases h4
  · cases h4
    exact toInt_range hR hi h5

/-! ## Terms that are never stuck -/

/-- A commutative compound. -/
def Syn.commutes : Syn → Bool
  | .comp c _ => c.isCommutative
  | _ => false

theorem category_info {t : Term} (h : ∀ c ts i, t = .comp c ts i → c.isCommutative = false) :
    category t = none := by
  unfold category
  split
  · rename_i c ts i
    rw [h c ts i rfl]
    rfl
  · rfl

theorem newStatement_shape {M : Mach} {s p r : Term} {c : Copula} (h : Action.newStatement M s c p = .ok r) :
    ∃ s' c' p' i, r = .stmt s' c' p' i := by
  have fin : ∀ {s p r : Term} {c : Copula}, newStmt s c p true = .ok r → ∃ s' c' p' i, r = .stmt s' c' p' i := by
    intro s p r c h
    unfold newStmt at h
    cases h
    exact ⟨_, _, _, _, rfl⟩
  unfold Action.newStatement at h
  split at h
  · obtain ⟨_, _, h⟩ := Res.bind_eq_ok.mp h
    exact fin h
  · obtain ⟨_, _, h⟩ := Res.bind_eq_ok.mp h
    exact fin h
  · obtain ⟨_, _, h⟩ := Res.bind_eq_ok.mp h
    obtain ⟨_, _, h⟩ := Res.bind_eq_ok.mp h
    exact fin h
  · exact fin h

theorem Syn.eval_category {M : Mach} {t : Syn} (ht : t.commutes = false) {e e' : Env} {r : Term}
    (h : t.eval M e = (.ok r, e')) : category r = none := by
  refine category_info fun k us i he => ?_
  cases t with
  | name s =>
    obtain ⟨⟨a, h1 | h1⟩, _⟩ := named_ok h <;> rw [h1] at he <;> cases he
  | op s =>
    obtain ⟨⟨a, h1 | h1⟩, _⟩ := named_ok h <;> rw [h1] at he <;> cases he
  | interval s =>
    rw [Syn.eval] at h
    obtain ⟨x, e1, h1, h⟩ := Act.bind_ok h
    obtain ⟨n, e2, h2, h⟩ := Act.bind_ok h
    obtain ⟨rfl, rfl⟩ := Act.pure_ok h
    cases he
  | var k s =>
    rw [Syn.eval] at h
    obtain ⟨x, e1, h1, h⟩ := Act.bind_ok h
    obtain ⟨rfl, rfl⟩ := Act.pure_ok h
    cases he
  | stmt s c p =>
    rw [Syn.eval] at h
    obtain ⟨s', e1, h1, h⟩ := Act.bind_ok h
    obtain ⟨p', e2, h2, h⟩ := Act.bind_ok h
    obtain ⟨h3, _⟩ := makingTerm_ok h
    obtain ⟨_, _, _, _, rfl⟩ := newStatement_shape h3
    cases he
  | comp c ts =>
    rw [Syn.eval] at h
    obtain ⟨ts', e1, h1, h⟩ := Act.bind_ok h
    obtain ⟨h3, _⟩ := makingTerm_ok h
    rw [mkComp_ordered (Syn.evalAll_names M ts h1).1 ht] at h3
    cases h3
    cases he
    exact ht
  | call f ts =>
    rw [Syn.eval] at h
    obtain ⟨f', e1, h1, h⟩ := Act.bind_ok h
    obtain ⟨ts', e2, h2, h⟩ := Act.bind_ok h
    obtain ⟨h3, _⟩ := makingTerm_ok h
    unfold Action.newOperation at h3
    obtain ⟨_, _, h3⟩ := Res.bind_eq_ok.mp h3
    cases h3
    cases he
  | callName s ts =>
    rw [Syn.eval] at h
    obtain ⟨ts', e1, h1, h⟩ := Act.bind_ok h
    obtain ⟨f', e2, h2, h⟩ := Act.bind_ok h
    obtain ⟨h3, _⟩ := makingTerm_ok h
    unfold Action.newOperation at h3
    obtain ⟨_, _, h3⟩ := Res.bind_eq_ok.mp h3
    cases h3
    cases he

/-- Without variables. -/
def Syn.bare (t : Syn) : Prop := ∀ k, t.vars k = []

/-- Without variables. -/
def Bare (t : Term) : Prop := ∀ l ∈ leafTerms t, ∀ k n i, l ≠ .var k n i

theorem IsNamed.bare {t : Term} (h : IsNamed t) : Bare t := by
  obtain ⟨a, rfl | rfl⟩ := h <;>
  · intro l hl k n i e
    simp only [Term.mkOperation, Term.mkAtom, leafTerms, List.mem_singleton] at hl
    rw [hl] at e
    cases e

mutual
theorem Syn.eval_bare (M : Mach) : ∀ (t : Syn) {e e' : Env} {r : Term}, t.bare →
    t.eval M e = (.ok r, e') → Bare r
  | .name s, e, e', r, hb, h => (named_ok h).1.bare
  | .op s, e, e', r, hb, h => (named_ok h).1.bare
  | .interval s, e, e', r, hb, h => by
    rw [Syn.eval] at h
    obtain ⟨x, e1, h1, h⟩ := Act.bind_ok h
    obtain ⟨n, e2, h2, h⟩ := Act.bind_ok h
    obtain ⟨rfl, rfl⟩ := Act.pure_ok h
    intro l hl k m i he
    simp only [Term.mkInterval, leafTerms, List.mem_singleton] at hl
    rw [hl] at he
    cases he
  | .var k s, e, e', r, hb, h => by
    have := hb k
    simp [Syn.vars] at this
  | .stmt s c p, e, e', r, hb, h => by
    rw [Syn.eval] at h
    obtain ⟨s', e1, h1, h⟩ := Act.bind_ok h
    obtain ⟨p', e2, h2, h⟩ := Act.bind_ok h
    have hb' : s.bare ∧ p.bare := by
      constructor <;>
      · intro k
        have := hb k
        simp only [Syn.vars, List.append_eq_nil_iff] at this
        first | exact this.1 | exact this.2
    obtain ⟨h3, _⟩ := makingTerm_ok h
    obtain ⟨_, hl⟩ := newStatement_leaves (Syn.eval_names M s h1).1 (Syn.eval_names M p h2).1 h3
    intro l hl'
    rcases hl l hl' with hl | hl
    · exact Syn.eval_bare M s hb'.1 h1 l hl
    · exact Syn.eval_bare M p hb'.2 h2 l hl
  | .comp c ts, e, e', r, hb, h => by
    rw [Syn.eval] at h
    obtain ⟨ts', e1, h1, h⟩ := Act.bind_ok h
    obtain ⟨h3, _⟩ := makingTerm_ok h
    obtain ⟨_, hl⟩ := mkComp_leaves (Syn.evalAll_names M ts h1).1 h3
    intro l hl'
    obtain ⟨t, ht, hl⟩ := hl l hl'
    exact Syn.evalAll_bare M ts (fun k => by have := hb k; rwa [Syn.vars] at this) h1 t ht l hl
  | .call f ts, e, e', r, hb, h => by
    rw [Syn.eval] at h
    obtain ⟨f', e1, h1, h⟩ := Act.bind_ok h
    obtain ⟨ts', e2, h2, h⟩ := Act.bind_ok h
    have hb' : f.bare ∧ ∀ k, Syn.varsAll k ts = [] := by
      constructor <;>
      · intro k
        have := hb k
        simp only [Syn.vars, List.append_eq_nil_iff] at this
        first | exact this.1 | exact this.2
    obtain ⟨h3, _⟩ := makingTerm_ok h
    obtain ⟨_, hl⟩ := newOperation_leaves (Syn.eval_names M f h1).1 (Syn.evalAll_names M ts h2).1 h3
    intro l hl'
    rcases hl l hl' with hl | ⟨t, ht, hl⟩
    · exact Syn.eval_bare M f hb'.1 h1 l hl
    · exact Syn.evalAll_bare M ts hb'.2 h2 t ht l hl
  | .callName s ts, e, e', r, hb, h => by
    rw [Syn.eval] at h
    obtain ⟨ts', e1, h1, h⟩ := Act.bind_ok h
    obtain ⟨f', e2, h2, h⟩ := Act.bind_ok h
    obtain ⟨h5, _⟩ := named_ok h2
    obtain ⟨h3, _⟩ := makingTerm_ok h
    obtain ⟨_, hl⟩ := newOperation_leaves h5.good (Syn.evalAll_names M ts h1).1 h3
    intro l hl'
    rcases hl l hl' with hl | ⟨t, ht, hl⟩
    · exact h5.bare l hl
    · exact Syn.evalAll_bare M ts (fun k => by have := hb k; rwa [Syn.vars] at this) h1 t ht l hl
theorem Syn.evalAll_bare (M : Mach) : ∀ (ts : List Syn) {e e' : Env} {rs : List Term},
    (∀ k, Syn.varsAll k ts = []) → Syn.evalAll M ts e = (.ok rs, e') → ∀ r ∈ rs, Bare r
  | [], e, e', rs, hb, h => by
    rw [Syn.evalAll] at h
    obtain ⟨rfl, rfl⟩ := Act.pure_ok h
    simp
  | t :: ts, e, e', rs, hb, h => by
    rw [Syn.evalAll] at h
    obtain ⟨r, e1, h1, h⟩ := Act.bind_ok h
    obtain ⟨us, e2, h2, h⟩ := Act.bind_ok h
    obtain ⟨rfl, rfl⟩ := Act.pure_ok h
    have hb' : t.bare ∧ ∀ k, Syn.varsAll k ts = [] := by
      constructor <;>
      · intro k
        have := hb k
        simp only [Syn.varsAll, List.append_eq_nil_iff] at this
        first | exact this.1 | exact this.2
    intro x hx
    rcases List.mem_cons.mp hx with rfl | hx
    · exact Syn.eval_bare M t hb'.1 h1
    · exact Syn.evalAll_bare M ts hb'.2 h2 x hx
end

theorem bare_hasVar {t : Term} (g : Good t) (h : Bare t) : t.info.hasVar = false := by
  by_contra hc
  rw [Bool.not_eq_false, g.hasVar_iff] at hc
  obtain ⟨k, j, hm⟩ := hc
  rw [leaves_shape, List.mem_map] at hm
  obtain ⟨l, hl, he⟩ := hm
  cases l with
  | var k' n i => exact h _ hl k' n i rfl
  | _ => simp [shape] at he

theorem evalAll_forall (M : Mach) : ∀ (ts : List Syn) {e e' : Env} {rs : List Term},
    Syn.evalAll M ts e = (.ok rs, e') →
    List.Forall₂ (fun t r => ∃ e e', Syn.eval M t e = (.ok r, e')) ts rs
  | [], e, e', rs, h => by
    rw [Syn.evalAll] at h
    obtain ⟨rfl, rfl⟩ := Act.pure_ok h
    exact .nil
  | t :: ts, e, e', rs, h => by
    rw [Syn.evalAll] at h
    obtain ⟨r, e1, h1, h⟩ := Act.bind_ok h
    obtain ⟨us, e2, h2, h⟩ := Act.bind_ok h
    obtain ⟨rfl, rfl⟩ := Act.pure_ok h
    exact .cons ⟨_, _, h1⟩ (evalAll_forall M ts h2)

theorem forall₂_mem_right {α β : Type} {P : α → β → Prop} {xs : List α} {ys : List β}
    (h : List.Forall₂ P xs ys) {y : β} (hy : y ∈ ys) : ∃ x ∈ xs, P x y := by
  induction h with
  | nil => cases hy
  | cons h1 _ ih =>
    rcases List.mem_cons.mp hy with rfl | hy
    · exact ⟨_, List.mem_cons_self, h1⟩
    · obtain ⟨x, hx, h⟩ := ih hy
      exact ⟨x, List.mem_cons_of_mem _ hx, h⟩

theorem pairwise_forall₂ {α β : Type} {P : α → β → Prop} {R : α → α → Prop} {S : β → β → Prop}
    (hs : ∀ {a b x y}, P a x → P b y → R a b → S x y) {xs : List α} {ys : List β}
    (h : List.Forall₂ P xs ys) (hx : xs.Pairwise R) : ys.Pairwise S := by
  induction h with
  | nil => exact .nil
  | cons h1 h2 ih =>
    rw [List.pairwise_cons] at hx ⊢
    refine ⟨fun y hy => ?_, ih hx.2⟩
    obtain ⟨x, hxm, hp⟩ := forall₂_mem_right h2 hy
    exact hs h1 hp (hx.1 x hxm)

theorem bare_comps {c : Connector} {ts : List Syn} (h : (Syn.comp c ts).bare) : ∀ t ∈ ts, t.bare := by
  intro t ht k
  have hk := h k
  rw [Syn.vars] at hk
  clear h
  induction ts with
  | nil => cases ht
  | cons u us ih =>
    rw [Syn.varsAll, List.append_eq_nil_iff] at hk
    rcases List.mem_cons.mp ht with rfl | ht
    · exact hk.1
    · exact ih ht hk.2

/-- No variables, or a variable. -/
def Syn.flat (x : Syn) : Prop := x.bare ∨ ∃ k v, x = .var k v

/-- The components with variables are variables, or statements about one variable with one copula, whose predicates
are variables or without variables; or the same with subjects and predicates exchanged. -/
def Syn.Alike (ts : List Syn) : Prop :=
  ∃ (k : VarKind) (v : List Char) (c : Copula), c ≠ .instance ∧ c ≠ .property ∧ c ≠ .instanceProperty ∧
    ((∀ x ∈ ts, x.flat ∨ ∃ p, x = .stmt (.var k v) c p ∧ p.flat) ∨
      (∀ x ∈ ts, x.flat ∨ ∃ s, x = .stmt s c (.var k v) ∧ s.flat))

theorem eval_var {M : Mach} {k : VarKind} {v : List Char} {e e' : Env} {r : Term}
    (h : (Syn.var k v).eval M e = (.ok r, e')) : ∃ i : Int, r = Term.mkVar k (k.symbol ++ String.ofList v) i := by
  rw [Syn.eval] at h
  obtain ⟨i, e1, _, h⟩ := Act.bind_ok h
  exact ⟨i, by cases h; rfl⟩

theorem eval_flat {M : Mach} {x : Syn} (hx : x.flat) {e e' : Env} {r : Term} (h : x.eval M e = (.ok r, e')) :
    r.info.hasVar = false ∨ IsLeaf r := by
  rcases hx with hx | ⟨k, v, rfl⟩
  · exact .inl (bare_hasVar (Syn.eval_names M x h).1 (Syn.eval_bare M x hx h))
  · obtain ⟨i, rfl⟩ := eval_var h
    exact .inr (.var ..)

theorem eval_stmt {M : Mach} {s p : Syn} {c : Copula} (h1 : c ≠ .instance) (h2 : c ≠ .property)
    (h3 : c ≠ .instanceProperty) {e e' : Env} {r : Term} (h : (Syn.stmt s c p).eval M e = (.ok r, e')) :
    ∃ a b i e1 e2, r = .stmt a c b i ∧ s.eval M e = (.ok a, e1) ∧ p.eval M e1 = (.ok b, e2) := by
  rw [Syn.eval] at h
  obtain ⟨a, e1, ha, h⟩ := Act.bind_ok h
  obtain ⟨b, e2, hb, h⟩ := Act.bind_ok h
  obtain ⟨h, _⟩ := makingTerm_ok h
  have hr : Action.newStatement M a c b = newStmt a c b true := by
    cases c <;> first | rfl | contradiction
  rw [hr] at h
  obtain rfl := Good.newStmt (Syn.eval_names M s ha).1 (Syn.eval_names M p hb).1 h
  exact ⟨a, b, _, e1, e2, rfl, ha, hb⟩

theorem good_stmt {s p : Term} {c : Copula} {i : Info} (h : Good (.stmt s c p i)) :
    Good s ∧ Good p ∧ i.hasVar = (s.info.hasVar || p.info.hasVar) := by
  rcases leaf_cases h with h | ⟨_, _, _, h1, h2, e⟩ | ⟨_, _, _, e⟩
  · have := h.typeIdx
    simp [Term.typeIdx] at this
  · cases e
    exact ⟨h1, h2, by simp [Term.structInfo]⟩
  · cases e

/-- Such components are ordered. -/
theorem alike_keyed {M : Mach} {ts : List Syn} (h : Syn.Alike ts) {e e' : Env} {rs : List Term}
    (he : Syn.evalAll M ts e = (.ok rs, e')) : Keyed (Mixed rs) := by
  obtain ⟨k, v, c, c1, c2, c3, h⟩ := h
  have hf := evalAll_forall M _ he
  obtain ⟨g, _, hn⟩ := Syn.evalAll_names M ts he
  have gm : ∀ a, Mixed rs a → Good a := fun a h => h.elim (g a) (·.1)
  have fresh : ∀ {t : Term}, Numbered e'.names t → ∀ {i : Int},
      Term.mkVar k (k.symbol ++ String.ofList v) i ∈ leafTerms t →
      Term.mkVar k (k.symbol ++ String.ofList v) i = Term.mkVar k (k.symbol ++ String.ofList v)
        ((e'.names k).idxOf (k.symbol ++ String.ofList v)) := fun ht i hm => (ht _ hm _ _ _ rfl).2
  rcases h with h | h
  · have hr : ∀ r ∈ rs, (r.info.hasVar = false ∨ IsLeaf r) ∨ ∃ p i,
        r = .stmt (Term.mkVar k (k.symbol ++ String.ofList v) ((e'.names k).idxOf (k.symbol ++ String.ofList v))) c p i ∧
          (p.info.hasVar = false ∨ IsLeaf p) := fun r hr => by
      obtain ⟨x, hx, d, d', hd⟩ := forall₂_mem_right hf hr
      rcases h x hx with hx | ⟨p, rfl, hp⟩
      · exact .inl (eval_flat hx hd)
      · obtain ⟨a, b, i, e1, e2, rfl, ha, hb⟩ := eval_stmt c1 c2 c3 hd
        obtain ⟨j, rfl⟩ := eval_var ha
        rw [fresh (hn _ hr) (i := j) (by simp [leafTerms, Term.mkVar])]
        exact .inr ⟨b, i, rfl, eval_flat hp hb⟩
    revert hr
    generalize Term.mkVar k (k.symbol ++ String.ofList v) ((e'.names k).idxOf (k.symbol ++ String.ofList v)) = x
    intro hr
    refine keyed_subject (s := x) (c := c) gm (fun a ha hv => ?_) (keyed_leaves ?_ ?_)
    · rcases ha with ha | ⟨_, ha⟩
      · rcases hr a ha with (h | h) | ⟨p, i, h, _⟩
        · rw [h] at hv; cases hv
        · exact .inl h
        · exact .inr ⟨p, i, h⟩
      · rw [ha] at hv; cases hv
    · exact fun p ⟨i, hp⟩ => (good_stmt (gm _ hp)).2.1
    · intro p ⟨i, hp⟩ hv
      have hi : i.hasVar = true := by rw [(good_stmt (gm _ hp)).2.2, hv, Bool.or_true]
      rcases hp with hp | ⟨_, hp⟩
      · rcases hr _ hp with (h | h) | ⟨q, j, h, hq⟩
        · rw [show (Term.stmt _ c p i).info.hasVar = i.hasVar from rfl, hi] at h; cases h
        · have := h.typeIdx
          simp [Term.typeIdx] at this
        · cases h
          exact hq.resolve_left (by rw [hv]; simp)
      · rw [show (Term.stmt _ c p i).info.hasVar = i.hasVar from rfl, hi] at hp; cases hp
  · have hr : ∀ r ∈ rs, (r.info.hasVar = false ∨ IsLeaf r) ∨ ∃ s i,
        r = .stmt s c (Term.mkVar k (k.symbol ++ String.ofList v) ((e'.names k).idxOf (k.symbol ++ String.ofList v))) i ∧
          (s.info.hasVar = false ∨ IsLeaf s) := fun r hr => by
      obtain ⟨x, hx, d, d', hd⟩ := forall₂_mem_right hf hr
      rcases h x hx with hx | ⟨p, rfl, hp⟩
      · exact .inl (eval_flat hx hd)
      · obtain ⟨a, b, i, e1, e2, rfl, ha, hb⟩ := eval_stmt c1 c2 c3 hd
        obtain ⟨j, rfl⟩ := eval_var hb
        rw [fresh (hn _ hr) (i := j) (by simp [leafTerms, Term.mkVar])]
        exact .inr ⟨a, i, rfl, eval_flat hp ha⟩
    revert hr
    generalize Term.mkVar k (k.symbol ++ String.ofList v) ((e'.names k).idxOf (k.symbol ++ String.ofList v)) = x
    intro hr
    refine keyed_predicate (p := x) (c := c) gm (fun a ha hv => ?_) (keyed_leaves ?_ ?_)
    · rcases ha with ha | ⟨_, ha⟩
      · rcases hr a ha with (h | h) | ⟨p, i, h, _⟩
        · rw [h] at hv; cases hv
        · exact .inl h
        · exact .inr ⟨p, i, h⟩
      · rw [ha] at hv; cases hv
    · exact fun p ⟨i, hp⟩ => (good_stmt (gm _ hp)).1
    · intro p ⟨i, hp⟩ hv
      have hi : i.hasVar = true := by rw [(good_stmt (gm _ hp)).2.2, hv, Bool.true_or]
      rcases hp with hp | ⟨_, hp⟩
      · rcases hr _ hp with (h | h) | ⟨q, j, h, hq⟩
        · rw [show (Term.stmt p c _ i).info.hasVar = i.hasVar from rfl, hi] at h; cases h
        · have := h.typeIdx
          simp [Term.typeIdx] at this
        · cases h
          exact hq.resolve_left (by rw [hv]; simp)
      · rw [show (Term.stmt p c _ i).info.hasVar = i.hasVar from rfl, hi] at hp; cases hp

end Cnars.Parser
