import Verif.Narsese.Frames
import Verif.Parser.Mingle

/-!
# Components with variables that are ordered on every machine
-/

namespace Cnars.Parser
open Cnars Cnars.Props

/-! ## What a part of a line stands for -/

/-- Not an abbreviation. -/
def usual (c : Copula) : Bool := !decide (c = .instance ∨ c = .property ∨ c = .instanceProperty)

mutual
/-- The term `r` stands for the part of a line, in a state with the numbers `N` and the world `w`; nothing is said
about the components where a constructor may change them. -/
def Yields (M : Mach) (N : VarKind → List String) (w : World) : Syn → Term → Prop
  | .name s, r => Good r ∧ r.info.hasVar = false ∧ Taken w (String.ofList s) r
  | .var k v, r => k.symbol ++ String.ofList v ∈ N k ∧
      r = Term.mkVar k (k.symbol ++ String.ofList v) ((N k).idxOf (k.symbol ++ String.ofList v))
  | .interval s, r => ∃ x n, Action.stod M s = .ok x ∧ Action.toInt x = .ok n ∧ r = Term.mkInterval n
  | .stmt s c p, r => Good r ∧ ((Syn.stmt s c p).bare → r.info.hasVar = false) ∧
      (usual c = true → ∃ a b, r = Term.mkStmt a c b ∧ Yields M N w s a ∧ Yields M N w p b)
  | .comp c ts, r => Good r ∧ ((Syn.comp c ts).bare → r.info.hasVar = false) ∧
      (c.isReducible = false → ∃ us, r = Term.finishComp c us ∧ YieldsAll M N w ts us)
  | .op s, r => Good r ∧ ((Syn.op s).bare → r.info.hasVar = false)
  | .call f ts, r => Good r ∧ ((Syn.call f ts).bare → r.info.hasVar = false)
  | .callName s ts, r => Good r ∧ ((Syn.callName s ts).bare → r.info.hasVar = false)
/-- One by one. -/
def YieldsAll (M : Mach) (N : VarKind → List String) (w : World) : List Syn → List Term → Prop
  | [], rs => rs = []
  | t :: ts, rs => ∃ u us, rs = u :: us ∧ Yields M N w t u ∧ YieldsAll M N w ts us
end

variable {M : Mach} {N N' : VarKind → List String} {w w' : World}

theorem YieldsAll.forall₂ : ∀ {ts : List Syn} {rs : List Term}, YieldsAll M N w ts rs ↔ List.Forall₂ (Yields M N w) ts rs
  | [], rs => by rw [YieldsAll, List.forall₂_nil_left_iff]
  | t :: ts, rs => by
    rw [YieldsAll, List.forall₂_cons_left_iff]
    constructor
    · rintro ⟨u, us, h1, h2, h3⟩
      exact ⟨u, us, h2, YieldsAll.forall₂.mp h3, h1⟩
    · rintro ⟨u, us, h2, h3, h1⟩
      exact ⟨u, us, h1, h2, YieldsAll.forall₂.mpr h3⟩

theorem Yields.good {t : Syn} {r : Term} (h : Yields M N w t r) : Good r := by
  cases t with
  | var k v =>
    rw [Yields] at h
    rw [h.2]
    exact .var ..
  | interval s =>
    rw [Yields] at h
    obtain ⟨x, n, _, _, rfl⟩ := h
    exact .interval ..
  | _ =>
    rw [Yields] at h
    exact h.1

theorem Yields.flat {t : Syn} {r : Term} (h : Yields M N w t r) (hf : t.flat) : r.info.hasVar = false ∨ IsLeaf r := by
  cases t with
  | var k v =>
    rw [Yields] at h
    rw [h.2]
    exact .inr (.var ..)
  | interval s =>
    rw [Yields] at h
    obtain ⟨x, n, _, _, rfl⟩ := h
    exact .inr (.interval ..)
  | name s =>
    rw [Yields] at h
    exact .inl h.2.1
  | op s =>
    rw [Yields] at h
    exact .inl (h.2 (hf.resolve_right (by rintro ⟨_, _, h⟩; cases h)))
  | call s =>
    rw [Yields] at h
    exact .inl (h.2 (hf.resolve_right (by rintro ⟨_, _, h⟩; cases h)))
  | callName s =>
    rw [Yields] at h
    exact .inl (h.2 (hf.resolve_right (by rintro ⟨_, _, h⟩; cases h)))
  | stmt s c p =>
    rw [Yields] at h
    exact .inl (h.2.1 (hf.resolve_right (by rintro ⟨_, _, h⟩; cases h)))
  | comp c ts =>
    rw [Yields] at h
    exact .inl (h.2.1 (hf.resolve_right (by rintro ⟨_, _, h⟩; cases h)))

theorem Yields.bare {t : Syn} {r : Term} (h : Yields M N w t r) (hf : t.bare) : r.info.hasVar = false := by
  cases t with
  | var k v =>
    have := hf k
    simp [Syn.vars] at this
  | interval s =>
    rw [Yields] at h
    obtain ⟨x, n, _, _, rfl⟩ := h
    rfl
  | name s =>
    rw [Yields] at h
    exact h.2.1
  | op s =>
    rw [Yields] at h
    exact h.2 hf
  | call s =>
    rw [Yields] at h
    exact h.2 hf
  | callName s =>
    rw [Yields] at h
    exact h.2 hf
  | stmt s c p =>
    rw [Yields] at h
    exact h.2.1 hf
  | comp c ts =>
    rw [Yields] at h
    exact h.2.1 hf

theorem leafTermsAll_mem {us : List Term} {l : Term} : l ∈ leafTermsAll us ↔ ∃ u ∈ us, l ∈ leafTerms u := by
  induction us with
  | nil => simp [leafTermsAll]
  | cons v vs ih => rw [leafTermsAll, List.mem_append, ih]; simp

mutual
/-- What holds of a part goes on to hold as long as the atoms in it are in use. -/
theorem Yields.mono (hN : ∀ k, N k <+: N' k) : ∀ {t : Syn} {r : Term},
    (∀ n a, Taken w n a → (∀ l ∈ leafTerms a, l ∈ leafTerms r) → Taken w' n a) → Yields M N w t r → Yields M N' w' t r
  | .name s, r, hT, h => by
    rw [Yields] at h ⊢
    exact ⟨h.1, h.2.1, hT _ _ h.2.2 fun _ h => h⟩
  | .var k v, r, hT, h => by
    rw [Yields] at h ⊢
    exact ⟨(hN k).subset h.1, by rw [idxOf_prefix (hN k) h.1]; exact h.2⟩
  | .interval s, r, hT, h => by
    rw [Yields] at h ⊢
    exact h
  | .stmt s c p, r, hT, h => by
    rw [Yields] at h ⊢
    refine ⟨h.1, h.2.1, fun hc => ?_⟩
    obtain ⟨a, b, rfl, h1, h2⟩ := h.2.2 hc
    refine ⟨a, b, rfl, Yields.mono hN (fun n x hx hl => hT n x hx fun l h => ?_) h1,
      Yields.mono hN (fun n x hx hl => hT n x hx fun l h => ?_) h2⟩
    · rw [Term.mkStmt, leafTerms]
      exact List.mem_append_left _ (hl l h)
    · rw [Term.mkStmt, leafTerms]
      exact List.mem_append_right _ (hl l h)
  | .comp c ts, r, hT, h => by
    rw [Yields] at h ⊢
    refine ⟨h.1, h.2.1, fun hc => ?_⟩
    obtain ⟨us, rfl, h1⟩ := h.2.2 hc
    refine ⟨us, rfl, YieldsAll.mono hN (fun u hu n x hx hl => hT n x hx fun l h => ?_) h1⟩
    rw [Term.finishComp, leafTerms]
    exact leafTermsAll_mem.mpr ⟨u, hu, hl l h⟩
  | .op s, r, hT, h => by
    rw [Yields] at h ⊢
    exact h
  | .call f ts, r, hT, h => by
    rw [Yields] at h ⊢
    exact h
  | .callName s ts, r, hT, h => by
    rw [Yields] at h ⊢
    exact h
theorem YieldsAll.mono (hN : ∀ k, N k <+: N' k) : ∀ {ts : List Syn} {rs : List Term},
    (∀ r ∈ rs, ∀ n a, Taken w n a → (∀ l ∈ leafTerms a, l ∈ leafTerms r) → Taken w' n a) → YieldsAll M N w ts rs →
    YieldsAll M N' w' ts rs
  | [], rs, hT, h => by
    rw [YieldsAll] at h ⊢
    exact h
  | t :: ts, rs, hT, h => by
    rw [YieldsAll] at h ⊢
    obtain ⟨u, us, rfl, h1, h2⟩ := h
    exact ⟨u, us, rfl, Yields.mono hN (hT u List.mem_cons_self) h1,
      YieldsAll.mono hN (fun r hr => hT r (List.mem_cons_of_mem _ hr)) h2⟩
end

theorem eval_usual {c : Copula} (hc : usual c = true) {a b r : Term} (ga : Good a) (gb : Good b)
    (h : Action.newStatement M a c b = .ok r) : r = Term.mkStmt a c b := by
  have hr : Action.newStatement M a c b = newStmt a c b true := by
    cases c <;> first | rfl | exact absurd hc (by decide)
  rw [hr] at h
  exact Good.newStmt ga gb h

mutual
theorem Syn.eval_seen (hord : ∀ l, (M.ord l).Perm l) : ∀ (t : Syn) {e e' : Env} {r : Term}, Poised M e t.mentions →
    t.eval M e = (.ok r, e') → Yields M e'.names e'.world t r
  | .name s, e, e', r, hp, h => by
    rw [Yields]
    have g := (Syn.eval_names M _ h).1
    refine ⟨g, bare_hasVar g (Syn.eval_bare M _ (by simp [Syn.bare, Syn.vars]) h), ?_⟩
    rw [Syn.mentions] at hp
    exact eval_taken hp h
  | .var k v, e, e', r, hp, h => by
    rw [Yields]
    obtain ⟨g, _, hn⟩ := Syn.eval_names M _ h
    obtain ⟨i, rfl⟩ := eval_var h
    exact hn _ (by simp [leafTerms, Term.mkVar]) _ _ _ rfl
  | .interval s, e, e', r, hp, h => by
    rw [Yields]
    rw [Syn.eval] at h
    obtain ⟨x, e1, h1, h⟩ := Act.bind_ok h
    obtain ⟨n, e2, h2, h⟩ := Act.bind_ok h
    obtain ⟨rfl, _⟩ := Act.pure_ok h
    exact ⟨x, n, (Act.lift_ok h1).1, (Act.lift_ok h2).1, rfl⟩
  | .stmt s c p, e, e', r, hp, h => by
    rw [Yields]
    have g := (Syn.eval_names M _ h).1
    refine ⟨g, fun hb => bare_hasVar g (Syn.eval_bare M _ hb h), fun hc => ?_⟩
    have hp0 := hp
    rw [← List.append_nil (Syn.stmt s c p).mentions] at hp0
    obtain ⟨_, ⟨W, ha⟩, _⟩ := hp0.acct hord h
    rw [Syn.mentions] at hp
    rw [Syn.eval] at h
    obtain ⟨a, e1, h1, h⟩ := Act.bind_ok h
    obtain ⟨b, e2, h2, h⟩ := Act.bind_ok h
    obtain ⟨p1, _, p2⟩ := hp.acct hord h1
    have sa := Syn.eval_seen hord s p1 h1
    have sb := Syn.eval_seen hord p p2 h2
    have p3 := p2
    rw [← List.append_nil p.mentions] at p3
    obtain ⟨_, ⟨W', ha'⟩, p4⟩ := p3.acct hord h2
    obtain ⟨h3, h4, _⟩ := makingTerm_ok h
    obtain rfl := eval_usual hc sa.good sb.good h3
    rw [h4]
    have n2 : ∀ k, e1.names k <+: e2.names k := fun k => by
      rw [(Syn.eval_names M p h2).2.1]
      exact seen_prefix _ _
    have sa' : Yields M e2.names e2.world s a := sa.mono n2 fun n x hx _ => hx.later ha'
    have ht : ∀ n x, Taken e2.world n x → (∀ l ∈ leafTerms x, l ∈ leafTerms (Term.mkStmt a c b)) → Taken e'.world n x :=
      fun n x hx hl => hx.making p4.reach h ha hl
    refine ⟨a, b, rfl, sa'.mono (fun k => List.prefix_rfl) fun n x hx hl => ht n x hx fun l h => ?_,
      sb.mono (fun k => List.prefix_rfl) fun n x hx hl => ht n x hx fun l h => ?_⟩
    · rw [Term.mkStmt, leafTerms]
      exact List.mem_append_left _ (hl l h)
    · rw [Term.mkStmt, leafTerms]
      exact List.mem_append_right _ (hl l h)
  | .comp c ts, e, e', r, hp, h => by
    rw [Yields]
    have g := (Syn.eval_names M _ h).1
    refine ⟨g, fun hb => bare_hasVar g (Syn.eval_bare M _ hb h), fun hc => ?_⟩
    have hp0 := hp
    rw [← List.append_nil (Syn.comp c ts).mentions] at hp0
    obtain ⟨_, ⟨W, ha⟩, _⟩ := hp0.acct hord h
    rw [Syn.mentions] at hp
    rw [Syn.eval] at h
    obtain ⟨us, e1, h1, h⟩ := Act.bind_ok h
    have su := Syn.evalAll_seen hord ts hp h1
    obtain ⟨W', ha'⟩ := hp.all hord h1
    obtain ⟨h3, h4, _⟩ := makingTerm_ok h
    have gus := (Syn.evalAll_names M ts h1).1
    have hnc : c.isCommutative = false := by
      cases hk : c.isCommutative with
      | false => rfl
      | true => rw [commutative_reducible c hk] at hc; cases hc
    rw [mkComp_ordered gus hnc, hc, Res.ok.injEq] at h3
    subst h3
    rw [h4]
    refine ⟨us, rfl, su.mono (fun k => List.prefix_rfl) fun u hu n x hx hl => hx.making ha'.reach h ha fun l h => ?_⟩
    exact leafTermsAll_mem.mpr ⟨u, hu, hl l h⟩
  | .op s, e, e', r, hp, h => by
    rw [Yields]
    have g := (Syn.eval_names M _ h).1
    exact ⟨g, fun hb => bare_hasVar g (Syn.eval_bare M _ hb h)⟩
  | .call f ts, e, e', r, hp, h => by
    rw [Yields]
    have g := (Syn.eval_names M _ h).1
    exact ⟨g, fun hb => bare_hasVar g (Syn.eval_bare M _ hb h)⟩
  | .callName s ts, e, e', r, hp, h => by
    rw [Yields]
    have g := (Syn.eval_names M _ h).1
    exact ⟨g, fun hb => bare_hasVar g (Syn.eval_bare M _ hb h)⟩
theorem Syn.evalAll_seen (hord : ∀ l, (M.ord l).Perm l) : ∀ (ts : List Syn) {e e' : Env} {rs : List Term},
    Poised M e (Syn.mentionsAll ts) → Syn.evalAll M ts e = (.ok rs, e') → YieldsAll M e'.names e'.world ts rs
  | [], e, e', rs, hp, h => by
    rw [Syn.evalAll] at h
    obtain ⟨rfl, rfl⟩ := Act.pure_ok h
    rw [YieldsAll]
  | t :: ts, e, e', rs, hp, h => by
    rw [Syn.evalAll] at h
    obtain ⟨r, e1, h1, h⟩ := Act.bind_ok h
    obtain ⟨us, e2, h2, h⟩ := Act.bind_ok h
    obtain ⟨rfl, rfl⟩ := Act.pure_ok h
    rw [Syn.mentionsAll] at hp
    obtain ⟨p1, _, p2⟩ := hp.acct hord h1
    obtain ⟨W, ha⟩ := p2.all hord h2
    rw [YieldsAll]
    exact ⟨r, us, rfl, (Syn.eval_seen hord t p1 h1).mono (fun k => by
      rw [(Syn.evalAll_names M ts h2).2.1]
      exact seen_prefix _ _) fun n x hx _ => hx.later ha, Syn.evalAll_seen hord ts p2 h2⟩
end

/-! ## Parts that stand for one term -/

mutual
/-- There is one term that the part stands for. -/
def Syn.rigid : Syn → Bool
  | .name _ | .var _ _ | .interval _ => true
  | .stmt s c p => usual c && Syn.rigid s && Syn.rigid p
  | .comp c ts => !c.isReducible && Syn.rigidAll ts
  | _ => false
/-- All of a list. -/
def Syn.rigidAll : List Syn → Bool
  | [] => true
  | t :: ts => Syn.rigid t && Syn.rigidAll ts
end

mutual
theorem Yields.unique (hw : Reach false w) : ∀ {t : Syn} {r r' : Term}, t.rigid = true → Yields M N w t r →
    Yields M N w t r' → r = r'
  | .name s, r, r', _, h, h' => by
    rw [Yields] at h h'
    exact h.2.2.unique hw h'.2.2
  | .var k v, r, r', _, h, h' => by
    rw [Yields] at h h'
    rw [h.2, h'.2]
  | .interval s, r, r', _, h, h' => by
    rw [Yields] at h h'
    obtain ⟨x, n, h1, h2, rfl⟩ := h
    obtain ⟨x', n', h1', h2', rfl⟩ := h'
    rw [h1, Res.ok.injEq] at h1'
    subst h1'
    rw [h2, Res.ok.injEq] at h2'
    rw [h2']
  | .stmt s c p, r, r', hf, h, h' => by
    rw [Yields] at h h'
    simp only [Syn.rigid, Bool.and_eq_true] at hf
    obtain ⟨a, b, rfl, h1, h2⟩ := h.2.2 hf.1.1
    obtain ⟨a', b', rfl, h1', h2'⟩ := h'.2.2 hf.1.1
    rw [Yields.unique hw hf.1.2 h1 h1', Yields.unique hw hf.2 h2 h2']
  | .comp c ts, r, r', hf, h, h' => by
    rw [Yields] at h h'
    simp only [Syn.rigid, Bool.and_eq_true, Bool.not_eq_true'] at hf
    obtain ⟨us, rfl, h1⟩ := h.2.2 hf.1
    obtain ⟨us', rfl, h1'⟩ := h'.2.2 hf.1
    rw [YieldsAll.unique hw hf.2 h1 h1']
  | .op _, _, _, hf, _, _ => by simp [Syn.rigid] at hf
  | .call _ _, _, _, hf, _, _ => by simp [Syn.rigid] at hf
  | .callName _ _, _, _, hf, _, _ => by simp [Syn.rigid] at hf
theorem YieldsAll.unique (hw : Reach false w) : ∀ {ts : List Syn} {rs rs' : List Term}, Syn.rigidAll ts = true →
    YieldsAll M N w ts rs → YieldsAll M N w ts rs' → rs = rs'
  | [], rs, rs', _, h, h' => by
    rw [YieldsAll] at h h'
    rw [h, h']
  | t :: ts, rs, rs', hf, h, h' => by
    rw [YieldsAll] at h h'
    rw [Syn.rigidAll, Bool.and_eq_true] at hf
    obtain ⟨u, us, rfl, h1, h2⟩ := h
    obtain ⟨u', us', rfl, h1', h2'⟩ := h'
    rw [Yields.unique hw hf.1 h1 h1', YieldsAll.unique hw hf.2 h2 h2']
end

/-! ## Components that differ in one place -/

/-- A statement or a compound with one part left out. -/
inductive Frame where
  | subject (s : Syn) (c : Copula)
  | predicate (c : Copula) (p : Syn)
  | comp (c : Connector) (pre post : List Syn)

namespace Frame

/-- The whole. -/
def fill : Frame → Syn → Syn
  | .subject s c, x => .stmt s c x
  | .predicate c p, x => .stmt x c p
  | .comp c pre post, x => .comp c (pre ++ x :: post)

/-- What is not left out stands for one term, and is not changed by the constructor. -/
def sound : Frame → Bool
  | .subject s c => usual c && s.rigid
  | .predicate c p => usual c && p.rigid
  | .comp c pre post => !c.isReducible && Syn.rigidAll pre && Syn.rigidAll post

/-- The type of the whole. -/
def type : Frame → Nat
  | .comp _ _ _ => 2
  | _ => 1

/-- The part that was left out. -/
def part : Frame → Term → Term
  | .subject _ _, .stmt _ _ p _ => p
  | .predicate _ _, .stmt s _ _ _ => s
  | .comp _ pre _, .comp c us i => us.getD pre.length (.comp c us i)
  | _, t => t

end Frame

theorem YieldsAll.append : ∀ {xs ys : List Syn} {rs : List Term}, YieldsAll M N w (xs ++ ys) rs →
    ∃ us vs, rs = us ++ vs ∧ us.length = xs.length ∧ YieldsAll M N w xs us ∧ YieldsAll M N w ys vs
  | [], ys, rs, h => ⟨[], rs, rfl, rfl, by rw [YieldsAll], h⟩
  | x :: xs, ys, rs, h => by
    rw [List.cons_append, YieldsAll] at h
    obtain ⟨u, us, rfl, h1, h2⟩ := h
    obtain ⟨us, vs, rfl, h3, h4, h5⟩ := YieldsAll.append h2
    exact ⟨u :: us, vs, rfl, by simp [h3], by rw [YieldsAll]; exact ⟨u, us, rfl, h1, h4⟩, h5⟩

theorem YieldsAll.good {ts : List Syn} {rs : List Term} (h : YieldsAll M N w ts rs) : ∀ r ∈ rs, Good r := by
  intro r hr
  obtain ⟨t, _, h⟩ := forall₂_mem_right (YieldsAll.forall₂.mp h) hr
  exact h.good

/-- What a whole stands for. -/
theorem Frame.seen {F : Frame} (hF : F.sound = true) {x : Syn} {r : Term} (h : Yields M N w (F.fill x) r) :
    r.typeIdx = F.type ∧ Yields M N w x (F.part r) := by
  cases F with
  | subject s c =>
    simp only [Frame.sound, Bool.and_eq_true] at hF
    rw [Frame.fill, Yields] at h
    obtain ⟨a, b, rfl, h1, h2⟩ := h.2.2 hF.1
    exact ⟨rfl, h2⟩
  | predicate c p =>
    simp only [Frame.sound, Bool.and_eq_true] at hF
    rw [Frame.fill, Yields] at h
    obtain ⟨a, b, rfl, h1, h2⟩ := h.2.2 hF.1
    exact ⟨rfl, h1⟩
  | comp c pre post =>
    simp only [Frame.sound, Bool.and_eq_true, Bool.not_eq_true'] at hF
    rw [Frame.fill, Yields] at h
    obtain ⟨us, rfl, h1⟩ := h.2.2 hF.1.1
    obtain ⟨us, vs, rfl, h2, h3, h4⟩ := h1.append
    rw [YieldsAll] at h4
    obtain ⟨u, vs, rfl, h4, h5⟩ := h4
    refine ⟨rfl, ?_⟩
    simpa [Frame.part, Term.finishComp, ← h2] using h4

/-- Two wholes that tie are compared by the parts. -/
theorem Frame.lt {F : Frame} (hF : F.sound = true) (hw : Reach false w) {x y : Syn} {r u : Term}
    (hr : Yields M N w (F.fill x) r) (hu : Yields M N w (F.fill y) u) (ht : Tie r u) :
    Term.lt r u = Term.lt (F.part r) (F.part u) := by
  cases F with
  | subject s c =>
    simp only [Frame.sound, Bool.and_eq_true] at hF
    rw [Frame.fill, Yields] at hr hu
    obtain ⟨a, b, rfl, h1, h2⟩ := hr.2.2 hF.1
    obtain ⟨a', b', rfl, k1, k2⟩ := hu.2.2 hF.1
    obtain rfl := h1.unique hw hF.2 k1
    exact lt_subject h1.good h2.good k2.good ht
  | predicate c p =>
    simp only [Frame.sound, Bool.and_eq_true] at hF
    rw [Frame.fill, Yields] at hr hu
    obtain ⟨a, b, rfl, h1, h2⟩ := hr.2.2 hF.1
    obtain ⟨a', b', rfl, k1, k2⟩ := hu.2.2 hF.1
    obtain rfl := h2.unique hw hF.2 k2
    exact lt_predicate h1.good k1.good h2.good ht
  | comp c pre post =>
    simp only [Frame.sound, Bool.and_eq_true, Bool.not_eq_true'] at hF
    rw [Frame.fill, Yields] at hr hu
    obtain ⟨us, rfl, h1⟩ := hr.2.2 hF.1.1
    obtain ⟨us', rfl, k1⟩ := hu.2.2 hF.1.1
    obtain ⟨us, vs, rfl, h2, h3, h4⟩ := h1.append
    obtain ⟨us', vs', rfl, k2, k3, k4⟩ := k1.append
    rw [YieldsAll] at h4 k4
    obtain ⟨a, vs, rfl, h4, h5⟩ := h4
    obtain ⟨b, vs', rfl, k4, k5⟩ := k4
    obtain rfl := h3.unique hw hF.1.2 k3
    obtain rfl := h5.unique hw hF.2 k5
    rw [lt_hole h3.good h5.good h4.good k4.good ht]
    simp [Frame.part, Term.finishComp, ← h2]

/-- Some of the terms, `ys`, are in `F`, some, `zs`, are in `G`, and the others are variables or without variables. -/
inductive Parted (F G : Frame) : List Syn → List Syn → List Syn → Prop where
  | nil : Parted F G [] [] []
  | flat {x : Syn} {xs ys zs : List Syn} : x.flat → Parted F G xs ys zs → Parted F G (x :: xs) ys zs
  | left {y : Syn} {xs ys zs : List Syn} : Parted F G xs ys zs → Parted F G (F.fill y :: xs) (y :: ys) zs
  | right {z : Syn} {xs ys zs : List Syn} : Parted F G xs ys zs → Parted F G (G.fill z :: xs) ys (z :: zs)

/-- The comparator orders the terms that the list stands for, on every machine: at most one has variables; or those that
have are variables, statements that differ in one place only, and compounds that differ in one place only, and the same
holds of what is in these places. -/
inductive Syn.Akin : List Syn → Prop where
  | lone {xs : List Syn} : (xs.Pairwise fun x y => x.bare ∨ y.bare) → Syn.Akin xs
  | parted {F G : Frame} {xs ys zs : List Syn} : F.sound = true → G.sound = true → F.type = 1 → G.type = 2 →
      Parted F G xs ys zs → Syn.Akin ys → Syn.Akin zs → Syn.Akin xs

theorem Parted.seen {F G : Frame} (hF : F.sound = true) (hG : G.sound = true) {xs ys zs : List Syn}
    (h : Parted F G xs ys zs) : ∀ {rs : List Term}, List.Forall₂ (Yields M N w) xs rs →
    ∃ us vs, List.Forall₂ (Yields M N w) ys us ∧ List.Forall₂ (Yields M N w) zs vs ∧ ∀ r ∈ rs, r.info.hasVar = true →
      IsLeaf r ∨ (∃ y, Yields M N w (F.fill y) r ∧ F.part r ∈ us) ∨ ∃ z, Yields M N w (G.fill z) r ∧ G.part r ∈ vs := by
  induction h with
  | nil =>
    intro rs hr
    cases hr
    exact ⟨[], [], .nil, .nil, by simp⟩
  | flat hx _ ih =>
    intro rs hr
    rcases hr with _ | ⟨h1, h2⟩
    obtain ⟨us, vs, k1, k2, k3⟩ := ih h2
    refine ⟨us, vs, k1, k2, fun r hr hv => ?_⟩
    rcases List.mem_cons.mp hr with rfl | hr
    · rcases h1.flat hx with h | h
      · rw [h] at hv; cases hv
      · exact .inl h
    · exact k3 r hr hv
  | left _ ih =>
    intro rs hr
    rcases hr with _ | ⟨h1, h2⟩
    obtain ⟨us, vs, k1, k2, k3⟩ := ih h2
    refine ⟨_ :: us, vs, .cons (Frame.seen hF h1).2 k1, k2, fun r hr hv => ?_⟩
    rcases List.mem_cons.mp hr with rfl | hr
    · exact .inr (.inl ⟨_, h1, List.mem_cons_self⟩)
    · exact (k3 r hr hv).imp_right (.imp_left fun ⟨y, h, h'⟩ => ⟨y, h, List.mem_cons_of_mem _ h'⟩)
  | right _ ih =>
    intro rs hr
    rcases hr with _ | ⟨h1, h2⟩
    obtain ⟨us, vs, k1, k2, k3⟩ := ih h2
    refine ⟨us, _ :: vs, k1, .cons (Frame.seen hG h1).2 k2, fun r hr hv => ?_⟩
    rcases List.mem_cons.mp hr with rfl | hr
    · exact .inr (.inr ⟨_, h1, List.mem_cons_self⟩)
    · exact (k3 r hr hv).imp_right (.imp_right fun ⟨y, h, h'⟩ => ⟨y, h, List.mem_cons_of_mem _ h'⟩)

theorem akin_keyed (hw : Reach false w) {xs : List Syn} (h : Syn.Akin xs) : ∀ {rs : List Term},
    List.Forall₂ (Yields M N w) xs rs → Keyed (Mixed rs) := by
  induction h with
  | @lone xs hp =>
    intro rs hr
    have hp := pairwise_forall₂ (S := fun a b => a.info.hasVar = false ∨ b.info.hasVar = false)
      (fun {a b x y} ha hb h => h.imp ha.bare hb.bare) hr hp
    refine mixed_keyed (fun t ht => ?_) fun a b ha hb he h1 h2 => ?_
    · obtain ⟨x, _, h⟩ := forall₂_mem_right hr ht
      exact h.good
    · have : Std.Symm fun a b : Term => a.info.hasVar = false ∨ b.info.hasVar = false := ⟨fun _ _ => Or.symm⟩
      by_contra hne
      rcases hp.forall ha hb hne with h | h
      · rw [h] at h1; cases h1
      · rw [h] at h2; cases h2
  | @parted F G xs ys zs hF hG tF tG hP _ _ ihy ihz =>
    intro rs hr
    obtain ⟨us, vs, k1, k2, k3⟩ := hP.seen hF hG hr
    have g : ∀ t ∈ rs, Good t := fun t ht => by
      obtain ⟨x, _, h⟩ := forall₂_mem_right hr ht
      exact h.good
    have hs : ∀ a, Mixed rs a → a.info.hasVar = true → IsLeaf a ∨ (∃ y, Yields M N w (F.fill y) a ∧ F.part a ∈ us) ∨
        ∃ z, Yields M N w (G.fill z) a ∧ G.part a ∈ vs := fun a ha hv => by
      rcases ha with ha | ⟨_, ha⟩
      · exact k3 a ha hv
      · rw [ha] at hv; cases hv
    refine keyed_by (T := fun n t => n = 1 ∧ Mixed us t ∨ n = 2 ∧ Mixed vs t)
      (fun t => if t.typeIdx = 1 then F.part t else G.part t) (fun a h => h.elim (g a) (·.1)) (fun a ha hv => ?_)
      (fun a b ha hb ht h0 => ?_) fun n => ?_
    · rcases hs a ha hv with h | ⟨y, h, h'⟩ | ⟨z, h, h'⟩
      · exact .inl h
      · have := (Frame.seen hF h).1
        rw [tF] at this
        exact .inr ⟨by omega, .inl ⟨this, by rw [if_pos this]; exact .inl h'⟩⟩
      · have := (Frame.seen hG h).1
        rw [tG] at this
        exact .inr ⟨by omega, .inr ⟨this, by rw [if_neg (by omega)]; exact .inl h'⟩⟩
    · rcases hs a ha ht.2.1 with h | ⟨y, h, _⟩ | ⟨z, h, _⟩
      · exact absurd h.typeIdx h0
      · have i1 := (Frame.seen hF h).1
        rw [tF] at i1
        have i2 : b.typeIdx = 1 := by rw [← ht.2.2.2, i1]
        rcases hs b hb ht.2.2.1 with h' | ⟨y', h', _⟩ | ⟨z', h', _⟩
        · have := h'.typeIdx; omega
        · rw [if_pos i1, if_pos i2]
          exact Frame.lt hF hw h h' ht
        · have := (Frame.seen hG h').1; omega
      · have i1 := (Frame.seen hG h).1
        rw [tG] at i1
        have i2 : b.typeIdx = 2 := by rw [← ht.2.2.2, i1]
        rcases hs b hb ht.2.2.1 with h' | ⟨y', h', _⟩ | ⟨z', h', _⟩
        · have := h'.typeIdx; omega
        · have := (Frame.seen hF h').1; omega
        · rw [if_neg (by omega), if_neg (by omega)]
          exact Frame.lt hG hw h h' ht
    · by_cases hn : n = 1
      · subst hn
        exact (ihy k1).mono fun t h => h.elim And.right fun h => absurd h.1 (by decide)
      · by_cases hn' : n = 2
        · subst hn'
          exact (ihz k2).mono fun t h => h.elim (fun h => absurd h.1 (by decide)) And.right
        · exact (ihy k1).mono fun t h => h.elim (fun h => absurd h.1 hn) fun h => absurd h.1 hn'

end Cnars.Parser
