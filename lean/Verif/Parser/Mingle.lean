import Verif.Parser.Progress

/-!
# Commutative compounds inside commutative compounds, in a line
-/

namespace Cnars.Parser
open Cnars Cnars.Props

/-! ## Names that are in use -/

/-- The term of an atom. -/
def Named.term (x : Named) : Term := if x.isOp then Term.mkOperation x.addr else Term.mkAtom x.addr

/-- There is a handle on the atom `a`, and `n` is its name. -/
def Taken (w : World) (n : String) (a : Term) : Prop :=
  ∃ j ∈ w.handles, ∃ x, w.atoms[j]? = some x ∧ x.name = n ∧ a = Named.term x

theorem Named.term_hash {x y : Named} (h : (Named.term x).hash = (Named.term y).hash) : x.addr = y.addr := by
  have e : ∀ x, (Named.term x).hash = Term.atomHash x.addr := fun x => by
    unfold Named.term; split <;> rfl
  rw [e, e] at h
  exact atomHash_inj h

theorem Named.term_atoms (x : Named) : leafTerms (Named.term x) = [Named.term x] ∧
    atomOf (Named.term x) = some (x.addr, x.isOp) := by
  unfold Named.term
  split <;> rename_i h <;> simp [Term.mkOperation, Term.mkAtom, leafTerms, atomOf, Term.leafInfo, h]

/-- Two atoms in use with the same hash are the same, and have the same name. -/
theorem Taken.hash {w : World} (hw : Reach false w) {n m : String} {a b : Term} (h1 : Taken w n a) (h2 : Taken w m b)
    (h : a.hash = b.hash) : a = b ∧ n = m := by
  obtain ⟨i, hi, x, hx, rfl, rfl⟩ := h1
  obtain ⟨j, hj, y, hy, rfl, rfl⟩ := h2
  have ht := hw.tidy.1
  obtain rfl := addr_inj ht (ht.sub i hi) (ht.sub j hj) hx hy (Named.term_hash h)
  rw [hx, Option.some.injEq] at hy
  rw [hy]
  exact ⟨rfl, rfl⟩

/-- A name in use has one atom. -/
theorem Taken.unique {w : World} (hw : Reach false w) {n : String} {a b : Term} (h1 : Taken w n a) (h2 : Taken w n b) :
    a = b := by
  obtain ⟨i, hi, x, hx, hn, rfl⟩ := h1
  obtain ⟨j, hj, y, hy, hm, rfl⟩ := h2
  have ht := hw.tidy.1
  obtain rfl := ht.nameInj (ht.sub i hi) (ht.sub j hj) (n := n) (by simp [World.nameOf, hx, hn])
    (by simp [World.nameOf, hy, hm])
  rw [hx, Option.some.injEq] at hy
  rw [hy]

theorem Taken.later {W : String → Prop} {w w' : World} {live : List Term} (h : Acct W w w' live) {n : String} {a : Term}
    (ht : Taken w n a) : Taken w' n a := by
  obtain ⟨i, hi, x, hx, h1, h2⟩ := ht
  exact ⟨i, h.keeps hi, x, prefix_get h.atoms hx, h1, h2⟩

theorem eval_taken {M : Mach} {s : List Char} {e e' : Env} {r : Term} (hp : Poised M e [.name s])
    (h : (Syn.name s).eval M e = (.ok r, e')) : Taken e'.world (String.ofList s) r := by
  obtain ⟨N, hM, hw, _, hN⟩ := hp
  rw [Syn.eval] at h
  obtain ⟨_, _, _, h1, h2⟩ := named_ok h
  obtain ⟨w1, h3, _, _, j, h4, h5, _⟩ := step_create hw.tidy.1 (n := String.ofList s)
    (hM _ hw (by simp only [List.length_singleton] at hN; omega))
  rw [h1, Res.ok.injEq] at h3
  subst h3
  obtain ⟨x, hx, hn⟩ := nameOf_some h5
  refine ⟨j, by rw [h4]; simp, x, hx, hn, ?_⟩
  unfold lastAtom at h2
  simp only [h4, List.getLast?_append, List.getLast?_singleton, Option.some_or, hx, Res.ok.injEq] at h2
  exact h2.symm

theorem dropAddr_sub {w w' : World} (hw : Reach false w) {a : Word} (h : dropAddr a w = .ok w') :
    Reach false w' ∧ (∀ j ∈ w'.handles, j ∈ w.handles) ∧ w'.atoms = w.atoms := by
  unfold dropAddr at h
  split at h
  · rename_i i hi
    rw [List.findIdx?_eq_some_iff_getElem] at hi
    obtain ⟨hi, _⟩ := hi
    obtain ⟨w1, h1, _, h3, h4, _⟩ := hw.tidy.1.drop (List.getElem?_eq_getElem hi)
    rw [h, Res.ok.injEq] at h1
    subst h1
    refine ⟨.step (.drop i) hw (show i < w.handles.length from hi) h, fun j hj => ?_, h4⟩
    rw [h3] at hj
    exact List.mem_of_mem_eraseIdx hj
  · cases h
    exact ⟨hw, fun _ h => h, rfl⟩

theorem dropAll_sub : ∀ {D : List Word} {w w' : World}, Reach false w →
    D.foldlM (fun w a => dropAddr a w) w = .ok w' →
    (∀ j ∈ w'.handles, j ∈ w.handles) ∧ w'.atoms = w.atoms
  | [], w, w', _, h => by
    cases h
    exact ⟨fun _ h => h, rfl⟩
  | a :: D, w, w', hw, h => by
    rw [List.foldlM_cons] at h
    obtain ⟨w1, h1, h⟩ := Res.bind_eq_ok.mp h
    obtain ⟨k1, k2, k3⟩ := dropAddr_sub hw h1
    obtain ⟨k4, k5⟩ := dropAll_sub k1 h
    exact ⟨fun j hj => k2 j (k4 j hj), k5.trans k3⟩

theorem making_sub {e e' : Env} (hw : Reach false e.world) {args : List Term} {x : Res Term} {r : Term}
    (h : makingTerm args x e = (.ok r, e')) : (∀ j ∈ e'.world.handles, j ∈ e.world.handles) ∧
      e'.world.atoms = e.world.atoms := by
  obtain ⟨t', e1, h1, h⟩ := Act.bind_ok h
  obtain ⟨u, e2, h2, h⟩ := Act.bind_ok h
  obtain ⟨rfl, rfl⟩ := Act.pure_ok h
  obtain ⟨_, rfl⟩ := Act.lift_ok h1
  exact dropAll_sub hw (onWorld_ok h2).1

/-- An atom in use that is in the result of an action is in use after it. -/
theorem Taken.making {W : String → Prop} {w0 : World} {e e' : Env} (hw : Reach false e.world) {args : List Term}
    {x : Res Term} {r : Term} (h : makingTerm args x e = (.ok r, e')) (ha : Acct W w0 e'.world [r]) {n : String} {a : Term}
    (ht : Taken e.world n a) (hl : ∀ l ∈ leafTerms a, l ∈ leafTerms r) : Taken e'.world n a := by
  obtain ⟨h1, h2⟩ := making_sub hw h
  obtain ⟨i, hi, x, hx, hn, rfl⟩ := ht
  obtain ⟨k1, k2⟩ := Named.term_atoms x
  have hm : (x.addr, x.isOp) ∈ atomsAll [r] := by
    unfold atomsAll
    refine List.mem_filterMap.mpr ⟨Named.term x, ?_, k2⟩
    simp only [leafTermsAll, List.append_nil]
    exact hl _ (by rw [k1]; simp)
  obtain ⟨js, p1, p2⟩ := ha.bal
  obtain ⟨j, hj, m, _, hy⟩ := forall₂_mem_right p2 hm
  have hj' : j ∈ e'.world.handles := p1.mem_iff.mpr (List.mem_append_right _ hj)
  have ht := hw.tidy.1
  rw [h2] at hy
  obtain rfl := addr_inj ht (ht.sub i hi) (ht.sub j (h1 j hj')) hx hy rfl
  exact ⟨i, hj', x, by rw [h2]; exact hx, hn, rfl⟩

/-! ## States along an evaluation -/

theorem Poised.acct {M : Mach} (hord : ∀ l, (M.ord l).Perm l) {t : Syn} {ms : List Mention} {e e' : Env} {r : Term}
    (hp : Poised M e (t.mentions ++ ms)) (h : t.eval M e = (.ok r, e')) :
    Poised M e t.mentions ∧ (∃ W, Acct W e.world e'.world [r]) ∧ Poised M e' ms := by
  obtain ⟨N, hM, hw, hok, hN⟩ := hp
  obtain ⟨h1, h2⟩ := hok.append
  rw [List.length_append] at hN
  obtain ⟨ha, hd⟩ := Syn.eval_acct hord hM hw t (live := []) (seen := []) h (Acct.start hw) h1 (by omega)
  exact ⟨⟨N, hM, hw, h1, by omega⟩, ⟨_, ha⟩, poised hM hw ha h2 (by omega)⟩

theorem Poised.all {M : Mach} (hord : ∀ l, (M.ord l).Perm l) {ts : List Syn} {e e' : Env} {rs : List Term}
    (hp : Poised M e (Syn.mentionsAll ts)) (h : Syn.evalAll M ts e = (.ok rs, e')) :
    ∃ W, Acct W e.world e'.world rs := by
  obtain ⟨N, hM, hw, hok, hN⟩ := hp
  exact ⟨_, (Syn.evalAll_acct hord hM hw ts (live := []) (seen := []) h (Acct.start hw) hok hN).1⟩

theorem Poised.reach {M : Mach} {e : Env} {ms : List Mention} (h : Poised M e ms) : Reach false e.world := by
  obtain ⟨_, _, hw, _⟩ := h
  exact hw

/-- After a list of terms has been evaluated, the names in it are in use. -/
theorem evalAll_taken {M : Mach} (hord : ∀ l, (M.ord l).Perm l) : ∀ {ts : List Syn} {e e' : Env} {rs : List Term},
    Poised M e (Syn.mentionsAll ts) → Syn.evalAll M ts e = (.ok rs, e') →
    List.Forall₂ (fun t r => ∀ s, t = .name s → Taken e'.world (String.ofList s) r) ts rs
  | [], e, e', rs, hp, h => by
    rw [Syn.evalAll] at h
    obtain ⟨rfl, rfl⟩ := Act.pure_ok h
    exact .nil
  | t :: ts, e, e', rs, hp, h => by
    rw [Syn.evalAll] at h
    obtain ⟨r, e1, h1, h⟩ := Act.bind_ok h
    obtain ⟨us, e2, h2, h⟩ := Act.bind_ok h
    obtain ⟨rfl, rfl⟩ := Act.pure_ok h
    rw [Syn.mentionsAll] at hp
    obtain ⟨p1, _, p2⟩ := hp.acct hord h1
    obtain ⟨W, ha⟩ := p2.all hord h2
    refine .cons (fun s hs => ?_) (evalAll_taken hord p2 h2)
    subst hs
    exact (eval_taken p1 h1).later ha

/-! ## Commutative compounds in commutative compounds -/

/-- The commutative compounds that are reached from the term through compounds with `c` have this connector, or
only terms in them that are no commutative compounds; the latter are sets, or have two names in them; if they are intersected,
they consist of names, one of which is `n`. -/
inductive Syn.Mingled (c : Connector) (n : List Char) : Syn → Prop where
  | other {t : Syn} : t.commutes = false → Syn.Mingled c n t
  | comp {ts : List Syn} : ts ≠ [] → (∀ t ∈ ts, Syn.Mingled c n t) → Syn.Mingled c n (.comp c ts)
  | shallow {k : Connector} {ts : List Syn} : k.isCommutative = true → k ≠ c → ts ≠ [] →
      (∀ t ∈ ts, t.commutes = false) →
      (k.isMultipleOnly = true → ∃ x y, x ≠ y ∧ .name x ∈ ts ∧ .name y ∈ ts) →
      (mergeKind c k = .intersect → .name n ∈ ts ∧ ∀ t ∈ ts, ∃ s, t = .name s) → Syn.Mingled c n (.comp k ts)

/-- The results of an evaluation that begins with `w` and ends with `w'`. -/
def Joined (c : Connector) (n : String) (w w' : World) (rs : List Term) : Prop :=
  (∀ b, Taken w n b → ∀ r ∈ rs, Cnars.Mingled c b r) ∧
    ((∀ b, ∀ r ∈ rs, Cnars.Mingled c b r) ∨ ∃ a, (∀ r ∈ rs, Cnars.Mingled c a r) ∧ Taken w' n a)

theorem leafTerms_mem {k : Connector} {us : List Term} {i : Info} {u l : Term} (hu : u ∈ us) (hl : l ∈ leafTerms u) :
    l ∈ leafTerms (.comp k us i) := by
  rw [leafTerms]
  induction us with
  | nil => cases hu
  | cons v vs ih =>
    rw [leafTermsAll, List.mem_append]
    rcases List.mem_cons.mp hu with rfl | hu
    · exact .inl hl
    · exact .inr (ih hu)

/-- The common component of a mingled compound is one of its leaves, or does not matter. -/
theorem mingled_leaf {c : Connector} {a r : Term} (h : Cnars.Mingled c a r) :
    (∀ b, Cnars.Mingled c b r) ∨ ∀ l ∈ leafTerms a, l ∈ leafTerms r := by
  induction h with
  | other h => exact .inl fun _ => .other h
  | @comp us i hne _ ih =>
    by_cases hr : ∃ u ∈ us, ∀ l ∈ leafTerms a, l ∈ leafTerms u
    · obtain ⟨u, hu, hr⟩ := hr
      exact .inr fun l hl => leafTerms_mem hu (hr l hl)
    · push Not at hr
      refine .inl fun b => .comp hne fun u hu => ((ih u hu).resolve_right ?_) b
      obtain ⟨l, h1, h2⟩ := hr u hu
      exact fun h => h2 (h l h1)
  | @shallow k us i hk hne h =>
    by_cases hm : mergeKind c k = .intersect
    · obtain ⟨⟨u, hu, he⟩, h2⟩ := h.shared hm
      obtain rfl := h2 u hu he
      exact .inr fun l hl => leafTerms_mem hu hl
    · exact .inl fun b => .shallow hk hne ⟨h.valid, h.plain, fun h => absurd h hm⟩

theorem checkValid_commutative {k : Connector} (hk : k.isCommutative = true) {n : Nat} (h0 : 0 < n)
    (h : k.isMultipleOnly = true → 1 < n) : k.checkValid n = true := by
  have h1 : k.isSingleOnly = false ∧ k.isDoubleOnly = false := by
    cases k <;> first | exact absurd hk (by decide) | decide
  unfold Connector.checkValid
  rw [h1.1, h1.2]
  cases hm : k.isMultipleOnly with
  | false => simp [h0]
  | true => simp [h0, h hm]

theorem forall₂_mem_left {α β : Type} {P : α → β → Prop} {xs : List α} {ys : List β}
    (h : List.Forall₂ P xs ys) {x : α} (hx : x ∈ xs) : ∃ y ∈ ys, P x y := by
  induction h with
  | nil => cases hx
  | cons h1 _ ih =>
    rcases List.mem_cons.mp hx with rfl | hx
    · exact ⟨_, List.mem_cons_self, h1⟩
    · obtain ⟨y, hy, h⟩ := ih hx
      exact ⟨y, List.mem_cons_of_mem _ hy, h⟩

theorem mute_calm : Calm Mute where
  good h := h.1
  mute h := h
  still h _ := h.2

theorem evalAll_mute {M : Mach} {ts : List Syn} (hb : ∀ t ∈ ts, t.bare) {e e' : Env} {rs : List Term}
    (h : Syn.evalAll M ts e = (.ok rs, e')) : ∀ r ∈ rs, Mute r := by
  intro r hr
  obtain ⟨x, hx, d, d', hd⟩ := forall₂_mem_right (evalAll_forall M _ h) hr
  have g := (Syn.eval_names M x hd).1
  exact ⟨g, bare_hasVar g (Syn.eval_bare M x (hb x hx) hd)⟩

/-- A compound of terms that are no commutative compounds, inside a commutative compound. -/
theorem eval_shallow {M : Mach} (hord : ∀ l, (M.ord l).Perm l) {c k : Connector} {n : List Char} {ts : List Syn}
    (hk : k.isCommutative = true) (hkc : k ≠ c) (hne : ts ≠ []) (hcat : ∀ t ∈ ts, t.commutes = false)
    (htwo : k.isMultipleOnly = true → ∃ x y, x ≠ y ∧ .name x ∈ ts ∧ .name y ∈ ts)
    (hint : mergeKind c k = .intersect → .name n ∈ ts ∧ ∀ t ∈ ts, ∃ s, t = .name s) (hb : ∀ t ∈ ts, t.bare)
    {e e' : Env} {r : Term} (hp : Poised M e (Syn.comp k ts).mentions) (h : (Syn.comp k ts).eval M e = (.ok r, e')) :
    Joined c (String.ofList n) e.world e'.world [r] := by
  have hp0 := hp
  rw [← List.append_nil (Syn.comp k ts).mentions] at hp0
  obtain ⟨_, ⟨W, ha⟩, _⟩ := hp0.acct hord h
  rw [Syn.mentions] at hp
  rw [Syn.eval] at h
  obtain ⟨rs, e1, h1, h⟩ := Act.bind_ok h
  obtain ⟨h2, _⟩ := makingTerm_ok h
  have hm := evalAll_mute hb h1
  obtain ⟨W1, ha1⟩ := hp.all hord h1
  have hw1 := ha1.reach
  have htk := evalAll_taken hord hp h1
  have hlen := evalAll_length h1
  have hrs : rs ≠ [] := by
    rintro rfl
    exact hne (List.length_eq_zero_iff.mp hlen.symm)
  have hplain : ∀ r ∈ rs, category r = none := by
    intro r hr
    obtain ⟨x, hx, d, d', hd⟩ := forall₂_mem_right (evalAll_forall M _ h1) hr
    exact Syn.eval_category (hcat x hx) hd
  obtain ⟨us, e0, hus, hmem⟩ := keyed_ne mute_keyed hm hrs
  have hkeep := setInsertAll_hash (fun t ht => (hm t ht).1) (by simp) e0
  rw [mkComp_flat_eq hord (fun t ht => (hm t ht).1) hk e0 hus hplain, Res.ok.injEq] at h2
  subst h2
  have hvalid : k.checkValid us.length = true := by
    refine checkValid_commutative hk (List.length_pos_of_ne_nil hus) fun h => ?_
    obtain ⟨x, y, hxy, hx, hy⟩ := htwo h
    obtain ⟨a, ha, ta⟩ := forall₂_mem_left htk hx
    obtain ⟨b, hb, tb⟩ := forall₂_mem_left htk hy
    obtain ⟨u, hu, eu⟩ := hkeep a (.inl ha)
    obtain ⟨v, hv, ev⟩ := hkeep b (.inl hb)
    by_contra hc
    have huv : u = v := by
      match us, hc, hu, hv with
      | [z], _, hu, hv => rw [List.mem_singleton.mp hu, List.mem_singleton.mp hv]
      | _ :: _ :: _, hc, _, _ => simp at hc
    have := ((ta x rfl).hash hw1 (tb y rfl) (by rw [← eu, ← ev, huv])).2
    exact hxy (String.ofList_injective this)
  have hsh : ∀ a, (mergeKind c k = .intersect → a ∈ rs ∧ Taken e1.world (String.ofList n) a) → Shallow c k a us := by
    intro a hi
    refine ⟨hvalid, fun u hu => hplain u (hmem u hu), fun hk => ?_⟩
    obtain ⟨h3, h4⟩ := hi hk
    refine ⟨hkeep a (.inl h3), fun u hu he => ?_⟩
    obtain ⟨x, hx, tx⟩ := forall₂_mem_right htk (hmem u hu)
    obtain ⟨s, rfl⟩ := (hint hk).2 x hx
    exact ((tx s rfl).hash hw1 h4 he).1
  by_cases hi : mergeKind c k = .intersect
  · obtain ⟨a, ha0, ta⟩ := forall₂_mem_left htk (hint hi).1
    have ta := ta n rfl
    have hS := hsh a fun _ => ⟨ha0, ta⟩
    have hM : Cnars.Mingled c a (Term.finishComp k us) := .shallow hk hkc hS
    refine ⟨fun b hb r hr => ?_, .inr ⟨a, fun r hr => ?_, ?_⟩⟩
    · rw [List.mem_singleton.mp hr, (hb.later ha1).unique hw1 ta]
      exact hM
    · rw [List.mem_singleton.mp hr]
      exact hM
    · refine ta.making hw1 h ha fun l hl => ?_
      obtain ⟨⟨u, hu, he⟩, h2⟩ := hS.shared hi
      obtain rfl := h2 u hu he
      exact leafTerms_mem hu hl
  · have hM : ∀ b, Cnars.Mingled c b (Term.finishComp k us) := fun b =>
      .shallow hk hkc (hsh b fun h => absurd h hi)
    refine ⟨fun b _ r hr => ?_, .inl fun b r hr => ?_⟩ <;>
    · rw [List.mem_singleton.mp hr]
      exact hM b

theorem evalAll_joined {M : Mach} (hord : ∀ l, (M.ord l).Perm l) {c : Connector} {n : String} :
    ∀ {ts : List Syn}, (∀ t ∈ ts, ∀ {e e' : Env} {r : Term}, Poised M e t.mentions → t.eval M e = (.ok r, e') →
      Joined c n e.world e'.world [r]) →
    ∀ {e e' : Env} {rs : List Term}, Poised M e (Syn.mentionsAll ts) → Syn.evalAll M ts e = (.ok rs, e') →
      Joined c n e.world e'.world rs
  | [], _, e, e', rs, hp, h => by
    rw [Syn.evalAll] at h
    obtain ⟨rfl, rfl⟩ := Act.pure_ok h
    exact ⟨by simp, .inl (by simp)⟩
  | t :: ts, ht, e, e', rs, hp, h => by
    rw [Syn.evalAll] at h
    obtain ⟨r, e1, h1, h⟩ := Act.bind_ok h
    obtain ⟨us, e2, h2, h⟩ := Act.bind_ok h
    obtain ⟨rfl, rfl⟩ := Act.pure_ok h
    rw [Syn.mentionsAll] at hp
    obtain ⟨p1, ⟨W, a1⟩, p2⟩ := hp.acct hord h1
    obtain ⟨W', a2⟩ := p2.all hord h2
    obtain ⟨j1, j2⟩ := ht t List.mem_cons_self p1 h1
    obtain ⟨k1, k2⟩ := evalAll_joined hord (fun t h => ht t (List.mem_cons_of_mem _ h)) p2 h2
    simp only [List.mem_singleton, forall_eq] at j1 j2
    refine ⟨fun b hb x hx => ?_, ?_⟩
    · rcases List.mem_cons.mp hx with rfl | hx
      · exact j1 b hb
      · exact k1 b (hb.later a1) x hx
    · rcases j2 with j2 | ⟨a, j2, j3⟩
      · rcases k2 with k2 | ⟨a, k2, k3⟩
        · refine .inl fun b x hx => ?_
          rcases List.mem_cons.mp hx with rfl | hx
          · exact j2 b
          · exact k2 b x hx
        · refine .inr ⟨a, fun x hx => ?_, k3⟩
          rcases List.mem_cons.mp hx with rfl | hx
          · exact j2 a
          · exact k2 x hx
      · refine .inr ⟨a, fun x hx => ?_, j3.later a2⟩
        rcases List.mem_cons.mp hx with rfl | hx
        · exact j2
        · exact k1 a j3 x hx

theorem Syn.eval_mingled {M : Mach} (hord : ∀ l, (M.ord l).Perm l) {c : Connector} (hc : c.isCommutative = true)
    {n : List Char} {t : Syn} (ht : t.Mingled c n) : ∀ {e e' : Env} {r : Term}, t.commutes = false ∨ t.bare →
    Poised M e t.mentions → t.eval M e = (.ok r, e') → Joined c (String.ofList n) e.world e'.world [r] := by
  induction ht with
  | other h =>
    intro e e' r _ _ he
    have hr : ∀ b, Cnars.Mingled c b r := fun _ => .other (Syn.eval_category h he)
    exact ⟨fun b _ x hx => by rw [List.mem_singleton.mp hx]; exact hr b,
      .inl fun b x hx => by rw [List.mem_singleton.mp hx]; exact hr b⟩
  | @shallow k ts hk hkc hne hcat htwo hint =>
    intro e e' r hb hp h
    rcases hb with hb | hb
    · simp [Syn.commutes, hk] at hb
    · exact eval_shallow hord hk hkc hne hcat htwo hint (bare_comps hb) hp h
  | @comp ts hne _ ih =>
    intro e e' r hb hp h
    replace hb : (Syn.comp c ts).bare := hb.resolve_left (by simp [Syn.commutes, hc])
    have hp0 := hp
    rw [← List.append_nil (Syn.comp c ts).mentions] at hp0
    obtain ⟨_, ⟨W, ha⟩, _⟩ := hp0.acct hord h
    rw [Syn.mentions] at hp
    rw [Syn.eval] at h
    obtain ⟨rs, e1, h1, h⟩ := Act.bind_ok h
    obtain ⟨h2, _⟩ := makingTerm_ok h
    have hm := evalAll_mute (bare_comps hb) h1
    obtain ⟨W1, ha1⟩ := hp.all hord h1
    have hrs : rs ≠ [] := by
      rintro rfl
      exact hne (List.length_eq_zero_iff.mp (evalAll_length h1).symm)
    obtain ⟨j1, j2⟩ := evalAll_joined hord (fun t ht => ih t ht (.inr (bare_comps hb t ht))) hp h1
    have hr : ∀ b, (∀ r ∈ rs, Cnars.Mingled c b r) → Cnars.Mingled c b r := by
      intro b hb
      obtain ⟨r', k1, k2⟩ := mkComp_mingled (b := true) hord hc mute_keyed mute_calm hrs fun t ht => ⟨hb t ht, hm t ht⟩
      rw [k1, Res.ok.injEq] at h2
      exact h2 ▸ k2
    refine ⟨fun b hb x hx => by rw [List.mem_singleton.mp hx]; exact hr b (j1 b hb), ?_⟩
    rcases j2 with j2 | ⟨a, j2, j3⟩
    · exact .inl fun b x hx => by rw [List.mem_singleton.mp hx]; exact hr b (j2 b)
    · rcases mingled_leaf (hr a j2) with hl | hl
      · exact .inl fun b x hx => by rw [List.mem_singleton.mp hx]; exact hl b
      · exact .inr ⟨a, fun x hx => by rw [List.mem_singleton.mp hx]; exact hr a j2, j3.making ha1.reach h ha hl⟩

end Cnars.Parser
