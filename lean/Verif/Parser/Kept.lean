import Verif.Parser.Again

/-!
# Lines of which no name is lost
-/

namespace Cnars.Parser
open Cnars Cnars.Props Cnars.Term

/-- A component of a commutative compound is a name, or there is only one component; a set is not
abbreviated around a commutative compound. -/
def Syn.Plain : Syn → Prop
  | .comp c ts => c.isCommutative = true →
    (∀ x ∈ ts, x.commutes = false) ∧ (ts.length ≤ 1 ∨ ∀ x ∈ ts, ∃ s, x = .name s ∨ x = .op s)
  | .stmt s c p => (c = .instance ∨ c = .instanceProperty → s.commutes = false) ∧
    (c = .property ∨ c = .instanceProperty → p.commutes = false)
  | _ => True

theorem leaves_comps {t l : Term} {ts : List Term} (h : ∀ u ∈ ts, u ∈ t.comps) {u : Term} (hu : u ∈ ts)
    (hl : l ∈ leafTerms u) : l ∈ leafTerms t := by
  have := h u hu
  cases t with
  | comp c us i => rw [leafTerms, mem_leafTermsAll]; exact ⟨u, this, hl⟩
  | _ => simp [Term.comps] at this

theorem mkComp_keeps {ord : Order} (hord : ∀ l, (ord l).Perm l) {c : Connector} {args : List Term} {b : Bool}
    {r : Term} (g : ∀ t ∈ args, Good t)
    (hc : c.isCommutative = true → Separated args ∧ ∀ t ∈ args, category t = none)
    (h : mkComp ord c args b = .ok r) : ∀ t ∈ args, ∀ l ∈ leafTerms t, l ∈ leafTerms r := by
  cases hcc : c.isCommutative with
  | true =>
    obtain ⟨h1, h2⟩ := hc hcc
    exact fun t ht l hl => leaves_comps (mkComp_flat_mem hord g hcc h1 h2 h) ht hl
  | false =>
    rw [mkComp_ordered g hcc, Res.ok.injEq] at h
    subst h
    intro t ht l hl
    rw [finishComp, leafTerms, mem_leafTermsAll]
    split
    · by_cases hu : ∃ us i, t = .comp c us i
      · obtain ⟨us, i, rfl⟩ := hu
        rw [leafTerms, mem_leafTermsAll] at hl
        obtain ⟨u, hu, hl⟩ := hl
        exact ⟨u, List.mem_flatMap.mpr ⟨_, ht, by simpa using hu⟩, hl⟩
      · refine ⟨t, List.mem_flatMap.mpr ⟨_, ht, ?_⟩, hl⟩
        cases t with
        | comp c' us i =>
          have : c' ≠ c := fun e => hu ⟨us, i, by rw [e]⟩
          simp [this]
        | _ => simp
    · exact ⟨t, ht, hl⟩

theorem newStmt_keeps {s p r : Term} {c : Copula} {b : Bool} (hs : Good s) (hp : Good p)
    (h : newStmt s c p b = .ok r) : ∀ l, l ∈ leafTerms s ∨ l ∈ leafTerms p → l ∈ leafTerms r := by
  rw [newStmt_subperm hs hp h]
  simp

theorem separated_one (t : Term) : Separated [t] := by
  intro a ha b hb _ _
  rw [List.mem_singleton] at ha hb
  rw [ha, hb]

theorem newStatement_keeps {M : Mach} (hord : ∀ l, (M.ord l).Perm l) {s p r : Term} {c : Copula}
    (hs : Good s) (hp : Good p)
    (h1 : c = .instance ∨ c = .instanceProperty → category s = none)
    (h2 : c = .property ∨ c = .instanceProperty → category p = none)
    (h : Action.newStatement M s c p = .ok r) :
    ∀ t ∈ [s, p], ∀ l ∈ leafTerms t, l ∈ leafTerms r := by
  have set : ∀ {k : Connector} {t t' : Term}, Good t → category t = none →
      mkComp M.ord k [t] false = .ok t' → Good t' ∧ ∀ l ∈ leafTerms t, l ∈ leafTerms t' := fun hg hc h => by
    refine ⟨(mkComp_leaves (by simpa using hg) h).1, ?_⟩
    have := mkComp_keeps hord (by simpa using hg) (fun _ => ⟨separated_one _, by simpa using hc⟩) h
    simpa using this
  have fin : (∀ l, l ∈ leafTerms s ∨ l ∈ leafTerms p → l ∈ leafTerms r) →
      ∀ t ∈ [s, p], ∀ l ∈ leafTerms t, l ∈ leafTerms r := fun h t ht l hl => by
    simp only [List.mem_cons, List.not_mem_nil, or_false] at ht
    rcases ht with rfl | rfl
    · exact h l (.inl hl)
    · exact h l (.inr hl)
  refine fin ?_
  unfold Action.newStatement at h
  split at h
  · simp only [Res.bind_eq_ok] at h
    obtain ⟨s', k1, k2⟩ := h
    obtain ⟨g, hl⟩ := set hs (h1 (by simp)) k1
    exact fun l h => newStmt_keeps g hp k2 l (h.imp (hl l) id)
  · simp only [Res.bind_eq_ok] at h
    obtain ⟨p', k1, k2⟩ := h
    obtain ⟨g, hl⟩ := set hp (h2 (by simp)) k1
    exact fun l h => newStmt_keeps hs g k2 l (h.imp id (hl l))
  · simp only [Res.bind_eq_ok] at h
    obtain ⟨s', k1, p', k3, k2⟩ := h
    obtain ⟨g, hl⟩ := set hs (h1 (by simp)) k1
    obtain ⟨g1, hl1⟩ := set hp (h2 (by simp)) k3
    exact fun l h => newStmt_keeps g g1 k2 l (h.imp (hl l) (hl1 l))
  · exact newStmt_keeps hs hp h

theorem newOperation_keeps {M : Mach} (hord : ∀ l, (M.ord l).Perm l) {f r : Term} {ts : List Term}
    (hf : Good f) (hts : ∀ t ∈ ts, Good t) (h : Action.newOperation M f ts = .ok r) :
    ∀ t ∈ f :: ts, ∀ l ∈ leafTerms t, l ∈ leafTerms r := by
  unfold Action.newOperation at h
  simp only [Res.bind_eq_ok] at h
  obtain ⟨s, h1, h2⟩ := h
  obtain ⟨g, _⟩ := mkComp_leaves hts h1
  have hk := mkComp_keeps hord hts (fun h => by cases h) h1
  intro t ht l hl
  rcases List.mem_cons.mp ht with rfl | ht
  · exact newStmt_keeps g hf h2 l (.inr hl)
  · exact newStmt_keeps g hf h2 l (.inl (hk t ht l hl))

/-- All handles, and handles on all new atoms. -/
def Holds (e e' : Env) : Prop :=
  (∀ j ∈ e.world.handles, j ∈ e'.world.handles) ∧
  ∀ j, e.world.atoms.length ≤ j → j < e'.world.atoms.length → j ∈ e'.world.handles

theorem Holds.trans {e e1 e2 : Env} (h : Holds e e1) (h' : Holds e1 e2) : Holds e e2 := by
  refine ⟨fun j hj => h'.1 j (h.1 j hj), fun j h1 h2 => ?_⟩
  rcases Nat.lt_or_ge j e1.world.atoms.length with h3 | h3
  · exact h'.1 j (h.2 j h1 h3)
  · exact h'.2 j h3 h2

theorem Holds.of_eq {e e' : Env} (h : e'.world = e.world) : Holds e e' :=
  ⟨fun j hj => by rw [h]; exact hj, fun j h1 h2 => by rw [h] at h2; omega⟩

theorem holds_lookup {w w' : World} {n : String} (h : w.lookup n = .ok w') :
    (∀ j ∈ w.handles, j ∈ w'.handles) ∧ ∀ j, w.atoms.length ≤ j → j < w'.atoms.length → j ∈ w'.handles := by
  unfold World.lookup at h
  simp only at h
  split at h
  · cases h
  · split at h
    · simp only [Res.ok.injEq] at h
      rw [← h]
      exact ⟨fun j hj => List.mem_append_left _ hj, fun j h1 h2 => absurd h2 (Nat.not_lt.mpr h1)⟩
    · cases h

theorem holds_alloc (w : World) (n : String) (a : Word) (b : Bool) :
    (∀ j ∈ w.handles, j ∈ (w.alloc n a b).handles) ∧
    ∀ j, w.atoms.length ≤ j → j < (w.alloc n a b).atoms.length → j ∈ (w.alloc n a b).handles := by
  refine ⟨fun j hj => List.mem_append_left _ hj, fun j h1 h2 => ?_⟩
  simp only [World.alloc, List.length_append, List.length_singleton] at h2
  obtain rfl : j = w.atoms.length := by omega
  simp [World.alloc]

theorem holds_create {e e' : Env} {n : String} {a : Word} (h : e.world.create n a = .ok e'.world) :
    Holds e e' := by
  unfold World.create at h
  split at h
  · exact holds_lookup h
  · have := holds_alloc e.world n a false
    rw [Res.ok.inj h] at this
    exact this

theorem holds_operation {e e' : Env} {n : String} {a : Word} (h : e.world.operation n a = .ok e'.world) :
    Holds e e' := by
  unfold World.operation at h
  split at h
  · exact holds_lookup h
  · have := holds_alloc e.world ("^" ++ n) a true
    rw [Res.ok.inj h] at this
    exact this

theorem forall₂_right {α β : Type} {R : α → β → Prop} {js : List α} {ls : List β}
    (h : List.Forall₂ R js ls) {l : β} (hl : l ∈ ls) : ∃ j ∈ js, R j l := by
  obtain ⟨j, h1, h2⟩ := forall₂_left h.flip hl
  exact ⟨j, h1, h2⟩

theorem dropAll_atoms {D : List Word} : ∀ {w w' : World},
    D.foldlM (fun w a => dropAddr a w) w = .ok w' → w'.atoms = w.atoms ∧ ∀ j ∈ w'.dictH, j ∈ w.dictH := by
  induction D with
  | nil => intro w w' h; cases h; exact ⟨rfl, fun _ h => h⟩
  | cons a D ih =>
    intro w w' h
    rw [List.foldlM_cons, Res.bind_eq_ok] at h
    obtain ⟨v, h1, h2⟩ := h
    obtain ⟨k1, k2⟩ := ih h2
    have : v.atoms = w.atoms ∧ ∀ j ∈ v.dictH, j ∈ w.dictH := by
      unfold dropAddr at h1
      split at h1
      · unfold World.drop at h1
        split at h1
        · dsimp only at h1
          split at h1
          · rw [Res.bind_eq_ok] at h1
            obtain ⟨v', q1, q2⟩ := h1
            cases q2
            exact later_removeF (w' := v') _ q1
          · cases h1; exact ⟨rfl, fun _ h => h⟩
        · cases h1
      · cases h1; exact ⟨rfl, fun _ h => h⟩
    exact ⟨k1.trans this.1, fun j hj => this.2 j (k2 j hj)⟩

theorem holds_making {W : String → Prop} {w0 : World} {e e' : Env} {live args : List Term}
    {res : Res Term} {r : Term} (h : makingTerm args res e = (.ok r, e'))
    (ha : Acct W w0 e.world (live ++ args)) (hs : (leafTerms r).Subperm (leafTermsAll args))
    (hk : ∀ t ∈ args, ∀ l ∈ leafTerms t, l ∈ leafTerms r) : Holds e e' := by
  obtain ⟨a', _⟩ := makingTerm_acct h ha hs
  have hd : e'.world.atoms = e.world.atoms ∧ ∀ j ∈ e'.world.dictH, j ∈ e.world.dictH := by
    obtain ⟨t', e1, h1, h⟩ := Act.bind_ok h
    obtain ⟨u, e2, h2, h⟩ := Act.bind_ok h
    obtain ⟨rfl, rfl⟩ := Act.pure_ok h
    obtain ⟨_, rfl⟩ := Act.lift_ok h1
    exact dropAll_atoms (onWorld_ok h2).1
  refine ⟨fun j hj => ?_, fun j h1 h2 => by rw [hd.1] at h2; omega⟩
  obtain ⟨js, p1, f1⟩ := ha.bal
  obtain ⟨ks, p2, f2⟩ := a'.bal
  rcases List.mem_append.mp (p1.mem_iff.mp hj) with hj' | hj'
  · exact a'.keeps hj'
  · obtain ⟨l, hl, n, _, hx⟩ := forall₂_left f1 hj'
    have hl' : l ∈ atomsAll (live ++ [r]) := by
      rw [atomsAll_append, List.mem_append] at hl ⊢
      refine hl.imp id fun hl => ?_
      simp only [atomsAll, List.mem_filterMap, leafTermsAll_one] at hl ⊢
      obtain ⟨x, hx, hx'⟩ := hl
      obtain ⟨t, ht, hx⟩ := mem_leafTermsAll.mp hx
      exact ⟨x, hk t ht x hx, hx'⟩
    obtain ⟨i, hi, m, _, hy⟩ := forall₂_right f2 hl'
    have hi' : i ∈ e'.world.handles := p2.mem_iff.mpr (List.mem_append_right _ hi)
    have hid := hd.2 i (a'.reach.tidy.1.sub i hi')
    rw [hd.1] at hy
    obtain rfl := addr_inj ha.reach.tidy.1 hid (ha.reach.tidy.1.sub j hj) hy hx rfl
    exact hi'

/-- Named terms that are held are told apart. -/
theorem named_separated {W : String → Prop} {w0 w : World} {live args : List Term}
    (ha : Acct W w0 w (live ++ args)) (hn : ∀ t ∈ args, IsNamed t) : Separated args := by
  have ht := ha.reach.tidy.1
  obtain ⟨js, p1, f1⟩ := ha.bal
  have key : ∀ t ∈ args, Good t ∧ ∃ j ∈ w.dictH, ∃ x, w.atoms[j]? = some x ∧ t = termOf x := by
    intro t hm
    have : ∃ l, atomOf t = some l ∧ leafTerms t = [t] ∧ ∀ n, t = termOf ⟨l.1, n, l.2⟩ := by
      obtain ⟨a, rfl | rfl⟩ := hn t hm
      · exact ⟨(a, true), rfl, rfl, fun n => rfl⟩
      · exact ⟨(a, false), rfl, rfl, fun n => rfl⟩
    obtain ⟨l, h1, h2, h3⟩ := this
    have hl : l ∈ atomsAll (live ++ args) := by
      rw [atomsAll_append, List.mem_append]
      exact .inr (List.mem_filterMap.mpr ⟨t, mem_leafTermsAll.mpr ⟨t, hm, by rw [h2]; simp⟩, h1⟩)
    obtain ⟨j, hj, n, _, hx⟩ := forall₂_right f1 hl
    exact ⟨(hn t hm).good, j, ht.sub j (p1.mem_iff.mpr (List.mem_append_right _ hj)), _, hx, h3 n⟩
  intro a ham b hbm h1 h2
  obtain ⟨ga, i, hi, x, hx, ea⟩ := key a ham
  obtain ⟨gb, j, hj, y, hy, eb⟩ := key b hbm
  by_cases hh : a.hash = b.hash
  · have hash : ∀ x : Named, (termOf x).hash = Term.atomHash x.addr := fun x => by
      unfold termOf; split <;> rfl
    rw [ea, eb, hash, hash] at hh
    obtain rfl := ht.keyInj i hi j hj (by simp only [World.key, hx, hy, hh])
    rw [hx, Option.some.injEq] at hy
    rw [ea, eb, hy]
  · rw [lt_of_hash_ne ga hh, Res.ok.injEq, decide_eq_false_iff_not] at h1
    rw [lt_of_hash_ne gb (Ne.symm hh), Res.ok.injEq, decide_eq_false_iff_not] at h2
    exact absurd (BitVec.le_antisymm (BitVec.not_lt.mp h2) (BitVec.not_lt.mp h1)) hh

theorem plain_args {M : Mach} {W : String → Prop} {w0 : World} {e e1 : Env} {live rs : List Term}
    {c : Connector} {ts : List Syn} (hp : (Syn.comp c ts).Plain) (h : Syn.evalAll M ts e = (.ok rs, e1))
    (ha : Acct W w0 e1.world (live ++ rs)) (hc : c.isCommutative = true) :
    Separated rs ∧ ∀ t ∈ rs, category t = none := by
  have hf := evalAll_forall M _ h
  obtain ⟨h1, h2⟩ := hp hc
  refine ⟨?_, fun t ht => ?_⟩
  · rcases h2 with h2 | h2
    · rw [hf.length_eq] at h2
      match rs, h2 with
      | [], _ => intro a ha; simp at ha
      | [t], _ => exact separated_one t
    · refine named_separated ha fun t ht => ?_
      obtain ⟨x, hx, d, d', hd⟩ := forall₂_mem_right hf ht
      obtain ⟨s, rfl | rfl⟩ := h2 x hx <;> exact (named_ok hd).1
  · obtain ⟨x, hx, d, d', hd⟩ := forall₂_mem_right hf ht
    exact Syn.eval_category (h1 x hx) hd

theorem acct_swap {W : String → Prop} {w0 w : World} {live ts : List Term} {f : Term}
    (h : Acct W w0 w (live ++ ts ++ [f])) : Acct W w0 w (live ++ (f :: ts)) := by
  rw [List.append_assoc] at h
  obtain ⟨k1, k2, js, k3, k4⟩ := h
  refine ⟨k1, k2, ?_⟩
  have hp : (atomsAll (live ++ (ts ++ [f]))).Perm (atomsAll (live ++ (f :: ts))) := by
    rw [atomsAll_append, atomsAll_append, atomsAll_append]
    refine List.Perm.append_left _ ?_
    have : f :: ts = [f] ++ ts := rfl
    rw [this, atomsAll_append]
    exact List.perm_append_comm
  obtain ⟨ks, q1, q2⟩ := List.perm_comp_forall₂ hp.symm k4.flip
  exact ⟨ks, k3.trans (q2.symm.append_left _), q1.flip⟩

mutual
/-- When it is evaluated, no component of a commutative compound is a commutative compound, and no two
different components are equivalent under the comparator; a set is not abbreviated around a commutative
compound. -/
def Syn.Clear (M : Mach) : Syn → Env → Prop
  | .name _, _ | .op _, _ | .interval _, _ | .var .., _ => True
  | .stmt s c p, e => (Syn.stmt s c p).Plain ∧ Syn.Clear M s e ∧
    ∀ r e', s.eval M e = (.ok r, e') → Syn.Clear M p e'
  | .comp c ts, e => Syn.ClearAll M ts e ∧ (c.isCommutative = true → (∀ x ∈ ts, x.commutes = false) ∧
    ∀ rs e', Syn.evalAll M ts e = (.ok rs, e') → Separated rs)
  | .call f ts, e => Syn.Clear M f e ∧ ∀ r e', f.eval M e = (.ok r, e') → Syn.ClearAll M ts e'
  | .callName _ ts, e => Syn.ClearAll M ts e
/-- The same for lists. -/
def Syn.ClearAll (M : Mach) : List Syn → Env → Prop
  | [], _ => True
  | t :: ts, e => Syn.Clear M t e ∧ ∀ r e', t.eval M e = (.ok r, e') → Syn.ClearAll M ts e'
end

theorem clear_args {M : Mach} {e e1 : Env} {rs : List Term} {c : Connector} {ts : List Syn}
    (hp : (Syn.comp c ts).Clear M e) (h : Syn.evalAll M ts e = (.ok rs, e1)) (hc : c.isCommutative = true) :
    Separated rs ∧ ∀ t ∈ rs, category t = none := by
  have hf := evalAll_forall M _ h
  rw [Syn.Clear] at hp
  obtain ⟨h1, h2⟩ := hp.2 hc
  refine ⟨h2 _ _ h, fun t ht => ?_⟩
  obtain ⟨x, hx, d, d', hd⟩ := forall₂_mem_right hf ht
  exact Syn.eval_category (h1 x hx) hd

mutual
/-- Commutative compounds of words, and those with a single component. -/
theorem Syn.plain_clear {M : Mach} (hord : ∀ l, (M.ord l).Perm l) {N : Nat} (hM : FreshBelow M N)
    {w0 : World} (h0 : Reach false w0) :
    ∀ (t : Syn) {e : Env} {live : List Term} {seen : List Mention}, (∀ u ∈ t.subs, u.Plain) →
    AcctN seen w0 e.world live → Paired w0 seen t.mentions →
    e.world.dictH.length + t.mentions.length ≤ N → t.Clear M e
  | .name _, _, _, _, _, _, _, _ | .op _, _, _, _, _, _, _, _ | .interval _, _, _, _, _, _, _, _
  | .var .., _, _, _, _, _, _, _ => by rw [Syn.Clear]; trivial
  | .stmt s c p, e, live, seen, hp, ha, hok, hN => by
    rw [Syn.mentions] at hok hN
    rw [List.length_append] at hN
    rw [Syn.subs] at hp
    obtain ⟨hok1, hok2⟩ := hok.append
    obtain ⟨hp0, hp⟩ := List.forall_mem_cons.mp hp
    obtain ⟨hp1, hp2⟩ := List.forall_mem_append.mp hp
    rw [Syn.Clear]
    refine ⟨hp0, Syn.plain_clear hord hM h0 s hp1 ha hok1 (by omega), fun r e' h1 => ?_⟩
    obtain ⟨a1, d1⟩ := Syn.eval_acct hord hM h0 s h1 ha hok1 (by omega)
    exact Syn.plain_clear hord hM h0 p hp2 a1 hok2 (by omega)
  | .comp c ts, e, live, seen, hp, ha, hok, hN => by
    rw [Syn.mentions] at hok hN
    rw [Syn.subs] at hp
    obtain ⟨hp0, hp⟩ := List.forall_mem_cons.mp hp
    rw [Syn.Clear]
    refine ⟨Syn.plainAll_clear hord hM h0 ts hp ha hok hN, fun hc => ⟨(hp0 hc).1, fun rs e' h1 => ?_⟩⟩
    exact (plain_args hp0 h1 (Syn.evalAll_acct hord hM h0 ts h1 ha hok hN).1 hc).1
  | .call f ts, e, live, seen, hp, ha, hok, hN => by
    rw [Syn.mentions] at hok hN
    rw [List.length_append] at hN
    rw [Syn.subs] at hp
    obtain ⟨hok1, hok2⟩ := hok.append
    obtain ⟨_, hp⟩ := List.forall_mem_cons.mp hp
    obtain ⟨hp1, hp2⟩ := List.forall_mem_append.mp hp
    rw [Syn.Clear]
    refine ⟨Syn.plain_clear hord hM h0 f hp1 ha hok1 (by omega), fun r e' h1 => ?_⟩
    obtain ⟨a1, d1⟩ := Syn.eval_acct hord hM h0 f h1 ha hok1 (by omega)
    exact Syn.plainAll_clear hord hM h0 ts hp2 a1 hok2 (by omega)
  | .callName s ts, e, live, seen, hp, ha, hok, hN => by
    rw [Syn.mentions] at hok hN
    rw [List.length_append, List.length_singleton] at hN
    rw [Syn.subs] at hp
    obtain ⟨_, hp⟩ := List.forall_mem_cons.mp hp
    rw [Syn.Clear]
    exact Syn.plainAll_clear hord hM h0 ts hp ha hok.append.1 (by omega)
/-- The same for lists. -/
theorem Syn.plainAll_clear {M : Mach} (hord : ∀ l, (M.ord l).Perm l) {N : Nat} (hM : FreshBelow M N)
    {w0 : World} (h0 : Reach false w0) :
    ∀ (ts : List Syn) {e : Env} {live : List Term} {seen : List Mention}, (∀ u ∈ Syn.subsAll ts, u.Plain) →
    AcctN seen w0 e.world live → Paired w0 seen (Syn.mentionsAll ts) →
    e.world.dictH.length + (Syn.mentionsAll ts).length ≤ N → Syn.ClearAll M ts e
  | [], _, _, _, _, _, _, _ => by rw [Syn.ClearAll]; trivial
  | t :: ts, e, live, seen, hp, ha, hok, hN => by
    rw [Syn.mentionsAll] at hok hN
    rw [List.length_append] at hN
    rw [Syn.subsAll] at hp
    obtain ⟨hok1, hok2⟩ := hok.append
    obtain ⟨hp1, hp2⟩ := List.forall_mem_append.mp hp
    rw [Syn.ClearAll]
    refine ⟨Syn.plain_clear hord hM h0 t hp1 ha hok1 (by omega), fun r e' h1 => ?_⟩
    obtain ⟨a1, d1⟩ := Syn.eval_acct hord hM h0 t h1 ha hok1 (by omega)
    exact Syn.plainAll_clear hord hM h0 ts hp2 a1 hok2 (by omega)
end

mutual
/-- No handle is lost, and there is one on each new atom. -/
theorem Syn.eval_holds {M : Mach} (hord : ∀ l, (M.ord l).Perm l) {N : Nat} (hM : FreshBelow M N)
    {w0 : World} (h0 : Reach false w0) :
    ∀ (t : Syn) {e e' : Env} {r : Term} {live : List Term} {seen : List Mention},
    t.Clear M e →
    t.eval M e = (.ok r, e') → AcctN seen w0 e.world live → Paired w0 seen t.mentions →
    e.world.dictH.length + t.mentions.length ≤ N → Holds e e'
  | .name s, e, e', r, live, seen, hp, h, ha, hok, hN => holds_create (named_ok h).2.2.2.1
  | .op s, e, e', r, live, seen, hp, h, ha, hok, hN => holds_operation (named_ok h).2.2.2.1
  | .interval s, e, e', r, live, seen, hp, h, ha, hok, hN => by
    rw [Syn.eval] at h
    obtain ⟨x, e1, h1, h⟩ := Act.bind_ok h
    obtain ⟨n, e2, h2, h⟩ := Act.bind_ok h
    obtain ⟨rfl, rfl⟩ := Act.pure_ok h
    obtain ⟨k1, rfl⟩ := Act.lift_ok h1
    obtain ⟨k2, rfl⟩ := Act.lift_ok h2
    exact .of_eq rfl
  | .var k s, e, e', r, live, seen, hp, h, ha, hok, hN => by
    rw [Syn.eval] at h
    obtain ⟨i, e1, h1, h⟩ := Act.bind_ok h
    obtain ⟨rfl, rfl⟩ := Act.pure_ok h
    simp only [Action.number, Prod.mk.injEq, Res.ok.injEq] at h1
    exact .of_eq (by rw [← h1.2])
  | .stmt s c p, e, e', r, live, seen, hp, h, ha, hok, hN => by
    rw [Syn.mentions] at hok hN
    rw [List.length_append] at hN
    rw [Syn.Clear] at hp
    rw [Syn.eval] at h
    obtain ⟨s', e1, h1, h⟩ := Act.bind_ok h
    obtain ⟨p', e2, h2, h⟩ := Act.bind_ok h
    obtain ⟨hok1, hok2⟩ := hok.append
    obtain ⟨hp0, hp1, hp2⟩ := hp
    have hp2 := hp2 _ _ h1
    obtain ⟨a1, d1⟩ := Syn.eval_acct hord hM h0 s h1 ha hok1 (by omega)
    obtain ⟨a2, d2⟩ := Syn.eval_acct hord hM h0 p h2 a1 hok2 (by omega)
    have q1 := Syn.eval_holds hord hM h0 s hp1 h1 ha hok1 (by omega)
    have q2 := Syn.eval_holds hord hM h0 p hp2 h2 a1 hok2 (by omega)
    obtain ⟨h3, _⟩ := makingTerm_ok h
    have g1 := (Syn.eval_names M s h1).1
    have g2 := (Syn.eval_names M p h2).1
    rw [List.append_assoc live, List.singleton_append] at a2
    exact (q1.trans q2).trans (holds_making h a2 (newStatement_subperm hord g1 g2 h3)
      (newStatement_keeps hord g1 g2 (fun hc => Syn.eval_category (hp0.1 hc) h1)
        (fun hc => Syn.eval_category (hp0.2 hc) h2) h3))
  | .comp c ts, e, e', r, live, seen, hp, h, ha, hok, hN => by
    rw [Syn.mentions] at hok hN
    have hp0 := hp
    rw [Syn.Clear] at hp
    have hp := hp.1
    rw [Syn.eval] at h
    obtain ⟨ts', e1, h1, h⟩ := Act.bind_ok h
    obtain ⟨a1, d1⟩ := Syn.evalAll_acct hord hM h0 ts h1 ha hok hN
    have q1 := Syn.evalAll_holds hord hM h0 ts hp h1 ha hok hN
    obtain ⟨g1, _⟩ := Syn.evalAll_names M ts h1
    obtain ⟨h3, _⟩ := makingTerm_ok h
    exact q1.trans (holds_making h a1 (mkComp_subperm hord g1 h3)
      (mkComp_keeps hord g1 (clear_args hp0 h1) h3))
  | .call f ts, e, e', r, live, seen, hp, h, ha, hok, hN => by
    rw [Syn.mentions] at hok hN
    rw [List.length_append] at hN
    rw [Syn.Clear] at hp
    rw [Syn.eval] at h
    obtain ⟨f', e1, h1, h⟩ := Act.bind_ok h
    obtain ⟨ts', e2, h2, h⟩ := Act.bind_ok h
    obtain ⟨hok1, hok2⟩ := hok.append
    have hp1 := hp.1
    have hp2 := hp.2 _ _ h1
    obtain ⟨a1, d1⟩ := Syn.eval_acct hord hM h0 f h1 ha hok1 (by omega)
    obtain ⟨a2, d2⟩ := Syn.evalAll_acct hord hM h0 ts h2 a1 hok2 (by omega)
    have q1 := Syn.eval_holds hord hM h0 f hp1 h1 ha hok1 (by omega)
    have q2 := Syn.evalAll_holds hord hM h0 ts hp2 h2 a1 hok2 (by omega)
    obtain ⟨g1, _⟩ := Syn.eval_names M f h1
    obtain ⟨g2, _⟩ := Syn.evalAll_names M ts h2
    obtain ⟨h3, _⟩ := makingTerm_ok h
    rw [List.append_assoc live, List.singleton_append] at a2
    exact (q1.trans q2).trans (holds_making h a2 (newOperation_subperm hord g1 g2 h3)
      (newOperation_keeps hord g1 g2 h3))
  | .callName s ts, e, e', r, live, seen, hp, h, ha, hok, hN => by
    rw [Syn.mentions] at hok hN
    rw [List.length_append, List.length_singleton] at hN
    rw [Syn.Clear] at hp
    rw [Syn.eval] at h
    obtain ⟨ts', e1, h1, h⟩ := Act.bind_ok h
    obtain ⟨f', e2, h2, h⟩ := Act.bind_ok h
    obtain ⟨hok1, hok2⟩ := hok.append
    obtain ⟨a1, d1⟩ := Syn.evalAll_acct hord hM h0 ts h1 ha hok1 (by omega)
    obtain ⟨a2, d2⟩ := operation_acct hM h0 h2 a1 hok2 (by omega)
    have q1 := Syn.evalAll_holds hord hM h0 ts hp h1 ha hok1 (by omega)
    have q2 : Holds e1 e2 := holds_operation (named_ok h2).2.2.2.1
    obtain ⟨g1, _⟩ := Syn.evalAll_names M ts h1
    obtain ⟨h5, _⟩ := named_ok h2
    obtain ⟨h3, _⟩ := makingTerm_ok h
    exact (q1.trans q2).trans (holds_making h (acct_swap a2) (newOperation_subperm hord h5.good g1 h3)
      (newOperation_keeps hord h5.good g1 h3))
/-- The same for lists. -/
theorem Syn.evalAll_holds {M : Mach} (hord : ∀ l, (M.ord l).Perm l) {N : Nat} (hM : FreshBelow M N)
    {w0 : World} (h0 : Reach false w0) :
    ∀ (ts : List Syn) {e e' : Env} {rs : List Term} {live : List Term} {seen : List Mention},
    Syn.ClearAll M ts e →
    Syn.evalAll M ts e = (.ok rs, e') → AcctN seen w0 e.world live →
    Paired w0 seen (Syn.mentionsAll ts) →
    e.world.dictH.length + (Syn.mentionsAll ts).length ≤ N → Holds e e'
  | [], e, e', rs, live, seen, hp, h, ha, hok, hN => by
    rw [Syn.evalAll] at h
    obtain ⟨rfl, rfl⟩ := Act.pure_ok h
    exact .of_eq rfl
  | t :: ts, e, e', rs, live, seen, hp, h, ha, hok, hN => by
    rw [Syn.mentionsAll] at hok hN
    rw [List.length_append] at hN
    rw [Syn.ClearAll] at hp
    rw [Syn.evalAll] at h
    obtain ⟨r, e1, h1, h⟩ := Act.bind_ok h
    obtain ⟨us, e2, h2, h⟩ := Act.bind_ok h
    obtain ⟨rfl, rfl⟩ := Act.pure_ok h
    obtain ⟨hok1, hok2⟩ := hok.append
    have hp1 := hp.1
    have hp2 := hp.2 _ _ h1
    obtain ⟨a1, d1⟩ := Syn.eval_acct hord hM h0 t h1 ha hok1 (by omega)
    exact (Syn.eval_holds hord hM h0 t hp1 h1 ha hok1 (by omega)).trans
      (Syn.evalAll_holds hord hM h0 ts hp2 h2 a1 hok2 (by omega))
end

end Cnars.Parser
