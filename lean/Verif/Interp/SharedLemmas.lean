import Verif.Interp.Shared
import Verif.Props.Interning
import Mathlib.Data.List.Perm.Basic
import Mathlib.Data.List.Perm.Subperm

/-!
# Invariants of terms that share their parts
-/

namespace Cnars.Shared
open Cnars Cnars.Props

/-- The number of the atom. -/
def Ref.atom? : Ref → Option Nat
  | .atom j => some j
  | .obj _ => none

/-- What the variable owns. -/
def Var.own? : Var → Option Ref
  | .own r => some r
  | .borrow _ _ => none

/-- The handles of variables. -/
def Graph.owned (g : Graph) : List Ref := g.vars.filterMap Var.own?

/-- All handles; `todo` are those being destroyed. -/
def Graph.all (g : Graph) (todo : List Ref) : List Ref := todo ++ (g.owned ++ g.inner)

/-- What holds all the time. -/
structure Tally (g : Graph) (todo : List Ref) : Prop where
  reach : Reach false g.world
  handles : g.world.handles.Perm ((g.all todo).filterMap Ref.atom?)
  uses : ∀ (i : Nat) (n : Node), g.nodes[i]? = some n → n.uses = (g.all todo).count (.obj i)
  valid : ∀ i, .obj i ∈ g.all todo → i < g.nodes.length
  down : ∀ (i : Nat) (n : Node), g.nodes[i]? = some n → ∀ j, .obj j ∈ n.members → j < i
  dead : ∀ (i : Nat) (n : Node), g.nodes[i]? = some n → n.uses = 0 → n.members = []

theorem Tally.init : Tally Graph.init [] :=
  ⟨.init, by simp [Graph.init, World.init, Graph.all, Graph.owned, Graph.inner],
    fun i n h => by simp [Graph.init] at h, fun i h => by simp [Graph.init, Graph.all, Graph.owned, Graph.inner] at h,
    fun i n h => by simp [Graph.init] at h, fun i n h => by simp [Graph.init] at h⟩

/-- The handles in one object and those in all others. -/
theorem inner_split {ns : List Node} {i : Nat} {n m : Node} (h : ns[i]? = some n) :
    ∃ l1 l2, ns.flatMap (·.members) = l1 ++ (n.members ++ l2) ∧
      (ns.set i m).flatMap (·.members) = l1 ++ (m.members ++ l2) := by
  obtain ⟨hi, h⟩ := List.getElem?_eq_some_iff.mp h
  refine ⟨(ns.take i).flatMap (·.members), (ns.drop (i + 1)).flatMap (·.members), ?_, ?_⟩
  · have : ns = ns.take i ++ n :: ns.drop (i + 1) := by
      rw [← h]; simp
    conv_lhs => rw [this]
    simp
  · rw [List.set_eq_take_append_cons_drop, if_pos hi]
    simp

/-- Changing the number of handles on an object does not change those in it. -/
theorem inner_set {ns : List Node} {i : Nat} {n : Node} {k : Nat} (h : ns[i]? = some n) :
    (ns.set i { n with uses := k }).flatMap (·.members) = ns.flatMap (·.members) := by
  obtain ⟨l1, l2, h1, h2⟩ := inner_split (m := { n with uses := k }) h
  rw [h1, h2]

theorem idxOf?_mem {l : List Nat} {j : Nat} (h : j ∈ l) : ∃ i, l.idxOf? j = some i ∧ l[i]? = some j := by
  cases e : l.idxOf? j with
  | none => rw [List.idxOf?_eq_none_iff] at e; exact absurd h e
  | some i =>
    refine ⟨i, rfl, ?_⟩
    rw [List.idxOf?, List.findIdx?_eq_some_iff_getElem] at e
    obtain ⟨hi, hp, _⟩ := e
    rw [List.getElem?_eq_getElem hi]
    simpa using hp

theorem eraseIdx_perm {l : List Nat} {i j : Nat} (h : l[i]? = some j) : (j :: l.eraseIdx i).Perm l := by
  obtain ⟨hi, h⟩ := List.getElem?_eq_some_iff.mp h
  rw [← h]
  exact List.getElem_cons_eraseIdx_perm hi

/-- What lives now lived before, with the same handles in it. -/
def Same (g g' : Graph) : Prop :=
  ∀ (i : Nat) (n' : Node), i < g.nodes.length → g'.nodes[i]? = some n' → n'.uses ≠ 0 →
    ∃ n : Node, g.nodes[i]? = some n ∧ n.uses ≠ 0 ∧ n'.kind = n.kind ∧ n'.members = n.members

theorem Same.refl (g : Graph) : Same g g := fun _ n _ hn hu => ⟨n, hn, hu, rfl, rfl⟩

theorem Same.trans {g1 g2 g3 : Graph} (h1 : Same g1 g2) (h2 : Same g2 g3)
    (hl : g1.nodes.length ≤ g2.nodes.length) : Same g1 g3 := by
  intro i n hi hn hu
  obtain ⟨n2, k1, k2, k3, k4⟩ := h2 i n (by omega) hn hu
  obtain ⟨n1, l1, l2, l3, l4⟩ := h1 i n2 hi k1 k2
  exact ⟨n1, l1, l2, k3.trans l3, k4.trans l4⟩

/-- Copying a handle that there is. -/
theorem Tally.addRef {g : Graph} {todo : List Ref} (h : Tally g todo) {r : Ref} (hr : r ∈ g.all todo) :
    ∃ g', g.addRef r = .ok g' ∧ Tally g' (r :: todo) ∧ g'.vars = g.vars ∧ g'.nodes.length = g.nodes.length ∧
      g'.world.atoms = g.world.atoms ∧ g'.inner = g.inner ∧
      Same g g' := by
  cases r with
  | atom j =>
    have hj : j ∈ g.world.handles := by
      rw [h.handles.mem_iff, List.mem_filterMap]
      exact ⟨_, hr, rfl⟩
    obtain ⟨i, h1, h2⟩ := idxOf?_mem hj
    have hc : g.world.copy i = .ok { g.world with handles := g.world.handles ++ [j] } := by
      simp only [World.copy, h2]
    refine ⟨{ g with world := { g.world with handles := g.world.handles ++ [j] } }, ?_,
      ⟨.step (.copy i) h.reach (List.getElem?_eq_some_iff.mp h2).1 hc, ?_, ?_, ?_, h.down, h.dead⟩,
      rfl, rfl, rfl, rfl, .refl _⟩
    · simp only [Graph.addRef, h1, hc, Res.ok_bind]; rfl
    · have : (g.all (.atom j :: todo)).filterMap Ref.atom? = j :: (g.all todo).filterMap Ref.atom? := by
        simp [Graph.all, Ref.atom?]
      show (g.world.handles ++ [j]).Perm ((g.all (.atom j :: todo)).filterMap Ref.atom?)
      rw [this]
      exact (List.perm_append_comm).trans (h.handles.cons j)
    · intro i n hn
      have := h.uses i n hn
      show n.uses = (g.all (.atom j :: todo)).count (.obj i)
      rw [this]
      simp [Graph.all]
    · intro i hi
      exact h.valid i (by simpa [Graph.all, Graph.owned, Graph.inner] using hi)
  | obj i =>
    have hi := h.valid i hr
    have hn := List.getElem?_eq_getElem hi
    have hu := h.uses i _ hn
    have hpos : 0 < (g.all todo).count (.obj i) := List.count_pos_iff.mpr hr
    have hin : Graph.inner { g with nodes := g.nodes.set i { g.nodes[i] with uses := g.nodes[i].uses + 1 } } =
        g.inner := inner_set hn
    have hall : ∀ todo, Graph.all { g with nodes := g.nodes.set i { g.nodes[i] with uses := g.nodes[i].uses + 1 } } todo =
        g.all todo := fun todo => by
      simp only [Graph.all, hin]; rfl
    have hcons : g.all (.obj i :: todo) = .obj i :: g.all todo := rfl
    refine ⟨{ g with nodes := g.nodes.set i { g.nodes[i] with uses := g.nodes[i].uses + 1 } }, ?_,
      ⟨h.reach, ?_, ?_, ?_, ?_, ?_⟩, rfl, by simp, rfl, hin, ?_⟩
    · simp only [Graph.addRef, hn]
      rw [if_neg (by omega)]
    · rw [hall, hcons]
      rw [List.filterMap_cons]
      exact h.handles
    · intro k n hk
      rw [hall, hcons]
      simp only [List.getElem?_set] at hk
      split at hk
      · rename_i e
        subst e
        try rw [if_pos hi] at hk
        cases hk
        simp [hu]
      · rename_i e
        rw [h.uses k n hk, List.count_cons_of_ne (by simpa using e)]
    · intro k hk
      rw [hall, hcons] at hk
      simp only [List.length_set]
      rcases List.mem_cons.mp hk with e | hk
      · cases e; exact hi
      · exact h.valid k hk
    · intro k n hk
      simp only [List.getElem?_set] at hk
      split at hk
      · rename_i e
        subst e
        try rw [if_pos hi] at hk
        cases hk
        exact h.down i g.nodes[i] hn
      · exact h.down k n hk
    · intro k n hk
      simp only [List.getElem?_set] at hk
      split at hk
      · rename_i e
        subst e
        try rw [if_pos hi] at hk
        cases hk
        intro h0
        simp at h0
      · exact h.dead k n hk
    · intro k n' _ hk hu'
      simp only [List.getElem?_set] at hk
      split at hk
      · rename_i e
        subst e
        try rw [if_pos hi] at hk
        cases hk
        exact ⟨_, hn, by omega, rfl, rfl⟩
      · exact ⟨n', hk, hu', rfl, rfl⟩

/-- Copying several. -/
theorem Tally.addRefs {g : Graph} {todo : List Ref} (h : Tally g todo) {rs : List Ref}
    (hr : ∀ r ∈ rs, r ∈ g.all todo) :
    ∃ g', g.addRefs rs = .ok g' ∧ Tally g' (rs ++ todo) ∧ g'.vars = g.vars ∧ g'.nodes.length = g.nodes.length ∧
      g'.world.atoms = g.world.atoms ∧ g'.inner = g.inner ∧
      Same g g' := by
  induction rs generalizing g todo with
  | nil => exact ⟨g, rfl, h, rfl, rfl, rfl, rfl, .refl _⟩
  | cons r rs ih =>
    obtain ⟨g1, k1, k2, k3, k4, k5, k6, k7⟩ := h.addRef (hr r (by simp))
    have e : ∀ todo, g1.all todo = g.all todo := fun todo => by
      simp only [Graph.all, Graph.owned, k3, k6]
    obtain ⟨g2, l1, l2, l3, l4, l5, l6, l7⟩ := ih k2 (fun r' hr' => by
      rw [e]
      exact List.mem_cons_of_mem _ (hr r' (List.mem_cons_of_mem _ hr')))
    refine ⟨g2, ?_, ?_, l3.trans k3, l4.trans k4, l5.trans k5, l6.trans k6, k7.trans l7 (by omega)⟩
    · unfold Graph.addRefs at l1 ⊢
      rw [List.foldlM_cons, k1]
      exact l1
    · have hp : (g2.all (rs ++ r :: todo)).Perm (g2.all (r :: rs ++ todo)) :=
        List.Perm.append_right _ List.perm_middle
      exact ⟨l2.reach, l2.handles.trans (hp.filterMap _), fun i n hn => (l2.uses i n hn).trans (hp.count_eq _),
        fun i hi => l2.valid i (hp.mem_iff.mpr hi), l2.down, l2.dead⟩

/-- Destroying handles is defined. -/
theorem Tally.release {g : Graph} {todo : List Ref} (h : Tally g todo) {f : Nat}
    (hf : todo.length + g.inner.length ≤ f) :
    ∃ g', g.release f todo = .ok g' ∧ Tally g' [] ∧ g'.vars = g.vars ∧ g'.nodes.length = g.nodes.length ∧
      g'.world.atoms = g.world.atoms ∧
      Same g g' := by
  induction f generalizing g todo with
  | zero =>
    cases todo with
    | nil =>
      exact ⟨g, by rw [Graph.release], h, rfl, rfl, rfl, .refl _⟩
    | cons r rest => simp at hf
  | succ f ih =>
    cases todo with
    | nil =>
      exact ⟨g, by rw [Graph.release], h, rfl, rfl, rfl, .refl _⟩
    | cons r rest =>
      have hcons : g.all (r :: rest) = r :: g.all rest := rfl
      cases r with
      | atom j =>
        have hj : j ∈ g.world.handles := by
          rw [h.handles.mem_iff, List.mem_filterMap]
          exact ⟨.atom j, by rw [hcons]; simp, rfl⟩
        obtain ⟨i, h1, h2⟩ := idxOf?_mem hj
        obtain ⟨w, d1, d2, d3, d4, d5⟩ := h.reach.tidy.1.drop h2
        have hI : Tally { g with world := w } rest := by
          refine ⟨.step (.drop i) h.reach (List.getElem?_eq_some_iff.mp h2).1 d1, ?_, ?_, ?_, h.down, h.dead⟩
          · have := h.handles
            rw [hcons] at this
            have : (j :: w.handles).Perm (j :: (g.all rest).filterMap Ref.atom?) := by
              rw [d3]
              refine (eraseIdx_perm h2).trans ?_
              simpa [Ref.atom?] using this
            exact this.cons_inv
          · intro k n hn
            have := h.uses k n hn
            rw [hcons, List.count_cons_of_ne (by simp)] at this
            exact this
          · intro k hk
            exact h.valid k (by rw [hcons]; exact List.mem_cons_of_mem _ hk)
        obtain ⟨g', k1, k2, k3, k4, k5, k6⟩ := ih hI (by
          simp only [List.length_cons] at hf
          show rest.length + g.inner.length ≤ f
          omega)
        refine ⟨g', ?_, k2, k3, k4, k5.trans d4, k6⟩
        rw [Graph.release]
        simp only [h1, d1, Res.ok_bind]
        exact k1
      | obj i =>
        have hi : i < g.nodes.length := h.valid i (by rw [hcons]; simp)
        have hn := List.getElem?_eq_getElem hi
        have hu := h.uses i _ hn
        rw [hcons, List.count_cons_self] at hu
        cases hc : (g.all rest).count (.obj i) with
        | zero =>
          rw [hc] at hu
          obtain ⟨l1, l2, e1, e2⟩ := inner_split (m := ⟨g.nodes[i].kind, 0, []⟩) hn
          have hp : (Graph.all { g with nodes := g.nodes.set i ⟨g.nodes[i].kind, 0, []⟩ }
              (g.nodes[i].members ++ rest)).Perm (g.all rest) := by
            simp only [Graph.all, Graph.inner, e1, e2, List.nil_append, Graph.owned, List.append_assoc]
            refine List.perm_append_comm_assoc _ _ _ |>.trans ?_
            refine List.Perm.append_left _ ?_
            refine List.perm_append_comm_assoc _ _ _ |>.trans ?_
            refine List.Perm.append_left _ ?_
            exact List.perm_append_comm_assoc _ _ _
          have hI : Tally { g with nodes := g.nodes.set i ⟨g.nodes[i].kind, 0, []⟩ } (g.nodes[i].members ++ rest) := by
            refine ⟨h.reach, ?_, ?_, ?_, ?_, ?_⟩
            · have := h.handles
              rw [hcons] at this
              simp only [List.filterMap_cons, Ref.atom?] at this
              exact this.trans (hp.symm.filterMap _)
            · intro k n hk
              rw [hp.count_eq]
              simp only [List.getElem?_set] at hk
              split at hk
              · rename_i e
                subst e
                try rw [if_pos hi] at hk
                cases hk
                exact hc.symm
              · rename_i e
                rw [h.uses k n hk, hcons, List.count_cons_of_ne (by simpa using e)]
            · intro k hk
              simp only [List.length_set]
              exact h.valid k (by rw [hcons]; exact List.mem_cons_of_mem _ (hp.mem_iff.mp hk))
            · intro k n hk
              simp only [List.getElem?_set] at hk
              split at hk
              · rename_i e
                subst e
                try rw [if_pos hi] at hk
                cases hk
                intro j hj; cases hj
              · exact h.down k n hk
            · intro k n hk
              simp only [List.getElem?_set] at hk
              split at hk
              · rename_i e
                subst e
                try rw [if_pos hi] at hk
                cases hk
                intro _; rfl
              · exact h.dead k n hk
          obtain ⟨g', k1, k2, k3, k4, k5, k6⟩ := ih hI (by
            simp only [Graph.inner, e1, List.length_append, List.length_cons] at hf
            simp only [Graph.inner, e2, List.length_append, List.length_nil]
            omega)
          refine ⟨g', ?_, k2, k3, by simpa using k4, k5, fun k n' hl hk hu' => ?_⟩
          · rw [Graph.release]
            simp only [hn, hu]
            exact k1
          · obtain ⟨n, q1, q2, q3⟩ := k6 k n' (by simpa using hl) hk hu'
            simp only [List.getElem?_set] at q1
            split at q1
            · rename_i e
              subst e
              try rw [if_pos hi] at q1
              cases q1
              exact absurd rfl q2
            · exact ⟨n, q1, q2, q3⟩
        | succ c =>
          rw [hc] at hu
          have hin : Graph.inner { g with nodes := g.nodes.set i { g.nodes[i] with uses := c + 1 } } =
            g.inner := inner_set hn
          have hall : ∀ todo, Graph.all { g with nodes := g.nodes.set i { g.nodes[i] with uses := c + 1 } } todo =
              g.all todo := fun todo => by
            simp only [Graph.all, hin]; rfl
          have hI : Tally { g with nodes := g.nodes.set i { g.nodes[i] with uses := c + 1 } } rest := by
            refine ⟨h.reach, ?_, ?_, ?_, ?_, ?_⟩
            · have := h.handles
              rw [hcons] at this
              simp only [List.filterMap_cons, Ref.atom?] at this
              rw [hall]
              exact this
            · intro k n hk
              rw [hall]
              simp only [List.getElem?_set] at hk
              split at hk
              · rename_i e
                subst e
                try rw [if_pos hi] at hk
                cases hk
                exact hc.symm
              · rename_i e
                rw [h.uses k n hk, hcons, List.count_cons_of_ne (by simpa using e)]
            · intro k hk
              simp only [List.length_set]
              rw [hall] at hk
              exact h.valid k (by rw [hcons]; exact List.mem_cons_of_mem _ hk)
            · intro k n hk
              simp only [List.getElem?_set] at hk
              split at hk
              · rename_i e
                subst e
                try rw [if_pos hi] at hk
                cases hk
                exact h.down i g.nodes[i] hn
              · exact h.down k n hk
            · intro k n hk
              simp only [List.getElem?_set] at hk
              split at hk
              · rename_i e
                subst e
                try rw [if_pos hi] at hk
                cases hk
                intro h0
                simp at h0
              · exact h.dead k n hk
          obtain ⟨g', k1, k2, k3, k4, k5, k6⟩ := ih hI (by
            simp only [List.length_cons] at hf
            rw [hin]
            omega)
          refine ⟨g', ?_, k2, k3, by simpa using k4, k5, fun k n' hl hk hu' => ?_⟩
          · rw [Graph.release]
            simp only [hn, hu]
            exact k1
          · obtain ⟨n, q1, q2, q3⟩ := k6 k n' (by simpa using hl) hk hu'
            simp only [List.getElem?_set] at q1
            split at q1
            · rename_i e
              subst e
              try rw [if_pos hi] at q1
              cases q1
              exact ⟨_, hn, by omega, q3⟩
            · exact ⟨n, q1, q2, q3⟩

/-! ## What is held -/

/-- What can be reached from the variables that own something. -/
inductive Holds (g : Graph) : Ref → Prop where
  | var {r : Ref} : .own r ∈ g.vars → Holds g r
  | member {i : Nat} {n : Node} {r : Ref} : Holds g (.obj i) → g.nodes[i]? = some n → r ∈ n.members → Holds g r

theorem mem_owned {g : Graph} {r : Ref} : r ∈ g.owned ↔ .own r ∈ g.vars := by
  simp only [Graph.owned, List.mem_filterMap]
  constructor
  · rintro ⟨v, h1, h2⟩
    cases v with
    | own r' => cases h2; exact h1
    | borrow i m => cases h2
  · exact fun h => ⟨_, h, rfl⟩

theorem mem_inner {g : Graph} {r : Ref} : r ∈ g.inner ↔ ∃ (i : Nat) (n : Node), g.nodes[i]? = some n ∧ r ∈ n.members := by
  simp only [Graph.inner, List.mem_flatMap]
  constructor
  · rintro ⟨n, h1, h2⟩
    obtain ⟨i, hi⟩ := List.mem_iff_getElem?.mp h1
    exact ⟨i, n, hi, h2⟩
  · rintro ⟨i, n, h1, h2⟩
    exact ⟨n, List.mem_of_getElem? h1, h2⟩

theorem Holds.all {g : Graph} {r : Ref} (h : Holds g r) : r ∈ g.all [] := by
  simp only [Graph.all, List.nil_append, List.mem_append]
  cases h with
  | var h => exact .inl (mem_owned.mpr h)
  | member _ h1 h2 => exact .inr (mem_inner.mpr ⟨_, _, h1, h2⟩)

/-- Every handle can be reached. -/
theorem Tally.holds_node {g : Graph} (h : Tally g []) : ∀ (d i : Nat) (n : Node), g.nodes.length - i ≤ d →
    g.nodes[i]? = some n → n.uses ≠ 0 → Holds g (.obj i) := by
  intro d
  induction d with
  | zero =>
    intro i n hd hn
    have := (List.getElem?_eq_some_iff.mp hn).1
    omega
  | succ d ih =>
    intro i n hd hn hu
    rw [h.uses i n hn] at hu
    have hm : Ref.obj i ∈ g.all [] := List.count_pos_iff.mp (Nat.pos_of_ne_zero hu)
    simp only [Graph.all, List.nil_append, List.mem_append] at hm
    rcases hm with hm | hm
    · exact .var (mem_owned.mp hm)
    · obtain ⟨k, m, k1, k2⟩ := mem_inner.mp hm
      have hlt := h.down k m k1 i k2
      refine .member (ih k m (by omega) k1 fun h0 => ?_) k1 k2
      rw [h.dead k m k1 h0] at k2
      cases k2

theorem Tally.holds {g : Graph} (h : Tally g []) {r : Ref} : Holds g r ↔ r ∈ g.all [] := by
  refine ⟨Holds.all, fun hr => ?_⟩
  simp only [Graph.all, List.nil_append, List.mem_append] at hr
  rcases hr with hr | hr
  · exact .var (mem_owned.mp hr)
  · obtain ⟨k, m, k1, k2⟩ := mem_inner.mp hr
    refine .member (h.holds_node _ k m (Nat.le_refl _) k1 fun h0 => ?_) k1 k2
    rw [h.dead k m k1 h0] at k2
    cases k2

theorem Tally.alive {g : Graph} (h : Tally g []) {i : Nat} {n : Node} (hn : g.nodes[i]? = some n) :
    n.uses ≠ 0 ↔ Holds g (.obj i) := by
  rw [h.holds, h.uses i n hn, ← Nat.pos_iff_ne_zero, List.count_pos_iff]

theorem Tally.atoms {g : Graph} (h : Tally g []) {j : Nat} : j ∈ g.world.handles ↔ Holds g (.atom j) := by
  rw [h.holds, h.handles.mem_iff, List.mem_filterMap]
  constructor
  · rintro ⟨r, h1, h2⟩
    cases r with
    | atom j' => cases h2; exact h1
    | obj i => cases h2
  · exact fun h => ⟨_, h, rfl⟩

theorem Holds.follow {g : Graph} : ∀ {path : List Nat} {r r' : Ref}, Holds g r → g.follow r path = some r' →
    Holds g r'
  | [], r, r', h, e => by rw [Graph.follow] at e; cases e; exact h
  | m :: path, .atom _, r', h, e => by rw [Graph.follow] at e; cases e
  | m :: path, .obj i, r', h, e => by
    rw [Graph.follow] at e
    split at e
    · rename_i n hn
      split at e
      · rename_i r hr
        exact Holds.follow (.member h hn (List.mem_of_getElem? hr)) e
      · cases e
    · cases e

/-- Variables that own nothing refer to handles that there were. -/
def Lent (g : Graph) : Prop :=
  ∀ i m, .borrow i m ∈ g.vars → ∃ n : Node, g.nodes[i]? = some n ∧ (n.uses ≠ 0 → m < n.members.length)

theorem Lent.same {g g' : Graph} (h : Lent g) (hs : Same g g') (hl : g.nodes.length ≤ g'.nodes.length)
    (hv : ∀ i m, Var.borrow i m ∈ g'.vars → Var.borrow i m ∈ g.vars) : Lent g' := by
  intro i m hm
  obtain ⟨n, h1, h2⟩ := h i m (hv i m hm)
  have hi := (List.getElem?_eq_some_iff.mp h1).1
  have hn := List.getElem?_eq_getElem (show i < g'.nodes.length by omega)
  refine ⟨_, hn, fun hu => ?_⟩
  obtain ⟨n', k1, k2, k3, k4⟩ := hs i _ hi hn hu
  rw [h1] at k1
  cases k1
  rw [k4]
  exact h2 k2

/-- Variable `k` may be used: if it owns nothing, what it refers to is held. -/
def Usable (g : Graph) (k : Nat) : Prop := ∀ i m, g.vars[k]? = some (.borrow i m) → Holds g (.obj i)

theorem Tally.get {g : Graph} (h : Tally g []) (hl : Lent g) {k : Nat} (hk : Usable g k) (path : List Nat) :
    ∃ o, g.get k path = .ok o ∧ ∀ r ∈ o, Holds g r := by
  unfold Graph.get
  cases hv : g.vars[k]? with
  | none => exact ⟨none, rfl, fun r hr => nomatch hr⟩
  | some v =>
    cases v with
    | own r =>
      exact ⟨_, rfl, fun r' hr' => Holds.follow (.var (List.mem_of_getElem? hv)) hr'⟩
    | borrow i m =>
      have hh := hk i m hv
      obtain ⟨n, h1, h2⟩ := hl i m (List.mem_of_getElem? hv)
      have hu := (h.alive h1).mpr hh
      have hm := List.getElem?_eq_getElem (h2 hu)
      refine ⟨g.follow n.members[m] path, ?_, fun r' hr' =>
        Holds.follow (.member hh h1 (List.getElem_mem (h2 hu))) hr'⟩
      simp only [Graph.handle, h1, if_neg hu, hm, Res.ok_bind]
      rfl

theorem Tally.gets {g : Graph} (h : Tally g []) (hl : Lent g) {srcs : List (Nat × List Nat)}
    (hk : ∀ s ∈ srcs, Usable g s.1) : ∃ o, g.gets srcs = .ok o ∧ ∀ rs ∈ o, ∀ r ∈ rs, Holds g r := by
  induction srcs with
  | nil => exact ⟨some [], rfl, fun rs hr => by cases hr; intro r hr; cases hr⟩
  | cons s srcs ih =>
    obtain ⟨k, path⟩ := s
    obtain ⟨o, h1, h2⟩ := h.get hl (hk (k, path) (by simp)) path
    obtain ⟨os, k1, k2⟩ := ih fun s hs => hk s (List.mem_cons_of_mem _ hs)
    refine ⟨o.bind fun r => os.map (r :: ·), ?_, ?_⟩
    · simp only [Graph.gets, h1, k1, Res.ok_bind]; rfl
    · intro rs hrs r hr
      simp only [Option.mem_def, Option.bind_eq_some_iff, Option.map_eq_some_iff] at hrs
      obtain ⟨r0, e1, rs0, e2, rfl⟩ := hrs
      rcases List.mem_cons.mp hr with rfl | hr
      · exact h2 _ e1
      · exact k2 rs0 e2 r hr

/-! ## Steps -/

/-- The operations of the theorems: new addresses differ in the low 32 bits from those of living atoms, an
operation is known under both names or none, and variables used are usable. -/
def Permitted (g : Graph) : Op → Prop
  | .create _ a => FreshAddr g.world a
  | .operation n a => FreshAddr g.world a ∧ g.world.store.checkByName n = g.world.store.checkByName ("^" ++ n)
  | .build _ srcs => ∀ s ∈ srcs, Usable g s.1
  | .take k _ => Usable g k
  | .terms k _ => Usable g k
  | .drop _ => True

/-- States that a program reaches. -/
inductive Reached : Graph → Prop where
  | init : Reached Graph.init
  | step {g g' : Graph} (op : Op) : Reached g → Permitted g op → g.step op = .ok g' → Reached g'

/-- From one state to a later one. -/
inductive Later : Graph → Graph → Prop where
  | refl (g : Graph) : Later g g
  | step {g g1 g2 : Graph} (op : Op) : Later g g1 → Permitted g1 op → g1.step op = .ok g2 → Later g g2

theorem Tally.add_own {g : Graph} {rs : List Ref} (h : Tally g rs) :
    Tally { g with vars := g.vars ++ rs.map .own } [] := by
  have e : Graph.owned { g with vars := g.vars ++ rs.map .own } = g.owned ++ rs := by
    simp only [Graph.owned, List.filterMap_append, List.filterMap_map]
    congr 1
    exact (List.filterMap_congr fun _ _ => rfl).trans List.filterMap_some
  have hp : (Graph.all { g with vars := g.vars ++ rs.map .own } []).Perm (g.all rs) := by
    simp only [Graph.all, e, List.nil_append, List.append_assoc]
    exact List.perm_append_comm_assoc _ _ _
  exact ⟨h.reach, h.handles.trans (hp.symm.filterMap _), fun i n hn => (h.uses i n hn).trans (hp.symm.count_eq _),
    fun i hi => h.valid i (hp.mem_iff.mp hi), h.down, h.dead⟩

theorem Tally.new_atom {g : Graph} (h : Tally g []) {w : World} {j : Nat} (hr : Reach false w)
    (hw : w.handles = g.world.handles ++ [j]) :
    Tally { g with world := w, vars := g.vars ++ [.own (.atom j)] } [] := by
  refine Tally.add_own (g := { g with world := w }) (rs := [.atom j]) ⟨hr, ?_, ?_, ?_, h.down, h.dead⟩
  · show w.handles.Perm ((g.all [.atom j]).filterMap Ref.atom?)
    have e : (g.all [.atom j]).filterMap Ref.atom? = j :: (g.all []).filterMap Ref.atom? := by
      simp [Graph.all, Ref.atom?]
    rw [e, hw]
    exact (List.perm_append_comm).trans (h.handles.cons j)
  · intro i n hn
    have := h.uses i n hn
    show n.uses = (g.all [.atom j]).count (.obj i)
    rw [this]
    simp [Graph.all]
  · intro i hi
    exact h.valid i (by simpa [Graph.all, Graph.owned, Graph.inner] using hi)

theorem Tally.new_node {g : Graph} {rs : List Ref} (h : Tally g rs) (kind : Kind) :
    Tally { g with nodes := g.nodes ++ [⟨kind, 1, rs⟩], vars := g.vars ++ [.own (.obj g.nodes.length)] } [] := by
  refine Tally.add_own (g := { g with nodes := g.nodes ++ [⟨kind, 1, rs⟩] }) (rs := [.obj g.nodes.length]) ?_
  have hp : (Graph.all { g with nodes := g.nodes ++ [⟨kind, 1, rs⟩] } [.obj g.nodes.length]).Perm
      (.obj g.nodes.length :: g.all rs) := by
    simp only [Graph.all, Graph.inner, List.flatMap_append, List.flatMap_cons, List.flatMap_nil, List.append_nil,
      Graph.owned, List.singleton_append]
    refine List.Perm.cons _ ?_
    rw [← List.append_assoc]
    exact List.perm_append_comm
  refine ⟨h.reach, ?_, ?_, ?_, ?_, ?_⟩
  · refine h.handles.trans ?_
    have := (hp.symm.filterMap Ref.atom?)
    rwa [List.filterMap_cons] at this
  · intro i n hn
    rw [hp.count_eq]
    rw [List.getElem?_append] at hn
    split at hn
    · rename_i hi
      rw [h.uses i n hn, List.count_cons_of_ne (by simp; omega)]
    · rename_i hi
      rw [List.getElem?_singleton] at hn
      split at hn
      · have e : i = g.nodes.length := by omega
        subst e
        cases hn
        rw [List.count_cons_self, List.count_eq_zero.mpr]
        intro hm
        have := h.valid _ hm
        omega
      · cases hn
  · intro i hi
    simp only [List.length_append, List.length_singleton]
    rcases List.mem_cons.mp (hp.mem_iff.mp hi) with e | hi
    · cases e; omega
    · have := h.valid i hi; omega
  · intro i n hn j hj
    rw [List.getElem?_append] at hn
    split at hn
    · exact h.down i n hn j hj
    · rename_i hi
      rw [List.getElem?_singleton] at hn
      split at hn
      · cases hn
        have := h.valid j (List.mem_append_left _ hj)
        omega
      · cases hn
  · intro i n hn h0
    rw [List.getElem?_append] at hn
    split at hn
    · exact h.dead i n hn h0
    · rw [List.getElem?_singleton] at hn
      split at hn
      · cases hn; cases h0
      · cases hn

/-- What a step keeps. -/
structure Kept (g g' : Graph) : Prop where
  nodes : g.nodes.length ≤ g'.nodes.length
  atoms : g.world.atoms <+: g'.world.atoms
  same : Same g g'

theorem Kept.refl (g : Graph) : Kept g g := ⟨Nat.le_refl _, List.prefix_rfl, .refl g⟩

theorem Kept.trans {g1 g2 g3 : Graph} (h1 : Kept g1 g2) (h2 : Kept g2 g3) : Kept g1 g3 :=
  ⟨Nat.le_trans h1.nodes h2.nodes, h1.atoms.trans h2.atoms, h1.same.trans h2.same h1.nodes⟩

theorem Same.app {g : Graph} {w : World} {l : List Node} {vs : List Var} : Same g ⟨w, g.nodes ++ l, vs⟩ := by
  intro i n hi hn hu
  rw [List.getElem?_append_left hi] at hn
  exact ⟨n, hn, hu, rfl, rfl⟩

theorem create_prefix {w w' : World} {n : String} {a : Word} (h : w.create n a = .ok w') : w.atoms <+: w'.atoms := by
  unfold World.create World.lookup at h
  split at h
  · simp only at h
    split at h
    · cases h
    · split at h
      · cases h; exact List.prefix_rfl
      · cases h
  · cases h
    exact List.prefix_append _ _

theorem operation_prefix {w w' : World} {n : String} {a : Word} (h : w.operation n a = .ok w') :
    w.atoms <+: w'.atoms := by
  unfold World.operation World.lookup at h
  split at h
  · simp only at h
    split at h
    · cases h
    · split at h
      · cases h; exact List.prefix_rfl
      · cases h
  · cases h
    exact List.prefix_append _ _

theorem Lent.more {g : Graph} (h : Lent g) {w : World} {l : List Node} {rs : List Ref} :
    Lent ⟨w, g.nodes ++ l, g.vars ++ rs.map .own⟩ := by
  refine Lent.same h .app (by simp) fun i m hm => ?_
  rcases List.mem_append.mp hm with hm | hm
  · exact hm
  · obtain ⟨r, _, hr⟩ := List.mem_map.mp hm
    cases hr

/-- A step that is allowed is defined, and the invariants stay. -/
theorem Tally.step {g : Graph} (h : Tally g []) (hl : Lent g) {op : Op} (ha : Permitted g op) :
    ∃ g', g.step op = .ok g' ∧ Tally g' [] ∧ Lent g' ∧ Kept g g' := by
  cases op with
  | create n a =>
    obtain ⟨w, h1, _, _, r, h2, _⟩ := step_create h.reach.tidy.1 (n := n) (a := a) ha
    have hn : newest w = .ok (.atom r) := by simp [newest, h2]
    refine ⟨{ g with world := w, vars := g.vars ++ [.own (.atom r)] }, ?_,
      h.new_atom (.step (.create n a) h.reach ha h1) h2, ?_, Nat.le_refl _, create_prefix h1, .refl g⟩
    · simp only [Graph.step, h1, hn, Res.ok_bind]; rfl
    · have := hl.more (w := w) (l := []) (rs := [.atom r])
      simpa using this
  | operation n a =>
    obtain ⟨w, h1, _, _, r, h2, _⟩ := step_operation h.reach.tidy.1 (n := n) (a := a) ha.1 ha.2
    have hn : newest w = .ok (.atom r) := by simp [newest, h2]
    refine ⟨{ g with world := w, vars := g.vars ++ [.own (.atom r)] }, ?_,
      h.new_atom (.step (.operation n a) h.reach ha h1) h2, ?_, Nat.le_refl _, operation_prefix h1, .refl g⟩
    · simp only [Graph.step, h1, hn, Res.ok_bind]; rfl
    · have := hl.more (w := w) (l := []) (rs := [.atom r])
      simpa using this
  | build kind srcs =>
    obtain ⟨o, h1, h2⟩ := h.gets hl ha
    cases o with
    | none => exact ⟨g, by simp only [Graph.step, h1, Res.ok_bind]; rfl, h, hl, .refl g⟩
    | some rs =>
      obtain ⟨g', k1, k2, k3, k4, k5, k6, k7⟩ := h.addRefs (rs := rs) fun r hr => (h2 rs rfl r hr).all
      rw [List.append_nil] at k2
      have hl' : Lent g' := hl.same k7 (by omega) fun i m hm => k3 ▸ hm
      refine ⟨_, by simp only [Graph.step, h1, k1, Res.ok_bind]; rfl, k2.new_node kind,
        hl'.more (rs := [.obj g'.nodes.length]), ?_, ?_, ?_⟩
      · simp only [List.length_append]; omega
      · rw [k5]; exact List.prefix_rfl
      · exact k7.trans .app (by omega)
  | take k path =>
    obtain ⟨o, h1, h2⟩ := h.get hl ha path
    cases o with
    | none => exact ⟨g, by simp only [Graph.step, h1, Res.ok_bind]; rfl, h, hl, .refl g⟩
    | some r =>
      obtain ⟨g', k1, k2, k3, k4, k5, k6, k7⟩ := h.addRef (r := r) (h2 r rfl).all
      have hl' : Lent g' := hl.same k7 (by omega) fun i m hm => k3 ▸ hm
      refine ⟨{ g' with vars := g'.vars ++ [.own r] }, by simp only [Graph.step, h1, k1, Res.ok_bind]; rfl, k2.add_own, ?_, ?_, ?_, ?_⟩
      · have := hl'.more (w := g'.world) (l := []) (rs := [r])
        simpa using this
      · show _ ≤ g'.nodes.length; omega
      · show _ <+: g'.world.atoms; rw [k5]; exact List.prefix_rfl
      · exact k7
  | terms k path =>
    obtain ⟨o, h1, h2⟩ := h.get hl ha path
    cases o with
    | none => exact ⟨g, by simp only [Graph.step, h1, Res.ok_bind]; rfl, h, hl, .refl g⟩
    | some r =>
      cases r with
      | atom j => exact ⟨g, by simp only [Graph.step, h1, Res.ok_bind]; rfl, h, hl, .refl g⟩
      | obj i =>
        have hh := h2 _ rfl
        have hi := h.valid i hh.all
        have hn := List.getElem?_eq_getElem hi
        cases hk : g.nodes[i].kind with
        | leaf => exact ⟨g, by simp only [Graph.step, h1, Res.ok_bind, hn, hk]; rfl, h, hl, .refl g⟩
        | statement =>
          obtain ⟨g', k1, k2, k3, k4, k5, k6, k7⟩ := h.addRefs (rs := g.nodes[i].members) fun r hr =>
            (Holds.member hh hn hr).all
          rw [List.append_nil] at k2
          have hl' : Lent g' := hl.same k7 (by omega) fun i m hm => k3 ▸ hm
          refine ⟨{ g' with vars := g'.vars ++ g.nodes[i].members.map .own },
            by simp only [Graph.step, h1, Res.ok_bind, hn, hk, k1]; rfl, k2.add_own, ?_, ?_, ?_, ?_⟩
          · have := hl'.more (w := g'.world) (l := []) (rs := g.nodes[i].members)
            simpa using this
          · show _ ≤ g'.nodes.length; omega
          · show _ <+: g'.world.atoms; rw [k5]; exact List.prefix_rfl
          · exact k7
        | compound =>
          refine ⟨{ g with vars := g.vars ++ (List.range g.nodes[i].members.length).map (.borrow i) },
            by simp only [Graph.step, h1, Res.ok_bind, hn, hk]; rfl, ?_, ?_, Nat.le_refl _, List.prefix_rfl, .refl g⟩
          · have e : Graph.owned { g with vars := g.vars ++ (List.range g.nodes[i].members.length).map (.borrow i) } =
                g.owned := by
              simp only [Graph.owned, List.filterMap_append]
              have e0 : ((List.range g.nodes[i].members.length).map (Var.borrow i)).filterMap Var.own? = [] := by
                refine List.filterMap_eq_nil_iff.mpr fun v hv => ?_
                obtain ⟨m, _, rfl⟩ := List.mem_map.mp hv
                rfl
              rw [e0, List.append_nil]
            have e' : Graph.all { g with vars := g.vars ++ (List.range g.nodes[i].members.length).map (.borrow i) } [] =
                g.all [] := by
              simp only [Graph.all, e]; rfl
            exact ⟨h.reach, by rw [e']; exact h.handles, by rw [e']; exact h.uses, by rw [e']; exact h.valid, h.down,
              h.dead⟩
          · intro i' m hm
            rcases List.mem_append.mp hm with hm | hm
            · exact hl i' m hm
            · obtain ⟨m', hm', e⟩ := List.mem_map.mp hm
              cases e
              exact ⟨_, hn, fun _ => List.mem_range.mp hm'⟩
  | drop k =>
    cases hv : g.vars[k]? with
    | none => exact ⟨g, by simp only [Graph.step, hv], h, hl, .refl g⟩
    | some v =>
      have hkl := (List.getElem?_eq_some_iff.mp hv).1
      have hperm : (v :: g.vars.eraseIdx k).Perm g.vars := by
        rw [← (List.getElem?_eq_some_iff.mp hv).2]
        exact List.getElem_cons_eraseIdx_perm hkl
      cases v with
      | own r =>
        have hp : (Graph.all { g with vars := g.vars.eraseIdx k } [r]).Perm (g.all []) := by
          have := hperm.filterMap Var.own?
          rw [List.filterMap_cons] at this
          simp only [Graph.all, Graph.owned, List.nil_append]
          rw [← List.append_assoc]
          exact this.append_right _
        have hI : Tally { g with vars := g.vars.eraseIdx k } [r] :=
          ⟨h.reach, h.handles.trans (hp.symm.filterMap _), fun i n hn => (h.uses i n hn).trans (hp.symm.count_eq _),
            fun i hi => h.valid i (hp.mem_iff.mp hi), h.down, h.dead⟩
        obtain ⟨g', k1, k2, k3, k4, k5, k6⟩ := hI.release (f := g.inner.length + 1) (by
          simp only [List.length_singleton]
          show 1 + g.inner.length ≤ _
          omega)
        refine ⟨g', by simp only [Graph.step, hv]; exact k1, k2, hl.same k6 (by rw [k4]; exact Nat.le_refl _) ?_,
          by rw [k4]; exact Nat.le_refl _, by rw [k5]; exact List.prefix_rfl, k6⟩
        intro i m hm
        rw [k3] at hm
        exact List.mem_of_mem_eraseIdx hm
      | borrow i m =>
        have hp : (Graph.all { g with vars := g.vars.eraseIdx k } []).Perm (g.all []) := by
          have := hperm.filterMap Var.own?
          rw [List.filterMap_cons] at this
          simp only [Graph.all, Graph.owned, List.nil_append]
          exact this.append_right _
        refine ⟨{ g with vars := g.vars.eraseIdx k }, by simp only [Graph.step, hv],
          ⟨h.reach, h.handles.trans (hp.symm.filterMap _), fun i n hn => (h.uses i n hn).trans (hp.symm.count_eq _),
            fun i hi => h.valid i (hp.mem_iff.mp hi), h.down, h.dead⟩, ?_, Nat.le_refl _, List.prefix_rfl, .refl g⟩
        exact hl.same (.refl g) (Nat.le_refl _) fun i m hm => List.mem_of_mem_eraseIdx hm

theorem Reached.tally {g : Graph} (h : Reached g) : Tally g [] ∧ Lent g := by
  induction h with
  | init => exact ⟨.init, fun i m hm => nomatch hm⟩
  | step op _ ha hs ih =>
    obtain ⟨g', h1, h2, h3, _⟩ := ih.1.step ih.2 ha
    rw [h1] at hs; cases hs
    exact ⟨h2, h3⟩

theorem Reached.later {g g' : Graph} (h : Reached g) (hl : Later g g') : Reached g' ∧ Kept g g' := by
  induction hl with
  | refl => exact ⟨h, .refl g⟩
  | step op _ ha hs ih =>
    refine ⟨.step op ih.1 ha hs, ih.2.trans ?_⟩
    obtain ⟨g', h1, _, _, h4⟩ := ih.1.tally.1.step ih.1.tally.2 ha
    rw [h1] at hs; cases hs
    exact h4

/-! ## Variables that own nothing -/

theorem addRef_vars {g g' : Graph} {r : Ref} (h : g.addRef r = .ok g') : g'.vars = g.vars := by
  cases r with
  | atom j =>
    rw [Graph.addRef] at h
    split at h
    · cases hc : g.world.copy ‹Nat› <;> rw [hc] at h <;> cases h
      rfl
    · cases h
  | obj i =>
    rw [Graph.addRef] at h
    split at h
    · split at h <;> cases h
      rfl
    · cases h

theorem addRefs_vars {rs : List Ref} : ∀ {g g' : Graph}, g.addRefs rs = .ok g' → g'.vars = g.vars := by
  induction rs with
  | nil => intro g g' h; cases h; rfl
  | cons r rs ih =>
    intro g g' h
    rw [Graph.addRefs, List.foldlM_cons] at h
    cases h1 : g.addRef r with
    | ok g1 =>
      rw [h1, Res.ok_bind] at h
      exact (ih h).trans (addRef_vars h1)
    | throw m => rw [h1] at h; cases h
    | ub => rw [h1] at h; cases h
    | outOfFuel => rw [h1] at h; cases h

theorem release_vars {f : Nat} : ∀ {g g' : Graph} {rs : List Ref}, g.release f rs = .ok g' → g'.vars = g.vars := by
  induction f with
  | zero =>
    intro g g' rs h
    cases rs <;> rw [Graph.release] at h <;> cases h
    rfl
  | succ f ih =>
    intro g g' rs h
    cases rs with
    | nil => rw [Graph.release] at h; cases h; rfl
    | cons r rs =>
      cases r with
      | atom j =>
        rw [Graph.release] at h
        split at h
        · cases hc : g.world.drop ‹Nat› <;> rw [hc] at h
          · rw [Res.ok_bind] at h; have := ih h; exact this
          all_goals cases h
        · cases h
      | obj i =>
        rw [Graph.release] at h
        split at h
        · split at h
          · cases h
          · have := ih h; exact this
          · have := ih h; exact this
        · cases h

/-- Where a variable comes from that owns nothing. -/
theorem step_borrow {g g' : Graph} {op : Op} (h : g.step op = .ok g') {i m : Nat} (hm : .borrow i m ∈ g'.vars) :
    .borrow i m ∈ g.vars ∨ ∃ (k : Nat) (path : List Nat) (n : Node), op = .terms k path ∧
      g.get k path = .ok (some (.obj i)) ∧ g.nodes[i]? = some n ∧ n.kind = .compound := by
  have app : ∀ {vs : List Var} {rs : List Ref}, Var.borrow i m ∈ vs ++ rs.map .own → Var.borrow i m ∈ vs := by
    intro vs rs h
    rcases List.mem_append.mp h with h | h
    · exact h
    · obtain ⟨r, _, e⟩ := List.mem_map.mp h
      cases e
  cases op with
  | create n a =>
    rw [Graph.step] at h
    cases h1 : g.world.create n a <;> rw [h1] at h <;> try cases h
    rw [Res.ok_bind] at h
    cases h2 : newest ‹World› <;> rw [h2] at h <;> cases h
    exact .inl (app (rs := [_]) hm)
  | operation n a =>
    rw [Graph.step] at h
    cases h1 : g.world.operation n a <;> rw [h1] at h <;> try cases h
    rw [Res.ok_bind] at h
    cases h2 : newest ‹World› <;> rw [h2] at h <;> cases h
    exact .inl (app (rs := [_]) hm)
  | build kind srcs =>
    rw [Graph.step] at h
    cases h1 : g.gets srcs <;> rw [h1] at h <;> try cases h
    rw [Res.ok_bind] at h
    split at h
    · cases h; exact .inl hm
    · cases h2 : g.addRefs ‹List Ref› <;> rw [h2] at h <;> cases h
      rw [addRefs_vars h2] at hm
      exact .inl (app (rs := [_]) hm)
  | take k path =>
    rw [Graph.step] at h
    cases h1 : g.get k path <;> rw [h1] at h <;> try cases h
    rw [Res.ok_bind] at h
    split at h
    · cases h; exact .inl hm
    · cases h2 : g.addRef ‹Ref› <;> rw [h2] at h <;> cases h
      rw [addRef_vars h2] at hm
      exact .inl (app (rs := [_]) hm)
  | terms k path =>
    rw [Graph.step] at h
    cases h1 : g.get k path <;> rw [h1] at h <;> try cases h
    rw [Res.ok_bind] at h
    split at h
    · split at h
      · rename_i n hn
        split at h
        · cases h; exact .inl hm
        · cases h2 : g.addRefs n.members <;> rw [h2] at h <;> cases h
          rw [addRefs_vars h2] at hm
          exact .inl (app hm)
        · rename_i hk
          cases h
          rcases List.mem_append.mp hm with hm | hm
          · exact .inl hm
          · obtain ⟨m', _, e⟩ := List.mem_map.mp hm
            cases e
            exact .inr ⟨k, path, n, rfl, h1, hn, hk⟩
      · cases h
    · cases h; exact .inl hm
  | drop k =>
    rw [Graph.step] at h
    split at h
    · rw [release_vars h] at hm
      exact .inl (List.mem_of_mem_eraseIdx hm)
    · cases h; exact .inl (List.mem_of_mem_eraseIdx hm)
    · cases h; exact .inl hm

/-! ## Tests that a program is permitted -/

/-- `FreshAddr`, tested. -/
def fresh (w : World) (a : Word) : Bool :=
  w.atoms.zipIdx.all fun (x, t) => w.useCount t = 0 || x.addr.setWidth 32 != a.setWidth 32

theorem fresh_spec {w : World} {a : Word} (h : fresh w a = true) : FreshAddr w a := by
  intro t x hx hu
  have := List.all_eq_true.mp h (x, t) (List.mem_zipIdx_iff_getElem?.mpr (by simpa using hx))
  simp only [Bool.or_eq_true, decide_eq_true_eq, bne_iff_ne] at this
  rcases this with h | h
  · omega
  · exact h

/-- `Usable`, tested. -/
def usable (g : Graph) (k : Nat) : Bool := match g.vars[k]? with
  | some (.borrow i _) => match g.nodes[i]? with
    | some n => n.uses != 0
    | none => false
  | _ => true

theorem usable_spec {g : Graph} (h : Tally g []) {k : Nat} (hk : usable g k = true) : Usable g k := by
  intro i m e
  unfold usable at hk
  rw [e] at hk
  simp only at hk
  split at hk
  · rename_i n hn
    exact (h.alive hn).mp (by simpa using hk)
  · cases hk

/-- `Permitted`, tested. -/
def permitted (g : Graph) : Op → Bool
  | .create _ a => fresh g.world a
  | .operation n a => fresh g.world a && g.world.store.checkByName n == g.world.store.checkByName ("^" ++ n)
  | .build _ srcs => srcs.all fun s => usable g s.1
  | .take k _ => usable g k
  | .terms k _ => usable g k
  | .drop _ => true

theorem permitted_spec {g : Graph} (h : Tally g []) {op : Op} (hp : permitted g op = true) : Permitted g op := by
  cases op with
  | create n a => exact fresh_spec hp
  | operation n a =>
    simp only [permitted, Bool.and_eq_true, beq_iff_eq] at hp
    exact ⟨fresh_spec hp.1, hp.2⟩
  | build kind srcs => exact fun s hs => usable_spec h (List.all_eq_true.mp hp s hs)
  | take k path => exact usable_spec h hp
  | terms k path => exact usable_spec h hp
  | drop k => trivial

/-- Runs a program with the test before each operation. -/
def tested (g : Graph) : List Op → Option Graph
  | [] => some g
  | op :: ops => if permitted g op then match g.step op with
      | .ok g' => tested g' ops
      | _ => none
    else none

theorem Reached.tested {g g' : Graph} {ops : List Op} (h : Reached g) (ht : tested g ops = some g') :
    Reached g' := by
  induction ops generalizing g with
  | nil => cases ht; exact h
  | cons op ops ih =>
    unfold Shared.tested at ht
    split at ht
    · rename_i hp
      split at ht
      · rename_i g1 h1
        exact ih (.step op h (permitted_spec h.tally.1 hp) h1) ht
      · cases ht
    · cases ht

theorem Later.tested {g g1 g' : Graph} {ops : List Op} (h : Reached g1) (hl : Later g g1)
    (ht : Shared.tested g1 ops = some g') : Later g g' := by
  induction ops generalizing g1 with
  | nil => cases ht; exact hl
  | cons op ops ih =>
    unfold Shared.tested at ht
    split at ht
    · rename_i hp
      split at ht
      · rename_i g2 h2
        have hp := permitted_spec h.tally.1 hp
        exact ih (.step op h hp h2) (.step op hl hp h2) ht
      · cases ht
    · cases ht

end Cnars.Shared
