import Verif.Narsese.Iterator

/-!
# Lemmas for iterators
-/

namespace Cnars.Iter
open Cnars

/-! ## Iterators as values -/

/-- Where iterators are: in which `Terms`, and before which component (`none`: destroyed). -/
structure Cursors where
  conts : List Terms
  at_ : List (Option (Nat × Nat))

namespace Cursors

/-- A living one. -/
def get (a : Cursors) (k : Nat) : Res (Nat × Nat) :=
  match a.at_[k]? with
  | some (some p) => .ok p
  | _ => .ub

/-- One more. -/
def add (a : Cursors) (c p : Nat) : Cursors := { a with at_ := a.at_ ++ [some (c, p)] }

/-- One more, if the place exists. -/
def addAt (a : Cursors) (c : Nat) (p : Int) : Res (Cursors × Out) :=
  match a.conts[c]? with
  | some t => if 0 ≤ p ∧ p ≤ t.items.length then .ok (a.add c p.toNat, .none) else .ub
  | none => .ub

/-- What the operations should do. -/
def step (a : Cursors) : Op → Res (Cursors × Out)
  | .begin c => a.addAt c 0
  | .finish c => match a.conts[c]? with
    | some t => a.addAt c t.items.length
    | none => .ub
  | .copy k => do
    let (c, p) ← a.get k
    return (a.add c p, .none)
  | .assign k j => do
    let _ ← a.get k
    let p ← a.get j
    return ({ a with at_ := a.at_.set k (some p) }, .none)
  | .incr k => do
    let (c, p) ← a.get k
    match a.conts[c]? with
    | some t => if p < t.items.length then return ({ a with at_ := a.at_.set k (some (c, p + 1)) }, .none) else .ub
    | none => .ub
  | .postIncr k => do
    let (c, p) ← a.get k
    match a.conts[c]? with
    | some t =>
      if p < t.items.length then return (({ a with at_ := a.at_.set k (some (c, p + 1)) } : Cursors).add c p, .none) else .ub
    | none => .ub
  | .plus k n => do
    let (c, p) ← a.get k
    a.addAt c (p + n.toInt)
  | .minus k n => if n = BitVec.intMin 32 then .ub else do
    let (c, p) ← a.get k
    a.addAt c (p - n.toInt)
  | .deref k => do
    let (c, p) ← a.get k
    match a.conts[c]? with
    | some t => match t.items[p]? with
      | some x => return (a, .term x)
      | none => .ub
    | none => .ub
  | .eq k j => do
    let (c, p) ← a.get k
    let (c', p') ← a.get j
    if c = c' then return (a, .bool (p == p')) else .ub
  | .ne k j => do
    let (c, p) ← a.get k
    let (c', p') ← a.get j
    if c = c' then return (a, .bool (p != p')) else .ub
  | .destroy k => do
    let _ ← a.get k
    return ({ a with at_ := a.at_.set k none }, .none)

end Cursors

/-! ## The invariant -/

/-- Every iterator has an object of its own, of its type, in the range; every object belongs to an iterator. -/
structure Sound (s : State) : Prop where
  own : ∀ (k : Nat) (i : It), s.its[k]? = some (some i) → ∃ b : Block, s.blocks[i.block]? = some (some b) ∧
    (∃ t : Terms, s.conts[b.of]? = some t ∧ t.comm = i.comm ∧ b.pos ≤ t.items.length) ∧ b.kind.isVec = !i.comm
  inj : ∀ (k j : Nat) (i i' : It), s.its[k]? = some (some i) → s.its[j]? = some (some i') → i.block = i'.block → k = j
  all : ∀ (n : Nat) (b : Block), s.blocks[n]? = some (some b) → ∃ (k : Nat) (i : It), s.its[k]? = some (some i) ∧ i.block = n

/-- Where an iterator is. -/
def State.place (s : State) (i : It) : Option (Nat × Nat) :=
  match s.blocks[i.block]? with
  | some (some b) => some (b.of, b.pos)
  | _ => none

/-- Where the iterators are. -/
def State.cursors (s : State) : Cursors := ⟨s.conts, s.its.map fun o => o.bind s.place⟩

theorem cursors_get {s : State} (h : Sound s) (k : Nat) :
    (s.it k = .ub ∧ s.cursors.get k = .ub) ∨
    ∃ (i : It) (b : Block) (t : Terms), s.its[k]? = some (some i) ∧ s.it k = .ok i ∧ s.blocks[i.block]? = some (some b) ∧
      s.cursors.get k = .ok (b.of, b.pos) ∧ s.conts[b.of]? = some t ∧ t.comm = i.comm ∧ b.pos ≤ t.items.length ∧
      b.kind.isVec = !i.comm ∧ s.read false i = .ok b := by
  cases hk : s.its[k]? with
  | none => left; simp [State.it, hk, Cursors.get, State.cursors, List.getElem?_map]
  | some o =>
    cases o with
    | none => left; simp [State.it, hk, Cursors.get, State.cursors, List.getElem?_map]
    | some i =>
      right
      obtain ⟨b, h1, ⟨t, h2, h3, h4⟩, h5⟩ := h.own k i hk
      refine ⟨i, b, t, rfl, by simp [State.it, hk], h1, ?_, h2, h3, h4, h5, ?_⟩
      · simp [Cursors.get, State.cursors, List.getElem?_map, hk, State.place, h1]
      · simp only [State.read, h1]
        rw [if_pos]
        right
        refine ⟨trivial, ?_⟩
        rw [h5]
        unfold readAs
        cases i.comm <;> rfl

theorem Sound.alloc {s : State} (h : Sound s) {kd : Kind} {c p : Nat} {t : Terms} (hc : s.conts[c]? = some t)
    (hp : p ≤ t.items.length) (hk : kd.isVec = !t.comm) :
    Sound (s.alloc ⟨kd, c, p⟩ t.comm) ∧ (s.alloc ⟨kd, c, p⟩ t.comm).cursors = s.cursors.add c p := by
  have hlt : ∀ (k : Nat) (i : It), s.its[k]? = some (some i) → i.block < s.blocks.length := by
    intro k i hi
    obtain ⟨b, h1, _⟩ := h.own k i hi
    exact (List.getElem?_eq_some_iff.mp h1).1
  have split : ∀ (k : Nat) (i : It), (s.alloc ⟨kd, c, p⟩ t.comm).its[k]? = some (some i) →
      s.its[k]? = some (some i) ∨ (k = s.its.length ∧ i = ⟨t.comm, s.blocks.length⟩) := by
    intro k i hi
    simp only [State.alloc, List.getElem?_append] at hi
    split at hi
    · exact .inl hi
    · rw [List.getElem?_singleton] at hi
      split at hi
      · cases hi; exact .inr ⟨by omega, rfl⟩
      · cases hi
  refine ⟨⟨?_, ?_, ?_⟩, ?_⟩
  · intro k i hi
    rcases split k i hi with hi | ⟨_, rfl⟩
    · obtain ⟨b, h1, h2, h3⟩ := h.own k i hi
      exact ⟨b, by simp only [State.alloc]; rw [List.getElem?_append_left (hlt k i hi)]; exact h1, h2, h3⟩
    · exact ⟨⟨kd, c, p⟩, by simp [State.alloc], ⟨t, hc, rfl, hp⟩, hk⟩
  · intro k j i i' hi hj e
    rcases split k i hi with hi | ⟨rfl, rfl⟩ <;> rcases split j i' hj with hj | ⟨rfl, rfl⟩
    · exact h.inj k j i i' hi hj e
    · have := hlt k i hi
      simp only at e; omega
    · have := hlt j i' hj
      simp only at e; omega
    · rfl
  · intro n b hb
    simp only [State.alloc, List.getElem?_append] at hb
    split at hb
    · obtain ⟨k, i, h1, h2⟩ := h.all n b hb
      refine ⟨k, i, ?_, h2⟩
      simp only [State.alloc]
      rw [List.getElem?_append_left (List.getElem?_eq_some_iff.mp h1).1]
      exact h1
    · rw [List.getElem?_singleton] at hb
      split at hb
      · exact ⟨s.its.length, ⟨t.comm, s.blocks.length⟩, by simp [State.alloc], by simp only; omega⟩
      · cases hb
  · simp only [State.cursors, State.alloc, Cursors.add, List.map_append, List.map_cons, List.map_nil, Option.bind_some,
      Cursors.mk.injEq, true_and]
    congr 1
    · refine List.map_congr_left fun o ho => ?_
      cases o with
      | none => rfl
      | some i =>
        obtain ⟨k, hk⟩ := List.mem_iff_getElem?.mp ho
        simp only [Option.bind_some, State.place]
        rw [List.getElem?_append_left (hlt k i hk)]
    · simp [State.place]

theorem Sound.move {s : State} (h : Sound s) {k : Nat} {i : It} {b : Block} {t : Terms} (hi : s.its[k]? = some (some i))
    (hb : s.blocks[i.block]? = some (some b)) (ht : s.conts[b.of]? = some t) (hp : b.pos < t.items.length) :
    let s' : State := { s with blocks := s.blocks.set i.block (some { b with pos := b.pos + 1 }) }
    Sound s' ∧ s'.cursors = { s.cursors with at_ := s.cursors.at_.set k (some (b.of, b.pos + 1)) } := by
  have hlt := (List.getElem?_eq_some_iff.mp hb).1
  obtain ⟨b0, g1, ⟨t0, g2, g3, g4⟩, g5⟩ := h.own k i hi
  rw [hb] at g1; cases g1
  rw [ht] at g2; cases g2
  intro s'
  refine ⟨⟨?_, h.inj, ?_⟩, ?_⟩
  · intro j i' hj
    by_cases e : i'.block = i.block
    · have := h.inj j k i' i hj hi e
      subst this
      rw [hi] at hj; cases hj
      exact ⟨{ b with pos := b.pos + 1 }, by simp [s', hlt], ⟨t, ht, g3, hp⟩, g5⟩
    · obtain ⟨b', h1, h2⟩ := h.own j i' hj
      exact ⟨b', by simp only [s']; rw [List.getElem?_set_ne (Ne.symm e)]; exact h1, h2⟩
  · intro n b' hn
    by_cases e : i.block = n
    · exact ⟨k, i, hi, e⟩
    · simp only [s'] at hn
      rw [List.getElem?_set_ne e] at hn
      exact h.all n b' hn
  · simp only [State.cursors, s', Cursors.mk.injEq, true_and]
    refine List.ext_getElem? fun j => ?_
    rw [List.getElem?_map, List.getElem?_set]
    by_cases e : k = j
    · subst e
      have : k < s.its.length := (List.getElem?_eq_some_iff.mp hi).1
      rw [hi]
      simp [State.place, hlt, this]
    · rw [if_neg e, List.getElem?_map]
      cases hj : s.its[j]? with
      | none => rfl
      | some o =>
        cases o with
        | none => rfl
        | some i' =>
          have : i.block ≠ i'.block := fun e' => e (h.inj k j i i' hi hj e')
          simp only [Option.map_some, Option.bind_some, State.place]
          rw [List.getElem?_set_ne this]

theorem Sound.kill {s : State} (h : Sound s) {k : Nat} {i : It} (hi : s.its[k]? = some (some i)) :
    let s' : State := { s with blocks := s.blocks.set i.block none, its := s.its.set k none }
    Sound s' ∧ s'.cursors = { s.cursors with at_ := s.cursors.at_.set k none } := by
  have hk : k < s.its.length := (List.getElem?_eq_some_iff.mp hi).1
  have old : ∀ (j : Nat) (i' : It), (s.its.set k none)[j]? = some (some i') →
      s.its[j]? = some (some i') ∧ k ≠ j ∧ i.block ≠ i'.block := by
    intro j i' hj
    rw [List.getElem?_set] at hj
    split at hj
    · try rw [if_pos hk] at hj
      cases hj
    · rename_i e
      exact ⟨hj, e, fun e' => e (h.inj k j i i' hi hj e')⟩
  intro s'
  refine ⟨⟨?_, ?_, ?_⟩, ?_⟩
  · intro j i' hj
    obtain ⟨h1, h2, h3⟩ := old j i' hj
    obtain ⟨b', g1, g2⟩ := h.own j i' h1
    exact ⟨b', by simp only [s']; rw [List.getElem?_set_ne h3]; exact g1, g2⟩
  · intro j j' i1 i2 h1 h2 e
    exact h.inj j j' i1 i2 (old j i1 h1).1 (old j' i2 h2).1 e
  · intro n b hn
    simp only [s'] at hn
    rw [List.getElem?_set] at hn
    split at hn
    · split at hn <;> cases hn
    · rename_i e
      obtain ⟨j, i', h1, h2⟩ := h.all n b hn
      refine ⟨j, i', ?_, h2⟩
      simp only [s']
      rw [List.getElem?_set_ne]
      · exact h1
      · rintro rfl
        rw [hi] at h1; cases h1
        exact e h2
  · simp only [State.cursors, s', Cursors.mk.injEq, true_and]
    refine List.ext_getElem? fun j => ?_
    rw [List.getElem?_map, List.getElem?_set, List.getElem?_set]
    by_cases e : k = j
    · subst e
      simp [hk]
    · rw [if_neg e, if_neg e, List.getElem?_map]
      cases hj : s.its[j]? with
      | none => rfl
      | some o =>
        cases o with
        | none => rfl
        | some i' =>
          have : i.block ≠ i'.block := fun e' => e (h.inj k j i i' hi hj e')
          simp only [Option.map_some, Option.bind_some, State.place]
          rw [List.getElem?_set_ne this]

/-- The outcome of the code and of the operations on values agree. -/
def Agrees (s : State) (r : Res (State × Out)) (a : Res (Cursors × Out)) : Prop :=
  (r = .ub ∧ a = .ub) ∨ ∃ s' o, r = .ok (s', o) ∧ Sound s' ∧ s'.conts = s.conts ∧ a = .ok (s'.cursors, o)

/-- Neither an assignment nor the value of `k++`. -/
def Op.usual : Op → Bool
  | .assign _ _ | .postIncr _ => false
  | _ => true

theorem Sound.advance {s : State} (h : Sound s) (k : Nat) (n : Int) :
    Agrees s (s.advance false k n) (do let (c, p) ← s.cursors.get k; s.cursors.addAt c (p + n)) := by
  rcases cursors_get h k with ⟨h1, h2⟩ | ⟨i, b, t, h0, h1, h2, h3, h4, h5, h6, h7, h8⟩
  · left; rw [State.advance, h1, h2]; exact ⟨rfl, rfl⟩
  · have hs : s.size b.of = .ok t.items.length := by simp [State.size, h4]
    rw [State.advance, h1, h3]
    simp only [Res.ok_bind, h8, hs, Cursors.addAt]
    rw [show s.cursors.conts[b.of]? = some t from h4]
    simp only
    by_cases hp : 0 ≤ (b.pos : Int) + n ∧ (b.pos : Int) + n ≤ t.items.length
    · rw [if_pos hp, if_pos hp]
      obtain ⟨g1, g2⟩ := h.alloc h4 (p := ((b.pos : Int) + n).toNat) (by omega) (kd := ofLib t.comm)
        (by unfold ofLib; cases t.comm <;> rfl)
      rw [← h5]
      exact .inr ⟨_, _, rfl, g1, rfl, by rw [g2]⟩
    · rw [if_neg hp, if_neg hp]
      exact .inl ⟨rfl, rfl⟩

theorem Sound.same {s : State} (h : Sound s) (k j : Nat) (f : Nat → Nat → Bool) :
    let a : Res (Cursors × Out) := do
      let (c, p) ← s.cursors.get k
      let (c', p') ← s.cursors.get j
      if c = c' then return (s.cursors, .bool (f p p')) else .ub
    (s.same false k j = .ub ∧ a = .ub) ∨
      ∃ p p', s.same false k j = .ok (p == p') ∧ a = .ok (s.cursors, .bool (f p p')) := by
  intro a
  simp only [a, State.same]
  rcases cursors_get h k with ⟨h1, h2⟩ | ⟨i, b, t, h0, h1, h2, h3, h4, h5, h6, h7, h8⟩
  · rw [h1, h2]; exact .inl ⟨rfl, rfl⟩
  · rcases cursors_get h j with ⟨k1, k2⟩ | ⟨i', b', t', k0, k1, k2, k3, k4, k5, k6, k7, k8⟩
    · rw [h1, h3, k1, k2]; exact .inl ⟨rfl, rfl⟩
    · rw [h1, h3, k1, k3]
      simp only [Res.ok_bind, h8]
      by_cases e : b.of = b'.of
      · have et : t = t' := by rw [e, k4] at h4; cases h4; rfl
        have ec : ({ i' with comm := i.comm } : It) = i' := by
          rw [← h5, et, k5]
        rw [ec, k8, if_pos e]
        simp only [Res.ok_bind, if_pos e]
        exact .inr ⟨_, _, rfl, rfl⟩
      · rw [if_neg e]
        refine .inl ⟨?_, rfl⟩
        rw [State.read]
        simp only [k2]
        split
        · simp only [Res.ok_bind, if_neg e]
        · rfl

theorem Sound.step {s : State} (h : Sound s) {op : Op} (hu : op.usual = true) :
    Agrees s (s.step false op) (s.cursors.step op) := by
  cases op with
  | begin c =>
    rw [State.step, Cursors.step, Cursors.addAt, show s.cursors.conts[c]? = s.conts[c]? from rfl]
    cases hc : s.conts[c]? with
    | none => exact .inl ⟨rfl, rfl⟩
    | some t =>
      obtain ⟨g1, g2⟩ := h.alloc hc (p := 0) (Nat.zero_le _) (kd := ofLib t.comm) (by unfold ofLib; cases t.comm <;> rfl)
      refine .inr ⟨_, _, rfl, g1, rfl, ?_⟩
      rw [g2]
      simp
  | finish c =>
    rw [State.step, Cursors.step, show s.cursors.conts[c]? = s.conts[c]? from rfl]
    cases hc : s.conts[c]? with
    | none => exact .inl ⟨rfl, rfl⟩
    | some t =>
      obtain ⟨g1, g2⟩ := h.alloc hc (p := t.items.length) (Nat.le_refl _) (kd := ofLib t.comm)
        (by unfold ofLib; cases t.comm <;> rfl)
      refine .inr ⟨_, _, rfl, g1, rfl, ?_⟩
      rw [g2]
      simp only [Cursors.addAt, show s.cursors.conts[c]? = s.conts[c]? from rfl, hc]
      simp
  | copy k =>
    rw [State.step, Cursors.step, State.dup]
    rcases cursors_get h k with ⟨h1, h2⟩ | ⟨i, b, t, h0, h1, h2, h3, h4, h5, h6, h7, h8⟩
    · rw [h1, h2]; exact .inl ⟨rfl, rfl⟩
    · rw [h1, h3]
      simp only [Res.ok_bind, h8]
      obtain ⟨g1, g2⟩ := h.alloc h4 h6 (kd := readAs t.comm) (by unfold readAs; cases t.comm <;> rfl)
      rw [← h5]
      exact .inr ⟨_, _, rfl, g1, rfl, by rw [g2]; rfl⟩
  | assign k j => cases hu
  | postIncr k => cases hu
  | incr k =>
    rw [State.step, Cursors.step, State.increment]
    rcases cursors_get h k with ⟨h1, h2⟩ | ⟨i, b, t, h0, h1, h2, h3, h4, h5, h6, h7, h8⟩
    · rw [h1, h2]; exact .inl ⟨rfl, rfl⟩
    · have hs : s.size b.of = .ok t.items.length := by simp [State.size, h4]
      rw [h1, h3]
      simp only [Res.ok_bind, h8, hs, show s.cursors.conts[b.of]? = some t from h4]
      by_cases hp : b.pos < t.items.length
      · rw [if_pos hp, if_pos hp]
        obtain ⟨g1, g2⟩ := h.move h0 h2 h4 hp
        exact .inr ⟨_, _, rfl, g1, rfl, by rw [g2]; rfl⟩
      · rw [if_neg hp, if_neg hp]
        exact .inl ⟨rfl, rfl⟩
  | plus k n =>
    rw [State.step, Cursors.step]
    exact h.advance k n.toInt
  | minus k n =>
    rw [State.step, Cursors.step]
    split
    · exact .inl ⟨rfl, rfl⟩
    · exact h.advance k (-n.toInt)
  | deref k =>
    rw [State.step, Cursors.step]
    rcases cursors_get h k with ⟨h1, h2⟩ | ⟨i, b, t, h0, h1, h2, h3, h4, h5, h6, h7, h8⟩
    · rw [h1, h2]; exact .inl ⟨rfl, rfl⟩
    · rw [h1, h3]
      simp only [Res.ok_bind, h8, h4, show s.cursors.conts[b.of]? = some t from h4]
      cases t.items[b.pos]? with
      | none => exact .inl ⟨rfl, rfl⟩
      | some x => exact .inr ⟨s, _, rfl, h, rfl, rfl⟩
  | eq k j =>
    rw [State.step, Cursors.step]
    rcases h.same k j (fun p p' => p == p') with ⟨h1, h2⟩ | ⟨p, p', h1, h2⟩
    · rw [h1]; exact .inl ⟨rfl, h2⟩
    · rw [h1]; exact .inr ⟨s, _, rfl, h, rfl, h2⟩
  | ne k j =>
    rw [State.step, Cursors.step]
    rcases h.same k j (fun p p' => p != p') with ⟨h1, h2⟩ | ⟨p, p', h1, h2⟩
    · rw [h1]; exact .inl ⟨rfl, h2⟩
    · rw [h1]; exact .inr ⟨s, _, rfl, h, rfl, h2⟩
  | destroy k =>
    rw [State.step, Cursors.step]
    rcases cursors_get h k with ⟨h1, h2⟩ | ⟨i, b, t, h0, h1, h2, h3, h4, h5, h6, h7, h8⟩
    · rw [h1, h2]; exact .inl ⟨rfl, rfl⟩
    · rw [h1, h3]
      simp only [Res.ok_bind, h2]
      rw [if_neg (by simp)]
      obtain ⟨g1, g2⟩ := h.kill h0
      exact .inr ⟨_, _, rfl, g1, rfl, by rw [g2]; rfl⟩

end Cnars.Iter
