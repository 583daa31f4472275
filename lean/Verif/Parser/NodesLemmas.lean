import Verif.Parser.Nodes
import Mathlib.Data.Fintype.Card
import Mathlib.Data.List.Nodup

/-!
# Linked lists of nodes

What a well-formed list of `_ast` structures is, and what the loops of `Nodes.lean` do to it.  Helper
lemmas.
-/

namespace Cnars.Parser.Nodes
open Cnars

abbrev Cells := Nat → Option Block

/-- The blocks `fp` are a doubly linked list, starting at `p` with the predecessor `prev`, that holds
the trees `as`. -/
inductive Rep (cells : Cells) : Option Nat → Option Nat → List Ast → List Nat → Prop where
  | nil {prev} : Rep cells prev none [] []
  | leaf {prev p t e s next as fp} :
      cells p = some (.node ⟨e, some t, none, prev, next⟩) → cells t = some (.str s) →
      Rep cells (some p) next as fp → Rep cells prev (some p) (.leaf e s :: as) (p :: t :: fp)
  | node {prev p e child next cs as fp1 fp2} :
      cells p = some (.node ⟨e, none, child, prev, next⟩) →
      Rep cells none child cs fp1 → Rep cells (some p) next as fp2 →
      Rep cells prev (some p) (.node e cs :: as) (p :: (fp1 ++ fp2))

theorem Rep.congr {cells cells' : Cells} {prev p as fp} (h : Rep cells prev p as fp)
    (hc : ∀ a ∈ fp, cells' a = cells a) : Rep cells' prev p as fp := by
  induction h with
  | nil => exact .nil
  | leaf h1 h2 _ ih =>
    exact .leaf (by rw [hc _ (by simp), h1]) (by rw [hc _ (by simp), h2])
      (ih fun a ha => hc a (by simp [ha]))
  | node h1 _ _ ih1 ih2 =>
    exact .node (by rw [hc _ (by simp), h1]) (ih1 fun a ha => hc a (by simp [ha]))
      (ih2 fun a ha => hc a (by simp [ha]))

theorem Rep.none_iff {cells : Cells} {prev p as fp} (h : Rep cells prev p as fp) :
    p = none ↔ as = [] := by
  cases h <;> simp

theorem Rep.live {cells : Cells} {prev p as fp} (h : Rep cells prev p as fp) :
    ∀ a ∈ fp, cells a ≠ none := by
  induction h with
  | nil => simp
  | leaf h1 h2 _ ih =>
    intro a ha
    simp only [List.mem_cons] at ha
    rcases ha with rfl | rfl | ha
    · simp [h1]
    · simp [h2]
    · exact ih a ha
  | node h1 _ _ ih1 ih2 =>
    intro a ha
    simp only [List.mem_cons, List.mem_append] at ha
    rcases ha with rfl | ha | ha
    · simp [h1]
    · exact ih1 a ha
    · exact ih2 a ha

/-- The first node. -/
theorem Rep.head {cells : Cells} {prev : Option Nat} {p : Nat} {as fp}
    (h : Rep cells prev (some p) as fp) :
    ∃ n, cells p = some (.node n) ∧ n.prev = prev ∧ p ∈ fp := by
  cases h with
  | leaf h1 _ _ => exact ⟨_, h1, rfl, by simp⟩
  | node h1 _ _ => exact ⟨_, h1, rfl, by simp⟩

/-- A list of distinct numbers below `n` has at most `n` elements. -/
theorem nodup_length_le {l : List Nat} {n : Nat} (hd : l.Nodup) (h : ∀ a ∈ l, a < n) :
    l.length ≤ n := by
  have : l.Subperm (List.range n) := hd.subperm fun a ha => by simpa using h a ha
  simpa using this.length_le

/-- The list after another predecessor was written to its first node. -/
theorem Rep.setHead {cells cells' : Cells} {prev prev' : Option Nat} {p : Nat} {as fp} {n : Node}
    (h : Rep cells prev (some p) as fp) (hd : fp.Nodup) (hn : cells p = some (.node n))
    (hp : cells' p = some (.node { n with prev := prev' }))
    (hc : ∀ a ∈ fp, a ≠ p → cells' a = cells a) : Rep cells' prev' (some p) as fp := by
  cases h with
  | leaf h1 h2 h3 =>
    rw [hn] at h1
    obtain rfl : n = _ := by simpa using h1
    simp only [List.nodup_cons, List.mem_cons, not_or] at hd
    refine .leaf hp (by rw [hc _ (by simp) (Ne.symm hd.1.1), h2]) (h3.congr fun a ha => ?_)
    exact hc a (by simp [ha]) (fun e => hd.1.2 (e ▸ ha))
  | node h1 h2 h3 =>
    rw [hn] at h1
    obtain rfl : n = _ := by simpa using h1
    simp only [List.nodup_cons, List.mem_append, not_or] at hd
    refine .node hp (h2.congr fun a ha => ?_) (h3.congr fun a ha => ?_)
    · exact hc a (by simp [ha]) (fun e => hd.1.1 (e ▸ ha))
    · exact hc a (by simp [ha]) (fun e => hd.1.2 (e ▸ ha))

/-- The last node of a list, and what becomes of the list when another one is linked to it. -/
theorem Rep.last {h : Heap} {prev p as fp} (hr : Rep h.cells prev p as fp) :
    ∀ {a : Nat}, p = some a → ∀ fuel, fp.length ≤ fuel →
      ∃ l n, last fuel a h = .ok l ∧ l ∈ fp ∧ h.cells l = some (.node n) ∧ n.next = none ∧
        ∀ {cells' : Cells} {q : Nat} {bs fq},
          cells' l = some (.node { n with next := some q }) →
          (∀ x ∈ fp, x ≠ l → cells' x = h.cells x) → fp.Nodup →
          Rep cells' (some l) (some q) bs fq → Rep cells' prev p (as ++ bs) (fp ++ fq) := by
  induction hr with
  | nil => intro a ha; simp at ha
  | @leaf prev p t e s next as fp h1 h2 h3 ih =>
    intro a ha fuel hf
    obtain rfl : p = a := by simpa using ha
    cases fuel with
    | zero => simp at hf
    | succ fuel =>
      cases next with
      | none =>
        refine ⟨p, _, by simp [Nodes.last, Heap.node, h1], by simp, h1, rfl, ?_⟩
        intro cells' q bs fq hl hc hd hq
        cases h3
        simp only [List.nodup_cons, List.mem_cons, not_or] at hd
        exact .leaf hl (by rw [hc _ (by simp) (Ne.symm hd.1.1), h2]) hq
      | some b =>
        obtain ⟨l, n, e1, e2, e3, e4, e5⟩ := ih rfl fuel (by simp at hf; omega)
        refine ⟨l, n, by simp [Nodes.last, Heap.node, h1, e1], by simp [e2], e3, e4, ?_⟩
        intro cells' q bs fq hl hc hd hq
        simp only [List.nodup_cons, List.mem_cons, not_or] at hd
        have n1 : l ≠ p := fun e => hd.1.2 (e ▸ e2)
        have n2 : l ≠ t := fun e => hd.2.1 (e ▸ e2)
        exact .leaf (by rw [hc _ (by simp) (Ne.symm n1), h1])
          (by rw [hc _ (by simp) (Ne.symm n2), h2])
          (e5 hl (fun x hx => hc x (by simp [hx])) hd.2.2 hq)
  | @node prev p e child next cs as fp1 fp2 h1 h2 h3 ih1 ih2 =>
    intro a ha fuel hf
    obtain rfl : p = a := by simpa using ha
    cases fuel with
    | zero => simp at hf
    | succ fuel =>
      cases next with
      | none =>
        refine ⟨p, _, by simp [Nodes.last, Heap.node, h1], by simp, h1, rfl, ?_⟩
        intro cells' q bs fq hl hc hd hq
        cases h3
        simp only [List.append_nil] at hd hc ⊢
        simp only [List.nodup_cons] at hd
        refine .node hl (h2.congr fun x hx => hc x (by simp [hx]) fun e => hd.1 (e ▸ hx)) hq
      | some b =>
        obtain ⟨l, n, e1, e2, e3, e4, e5⟩ := ih2 rfl fuel (by simp at hf; omega)
        refine ⟨l, n, by simp [Nodes.last, Heap.node, h1, e1], by simp [e2], e3, e4, ?_⟩
        intro cells' q bs fq hl hc hd hq
        simp only [List.nodup_cons, List.mem_append, not_or, List.nodup_append] at hd
        have n1 : l ≠ p := fun e => hd.1.2 (e ▸ e2)
        have := e5 hl (fun x hx => hc x (by simp [hx])) hd.2.2.1 hq
        rw [List.cons_append, List.cons_append, List.append_assoc]
        refine .node (by rw [hc _ (by simp) (Ne.symm n1), h1])
          (h2.congr fun x hx => hc x (by simp [hx]) ?_) this
        rintro rfl
        exact hd.2.2.2 x hx x e2 rfl

/-! ## Blocks made since a heap `h0` -/

/-- The blocks `fp` are the ones made since `h0`, and the others are as they were. -/
structure Since (h0 h : Heap) (fp : List Nat) : Prop where
  nodup : fp.Nodup
  mem : ∀ a, a ∈ fp ↔ h0.next ≤ a ∧ a < h.next
  same : ∀ a, a ∉ fp → h.cells a = h0.cells a
  le : h0.next ≤ h.next

theorem Since.refl (h : Heap) : Since h h [] :=
  ⟨by simp, fun a => by simp, fun _ _ => rfl, Nat.le_refl _⟩

theorem Since.perm {h0 h : Heap} {fp fp' : List Nat} (hs : Since h0 h fp) (hp : fp.Perm fp') :
    Since h0 h fp' :=
  ⟨hp.nodup_iff.mp hs.nodup, fun a => by rw [← hp.mem_iff, hs.mem],
    fun a ha => hs.same a fun h => ha (hp.mem_iff.mp h), hs.le⟩

theorem Since.lt {h0 h : Heap} {fp : List Nat} (hs : Since h0 h fp) : ∀ a ∈ fp, a < h.next :=
  fun a ha => ((hs.mem a).mp ha).2

theorem Since.length {h0 h : Heap} {fp : List Nat} (hs : Since h0 h fp) : fp.length ≤ h.next :=
  nodup_length_le hs.nodup hs.lt

/-- A write into one of the blocks. -/
theorem Since.put {h0 h : Heap} {fp : List Nat} (hs : Since h0 h fp) {p : Nat} (hp : p ∈ fp)
    (b : Option Block) : Since h0 { h with cells := Nodes.put h.cells p b } fp :=
  ⟨hs.nodup, hs.mem, fun a ha => by
    have : a ≠ p := fun e => ha (e ▸ hp)
    simp only [Nodes.put]
    rw [if_neg this, hs.same a ha], hs.le⟩

theorem Since.malloc {h0 h : Heap} {fp : List Nat} (hs : Since h0 h fp) (b : Block) :
    Since h0 (h.malloc b).2 (h.next :: fp) where
  nodup := by
    simp only [List.nodup_cons]
    exact ⟨fun ha => Nat.lt_irrefl _ (hs.lt _ ha), hs.nodup⟩
  mem a := by
    have := hs.le
    simp only [List.mem_cons, hs.mem, Heap.malloc]
    omega
  same a ha := by
    simp only [List.mem_cons, not_or] at ha
    simp only [Heap.malloc, Nodes.put]
    rw [if_neg ha.1, hs.same a ha.2]
  le := by have := hs.le; simp only [Heap.malloc]; omega

/-! ## Creating nodes -/

theorem put_self (cells : Cells) (p : Nat) (b : Option Block) : put cells p b p = b := by
  simp [put]

theorem put_ne (cells : Cells) {p a : Nat} (b : Option Block) (h : a ≠ p) :
    put cells p b a = cells a := by
  simp [put, h]

theorem leafNode_spec {h0 h : Heap} {fp : List Nat} (hs : Since h0 h fp) (emit : Emit)
    (token : List WChar) :
    ∃ p h' fq, leafNode emit token h = .ok (p, h') ∧ Since h0 h' (fq ++ fp) ∧
      Rep h'.cells none p (leafNodes emit token) fq ∧
      ∀ a ∈ fp, h'.cells a = h.cells a := by
  unfold leafNode leafNodes
  by_cases he : emit = .none
  · simp only [he, if_true]
    exact ⟨none, h, [], rfl, by simpa using hs, .nil, fun _ _ => rfl⟩
  · simp only [he, if_false]
    have hs1 := hs.malloc (.node ⟨emit, none, none, none, none⟩)
    have hs2 := hs1.malloc (.str (token.map toChar))
    simp only [Heap.malloc] at hs1 hs2
    have hm : (h.next : Nat) ∈ (h.next + 1) :: h.next :: fp := by simp
    have hs3 := hs2.put hm
      (some (.node ⟨emit, some (h.next + 1), none, none, none⟩))
    refine ⟨some h.next, _, [h.next, h.next + 1], ?_, hs3.perm ?_, ?_, ?_⟩
    · simp [astCreate, Heap.malloc, Heap.modify, put]
    · exact List.Perm.swap _ _ _
    · refine .leaf (next := none) (put_self _ _ _) ?_ .nil
      exact (put_ne _ _ (by omega)).trans (put_self _ _ _)
    · intro a ha
      have := hs.lt a ha
      simp only
      rw [put_ne _ _ (by omega), put_ne _ _ (by omega), put_ne _ _ (by omega)]

theorem wrap_spec {h0 h : Heap} {fp fr : List Nat} (hs : Since h0 h (fp ++ fr)) {emit : Emit}
    {p : Option Nat} {as : List Ast} (hr : Rep h.cells none p as fp) :
    ∃ q h' fq, wrap emit p h = .ok (q, h') ∧ Since h0 h' (fq ++ fr) ∧
      Rep h'.cells none q (wrapNodes emit as) fq ∧ ∀ a ∈ fr, h'.cells a = h.cells a := by
  unfold wrap wrapNodes
  by_cases he : emit = .none
  · simp only [he, if_true]
    exact ⟨p, h, fp, rfl, hs, hr, fun _ _ => rfl⟩
  · simp only [he, if_false]
    have hs1 := hs.malloc (.node ⟨emit, none, none, none, none⟩)
    simp only [Heap.malloc] at hs1
    have hs3 := hs1.put (p := h.next) (by simp) (some (.node ⟨emit, none, p, none, none⟩))
    have hold : ∀ a ∈ fp ++ fr, put (put h.cells h.next (some (.node ⟨emit, none, none, none, none⟩)))
        h.next (some (.node ⟨emit, none, p, none, none⟩)) a = h.cells a := by
      intro a ha
      have := hs.lt a ha
      rw [put_ne _ _ (by omega), put_ne _ _ (by omega)]
    refine ⟨some h.next, ⟨put (put h.cells h.next (some (.node ⟨emit, none, none, none, none⟩)))
        h.next (some (.node ⟨emit, none, p, none, none⟩)), h.next + 1⟩, h.next :: (fp ++ []), ?_, ?_,
        ?_, ?_⟩
    rotate_left
    · rw [List.append_nil]
      exact hs3
    · exact .node (next := none) (put_self _ _ _)
        (hr.congr fun a ha => hold a (by simp [ha])) .nil
    · exact fun a ha => hold a (by simp [ha])
    · simp [astCreate, Heap.malloc, Heap.setChild, Heap.modify, put]

/-! ## Linking lists -/

theorem first_head {h : Heap} {p : Nat} {as fp} (hr : Rep h.cells none (some p) as fp) (fuel : Nat) :
    first (fuel + 1) p h = .ok p := by
  obtain ⟨n, h1, h2, _⟩ := hr.head
  simp [first, Heap.node, h1, h2]

theorem collect_spec {h0 h : Heap} {fa fp fr : List Nat} (hs : Since h0 h (fa ++ fp ++ fr))
    {acc p : Option Nat} {as bs : List Ast} (hr : Rep h.cells none acc as fa)
    (hq : Rep h.cells none p bs fp) (hk : as = [] ∨ bs.length ≤ 1) :
    ∃ q h', collect acc p h = .ok (q, h') ∧ Since h0 h' (fp ++ fa ++ fr) ∧
      Rep h'.cells none q (bs ++ as) (fp ++ fa) ∧ ∀ a ∈ fr, h'.cells a = h.cells a := by
  have hperm : (fa ++ fp ++ fr).Perm (fp ++ fa ++ fr) :=
    List.perm_append_comm.append_right _
  have hs' := hs.perm hperm
  cases p with
  | none =>
    obtain rfl := hq.none_iff.mp rfl
    cases hq
    exact ⟨acc, h, rfl, by simpa using hs', by simpa using hr, fun _ _ => rfl⟩
  | some p =>
    cases acc with
    | none =>
      obtain rfl := hr.none_iff.mp rfl
      cases hr
      exact ⟨some p, h, rfl, by simpa using hs', by simpa using hq, fun _ _ => rfl⟩
    | some a =>
      have hne : as ≠ [] := fun e => by simpa using hr.none_iff.mpr e
      have hlen : bs.length ≤ 1 := hk.resolve_left hne
      obtain ⟨n, hn, hprev, ha⟩ := hr.head
      obtain ⟨m, hm, hmprev, hp⟩ := hq.head
      have hnd := hs.nodup
      rw [List.append_assoc, List.nodup_append] at hnd
      obtain ⟨hda, hd2, hdis⟩ := hnd
      rw [List.nodup_append] at hd2
      obtain ⟨hdp, _, hdis2⟩ := hd2
      have hap : p ≠ a := fun e => hdis a ha p (by simp [hp]) e.symm
      have hafr : ∀ x ∈ fr, x ≠ a := fun x hx e => hdis a ha x (by simp [hx]) e.symm
      have hpfr : ∀ x ∈ fr, x ≠ p := fun x hx e => hdis2 p hp x hx e.symm
      let c1 := put h.cells a (some (.node { n with prev := some p }))
      let c2 := put c1 p (some (.node { m with next := some a }))
      have e1 : h.setPrev a (some p) = .ok { h with cells := c1 } := by
        simp [Heap.setPrev, Heap.modify, hn, c1]
      have e2 : Heap.setNext { h with cells := c1 } p (some a) = .ok { h with cells := c2 } := by
        simp [Heap.setNext, Heap.modify, c1, c2, put_ne _ _ hap, hm]
      refine ⟨some p, { h with cells := c2 }, ?_, ?_, ?_, ?_⟩
      · simp only [collect, first_head hr, Res.ok_bind, e1, e2]
      · exact (hs'.put (p := a) (by simp [ha]) _).put (p := p) (by simp [hp]) _
      · have hacc : Rep c2 (some p) (some a) as fa := by
          refine hr.setHead hda hn (prev' := some p) ?_ ?_
          · simp only [c2, c1]
            rw [put_ne _ _ (Ne.symm hap), put_self]
          · intro x hx hxa
            have : x ≠ p := fun e => hdis x hx p (by simp [hp]) e
            simp only [c2, c1]
            rw [put_ne _ _ this, put_ne _ _ hxa]
        -- a list of one node
        have hlast : ∃ l n, last fp.length p h = .ok l ∧ l ∈ fp ∧ h.cells l = some (.node n) ∧
            n.next = none ∧ ∀ {cells' : Cells} {q : Nat} {bs' fq},
              cells' l = some (.node { n with next := some q }) →
              (∀ x ∈ fp, x ≠ l → cells' x = h.cells x) → fp.Nodup →
              Rep cells' (some l) (some q) bs' fq → Rep cells' none (some p) (bs ++ bs') (fp ++ fq) :=
          hq.last rfl _ (Nat.le_refl _)
        obtain ⟨l, k, l1, l2, l3, l4, l5⟩ := hlast
        have hl : l = p := by
          have hone : m.next = none := by
            cases hq with
            | leaf g1 g2 g3 =>
              rw [hm] at g1
              obtain rfl : m = _ := by simpa using g1
              simp only [List.length_cons] at hlen
              exact g3.none_iff.mpr (List.eq_nil_of_length_eq_zero (by omega))
            | node g1 g2 g3 =>
              rw [hm] at g1
              obtain rfl : m = _ := by simpa using g1
              simp only [List.length_cons] at hlen
              exact g3.none_iff.mpr (List.eq_nil_of_length_eq_zero (by omega))
          have hpos : fp.length ≠ 0 := fun e => by
            rw [List.eq_nil_of_length_eq_zero e] at hp
            simp at hp
          obtain ⟨j, hj⟩ := Nat.exists_eq_succ_of_ne_zero hpos
          rw [hj] at l1
          simpa [last, Heap.node, hm, hone] using l1.symm
        subst hl
        obtain rfl : k = m := by rw [hm] at l3; simpa using l3.symm
        refine l5 (by simp only [c2]; rw [put_self]) ?_ hdp hacc
        intro x hx hxl
        have : x ≠ a := fun e => hdis a ha x (by simp [hx]) e.symm
        simp only [c2, c1]
        rw [put_ne _ _ hxl, put_ne _ _ this]
      · intro x hx
        simp only [c2, c1]
        rw [put_ne _ _ (hpfr x hx), put_ne _ _ (hafr x hx)]

theorem chain_spec {h0 h : Heap} {fp fa fr : List Nat} (hs : Since h0 h (fp ++ fa ++ fr))
    {p acc : Option Nat} {as bs : List Ast} (hq : Rep h.cells none p bs fp)
    (hr : Rep h.cells none acc as fa) :
    ∃ q h', chain p acc h = .ok (q, h') ∧ Since h0 h' (fp ++ fa ++ fr) ∧
      Rep h'.cells none q (bs ++ as) (fp ++ fa) ∧ ∀ a ∈ fr, h'.cells a = h.cells a := by
  cases acc with
  | none =>
    obtain rfl := hr.none_iff.mp rfl
    cases hr
    exact ⟨p, h, rfl, hs, by simpa using hq, fun _ _ => rfl⟩
  | some a =>
    cases p with
    | none =>
      obtain rfl := hq.none_iff.mp rfl
      cases hq
      exact ⟨some a, h, rfl, hs, by simpa using hr, fun _ _ => rfl⟩
    | some p =>
      obtain ⟨n, hn, hprev, ha⟩ := hr.head
      have hnd := hs.nodup
      rw [List.append_assoc, List.nodup_append] at hnd
      obtain ⟨hdp, hd2, hdis⟩ := hnd
      rw [List.nodup_append] at hd2
      obtain ⟨hda, _, hdis2⟩ := hd2
      have hlen : fp.length ≤ h.next + 1 := by
        have := hs.length
        simp only [List.length_append] at this
        omega
      obtain ⟨l, k, l1, l2, l3, l4, l5⟩ := hq.last rfl (h.next + 1) hlen
      have hal : a ≠ l := fun e => hdis l l2 a (by simp [ha]) e.symm
      have hafr : ∀ x ∈ fr, x ≠ a := fun x hx e => hdis2 a ha x hx e.symm
      have hlfr : ∀ x ∈ fr, x ≠ l := fun x hx e => hdis l l2 x (by simp [hx]) e.symm
      let c1 := put h.cells l (some (.node { k with next := some a }))
      let c2 := put c1 a (some (.node { n with prev := some l }))
      have e1 : h.setNext l (some a) = .ok { h with cells := c1 } := by
        simp [Heap.setNext, Heap.modify, l3, c1]
      have e2 : Heap.setPrev { h with cells := c1 } a (some l) = .ok { h with cells := c2 } := by
        simp [Heap.setPrev, Heap.modify, c1, c2, put_ne _ _ hal, hn]
      refine ⟨some p, { h with cells := c2 }, ?_, ?_, ?_, ?_⟩
      · simp only [chain, l1, Res.ok_bind, e1, e2]
      · exact (hs.put (p := l) (by simp [l2]) _).put (p := a) (by simp [ha]) _
      · have hacc : Rep c2 (some l) (some a) as fa := by
          refine hr.setHead hda hn (prev' := some l) (by simp only [c2]; rw [put_self]) ?_
          intro x hx hxa
          have : x ≠ l := fun e => hdis l l2 x (by simp [hx]) e.symm
          simp only [c2, c1]
          rw [put_ne _ _ hxa, put_ne _ _ this]
        refine l5 ?_ ?_ hdp hacc
        · simp only [c2, c1]
          rw [put_ne _ _ (Ne.symm hal), put_self]
        · intro x hx hxl
          have : x ≠ a := fun e => hdis x hx a (by simp [ha]) e
          simp only [c2, c1]
          rw [put_ne _ _ this, put_ne _ _ hxl]
      · intro x hx
        simp only [c2, c1]
        rw [put_ne _ _ (hafr x hx), put_ne _ _ (hlfr x hx)]

/-! ## Freeing and reading -/

/-- Without the blocks of a list. -/
def del (cells : Cells) (fp : List Nat) : Cells := fun a => if a ∈ fp then none else cells a

theorem del_in (cells : Cells) {fp : List Nat} {a : Nat} (h : a ∈ fp) : del cells fp a = none := by
  simp [del, h]

theorem del_out (cells : Cells) {fp : List Nat} {a : Nat} (h : a ∉ fp) :
    del cells fp a = cells a := by
  simp [del, h]

/-- `ast_free` removes exactly the blocks of the list. -/
theorem astFree_spec {cells : Cells} {prev p as fp} (hr : Rep cells prev p as fp) :
    ∀ (h : Heap), (∀ a ∈ fp, h.cells a = cells a) → fp.Nodup → ∀ fuel, fp.length ≤ fuel →
      astFree fuel p h = .ok ⟨del h.cells fp, h.next⟩ := by
  induction hr with
  | nil =>
    intro h _ _ fuel _
    have : del h.cells [] = h.cells := by funext a; simp [del]
    cases fuel <;> simp [astFree, this]
  | @leaf prev p t e s next as fp h1 h2 h3 ih =>
    intro h hc hd fuel hf
    simp only [List.nodup_cons, List.mem_cons, not_or] at hd
    cases fuel with
    | zero => simp at hf
    | succ fuel =>
      simp only [List.length_cons] at hf
      have h0 : astFree fuel none h = .ok h := by cases fuel <;> rfl
      have hp : h.cells p = _ := (hc p (by simp)).trans h1
      have ht : h.cells t = _ := (hc t (by simp)).trans h2
      simp only [astFree, Heap.node, hp, Res.ok_bind, h0,
        ih h (fun a ha => hc a (by simp [ha])) hd.2.2 fuel (by omega), del_out _ hd.1.2, Heap.free,
        del_out _ hd.2.1, ht, put_ne _ _ hd.1.1]
      congr 2
      funext a
      simp only [put, del, List.mem_cons]
      by_cases e1 : a = p
      · simp [e1]
      · by_cases e2 : a = t <;> simp [e1, e2]
  | @node prev p e child next cs as fp1 fp2 h1 h2 h3 ih1 ih2 =>
    intro h hc hd fuel hf
    simp only [List.nodup_cons, List.mem_append, not_or, List.nodup_append] at hd
    obtain ⟨⟨hn1, hn2⟩, hd1, hd2, hdis⟩ := hd
    cases fuel with
    | zero => simp at hf
    | succ fuel =>
      simp only [List.length_cons, List.length_append] at hf
      have hp : h.cells p = _ := (hc p (by simp)).trans h1
      have hc2 : ∀ a ∈ fp2, del h.cells fp1 a = cells a := fun a ha => by
        rw [del_out _ fun hx => hdis a hx a ha rfl]
        exact hc a (by simp [ha])
      simp only [astFree, Heap.node, hp, Res.ok_bind,
        ih1 h (fun a ha => hc a (by simp [ha])) hd1 fuel (by omega), del_out _ hn1,
        ih2 ⟨del h.cells fp1, h.next⟩ hc2 hd2 fuel (by omega), del_out _ hn2, Heap.free]
      congr 2
      funext a
      simp only [put, del, List.mem_cons, List.mem_append]
      by_cases e1 : a = p
      · simp [e1]
      · by_cases e2 : a ∈ fp1 <;> by_cases e3 : a ∈ fp2 <;> simp [e1, e2, e3]

/-- What `transform` reads. -/
theorem treeAt_spec {h : Heap} {prev p as fp} (hr : Rep h.cells prev p as fp) :
    ∀ fuel, fp.length ≤ fuel → treeAt fuel p h = .ok as := by
  induction hr with
  | nil => intro fuel _; cases fuel <;> rfl
  | @leaf prev p t e s next as fp h1 h2 h3 ih =>
    intro fuel hf
    cases fuel with
    | zero => simp at hf
    | succ fuel =>
      simp only [List.length_cons] at hf
      simp [treeAt, Heap.node, h1, h2, ih fuel (by omega)]
  | @node prev p e child next cs as fp1 fp2 h1 h2 h3 ih1 ih2 =>
    intro fuel hf
    cases fuel with
    | zero => simp at hf
    | succ fuel =>
      simp only [List.length_cons, List.length_append] at hf
      simp [treeAt, Heap.node, h1, ih1 fuel (by omega), ih2 fuel (by omega)]

end Cnars.Parser.Nodes
