import Verif.Narsese.SetOps
import Verif.Props.TermEq

/-!
# C10-C12: component lists
-/

namespace Cnars.Props
open Cnars Term

/-- A collection of terms that the comparator can tell apart: two different members with the same
hash differ exactly in the index of the one variable each of them contains. -/
def Told (S : Term → Prop) : Prop :=
  (∀ a, S a → Constructed a) ∧
  ∀ a b, S a → S b → a.hash = b.hash → a = b ∨
    (HasVariable a ∧ ∃ i j, i ≠ j ∧ AllIdx a i ∧ AllIdx b j ∧ (shape a).pattern = (shape b).pattern)

/-- In particular, terms identified by their hashes. -/
theorem told_of_hash {S : Term → Prop} (hc : ∀ a, S a → Constructed a)
    (h : ∀ a b, S a → S b → a.hash = b.hash → a = b) : Told S :=
  ⟨hc, fun a b ha hb he => .inl (h a b ha hb he)⟩

theorem Told.orderly {S : Term → Prop} (h : Told S) : Orderly S :=
  Tellable.orderly ⟨fun a ha => (h.1 a ha).good, h.2⟩

/-! ## C10 -/

theorem C10_commutative {xs : List Term} (h : Told (· ∈ xs)) :
    ∃ r, Terms.ofList true xs = .ok ⟨true, r⟩ ∧
      (∀ z, z ∈ r ↔ z ∈ xs) ∧ r.Nodup ∧
      r.Pairwise (fun a b => lt a b = .ok true ∧ lt b a = .ok false) ∧
      ∀ ys : List Term, (∀ z, z ∈ ys ↔ z ∈ xs) → Terms.ofList true ys = .ok ⟨true, r⟩ := by
  have key : ∀ ys : List Term, (∀ z, z ∈ ys ↔ z ∈ xs) →
      ∃ r, Terms.ofList true ys = .ok ⟨true, r⟩ ∧ SortedTs r ∧ ∀ z, z ∈ r ↔ z ∈ xs := by
    intro ys hy
    obtain ⟨r, e, s, hm⟩ := h.orderly.setInsertAll (xs := ys) (s := [])
      (fun t ht => (hy t).1 ht) (by simp) (by simp [SortedTs])
    exact ⟨r, by simp [Terms.ofList, e], s, fun z => by rw [hm, hy]; simp⟩
  obtain ⟨r, e, s, hm⟩ := key xs (fun _ => Iff.rfl)
  refine ⟨r, e, hm, s.nodup, s, fun ys hy => ?_⟩
  obtain ⟨r', e', s', hm'⟩ := key ys hy
  rw [e', s'.ext s (fun z => by rw [hm', hm])]

theorem sABC_told : Told (· ∈ [sC, sA, sB, sA]) := by
  refine told_of_hash ?_ ?_
  · intro a ha
    simp only [List.mem_cons, List.not_mem_nil, or_false] at ha
    rcases ha with rfl | rfl | rfl | rfl
    exacts [sC_c, sA_c, sB_c, sA_c]
  · intro a b ha hb he
    simp only [List.mem_cons, List.not_mem_nil, or_false] at ha hb
    rcases ha with rfl | rfl | rfl | rfl <;> rcases hb with rfl | rfl | rfl | rfl <;>
      first | rfl | exact absurd he (by decide +kernel)

example : ∃ r, Terms.ofList true [sC, sA, sB, sA] = .ok ⟨true, r⟩ ∧ r.Nodup ∧
    Terms.ofList true [sA, sB, sC] = .ok ⟨true, r⟩ := by
  obtain ⟨r, e, _, hn, _, h⟩ := C10_commutative sABC_told
  exact ⟨r, e, hn, h _ (by simp; tauto)⟩

/-- Two variables of one kind share their hash, but are told apart by their indices. -/
example : ∃ r, Terms.ofList true [sY, sX, sY] = .ok ⟨true, r⟩ ∧ r.Nodup ∧ sX ∈ r ∧ sY ∈ r := by
  have ht : Told (· ∈ [sY, sX, sY]) := by
    refine ⟨?_, ?_⟩
    · intro a ha
      simp only [List.mem_cons, List.not_mem_nil, or_false] at ha
      rcases ha with rfl | rfl | rfl
      exacts [sY_c, sX_c, sY_c]
    · have hx : HasVariable sX := ⟨.independent, some 0, by simp [sX, Shape.leaves]⟩
      have hy : HasVariable sY := ⟨.independent, some 1, by simp [sY, Shape.leaves]⟩
      have ax : AllIdx sX 0 := by simp [AllIdx, sX, Shape.leaves]
      have ay : AllIdx sY 1 := by simp [AllIdx, sY, Shape.leaves]
      intro a b ha hb _
      simp only [List.mem_cons, List.not_mem_nil, or_false] at ha hb
      rcases ha with rfl | rfl | rfl <;> rcases hb with rfl | rfl | rfl
      all_goals first
        | exact .inl rfl
        | exact .inr ⟨hx, 0, 1, by decide, ax, ay, rfl⟩
        | exact .inr ⟨hy, 1, 0, by decide, ay, ax, rfl⟩
  obtain ⟨r, e, hm, hn, _⟩ := C10_commutative ht
  exact ⟨r, e, hn, (hm _).2 (by simp), (hm _).2 (by simp)⟩

/-- Without any assumption on the terms: if the container is built at all, it is strictly
ascending, it holds only inputs, and every input is present or equivalent to a present one. -/
theorem C10_commutative_any {xs r : List Term} (h : Terms.ofList true xs = .ok ⟨true, r⟩) :
    r.Pairwise (fun a b => lt a b = .ok true ∧ lt b a = .ok false) ∧ (∀ z ∈ r, z ∈ xs) ∧
    ∀ x ∈ xs, x ∈ r ∨ ∃ y ∈ r, lt x y = .ok false ∧ lt y x = .ok false := by
  simp only [Terms.ofList, if_true, Res.bind_eq_ok, Res.pure_eq, Res.ok.injEq,
    Terms.mk.injEq, true_and] at h
  obtain ⟨r', h, rfl⟩ := h
  refine ⟨setInsertAll_sorted h (by simp [SortedTs]), ?_, ?_⟩
  · intro z hz
    rcases (setInsertAll_mem h).1 z hz with hz | hz
    · exact hz
    · simp at hz
  · have gen : ∀ (xs s r : List Term), setInsertAll xs s = .ok r →
        ∀ x ∈ xs, x ∈ r ∨ ∃ y ∈ r, lt x y = .ok false ∧ lt y x = .ok false := by
      intro xs
      induction xs with
      | nil => simp
      | cons a xs ih =>
        intro s r h x hx
        simp only [setInsertAll, Res.bind_eq_ok] at h
        obtain ⟨s', h1, h2⟩ := h
        rcases List.mem_cons.1 hx with rfl | hx
        · obtain ⟨_, hkeep⟩ := setInsertAll_mem h2
          obtain ⟨_, hold, hin⟩ := setInsert_mem h1
          rcases hin with hin | ⟨y, hy, hyx⟩
          · exact .inl (hkeep _ hin)
          · exact .inr ⟨y, hkeep _ (hold _ hy), hyx⟩
        · exact ih s' r h2 x hx
    exact gen xs [] r' h

example : ∃ r, Terms.ofList true [sC, sA, sB, sA] = .ok ⟨true, r⟩ ∧ (∀ z ∈ r, z ∈ [sC, sA, sB, sA]) := by
  obtain ⟨r, e, _⟩ := C10_commutative sABC_told
  exact ⟨r, e, (C10_commutative_any e).2.1⟩

/-- A non-commutative container keeps the sequence. -/
theorem C10_ordered (xs : List Term) : Terms.ofList false xs = .ok ⟨false, xs⟩ := by
  simp [Terms.ofList]

/-- Calls of `push_back` one after the other. -/
def pushAll (t : Terms) : List Term → Res Terms
  | [] => .ok t
  | x :: xs => do
    let t ← t.pushBack x
    pushAll t xs

/-- Filling a container and pushing the elements one at a time agree. -/
theorem C10_push_back (comm : Bool) (xs : List Term) :
    pushAll ⟨comm, []⟩ xs = Terms.ofList comm xs := by
  cases comm with
  | false =>
    have : ∀ acc, pushAll ⟨false, acc⟩ xs = .ok ⟨false, acc ++ xs⟩ := by
      induction xs with
      | nil => simp [pushAll]
      | cons x xs ih => intro acc; simp [pushAll, Terms.pushBack, ih]
    simp [this, Terms.ofList]
  | true =>
    have : ∀ acc, pushAll ⟨true, acc⟩ xs = (do let s ← setInsertAll xs acc; return ⟨true, s⟩) := by
      induction xs with
      | nil => simp [pushAll, setInsertAll]
      | cons x xs ih => intro acc; simp [pushAll, Terms.pushBack, setInsertAll, ih]
    simp [this, Terms.ofList]

/-! ## C11 -/

/-- A commutative `Terms`, as built by its constructors. -/
def CommTerms (t : Terms) : Prop := ∃ xs, Terms.ofList true xs = .ok t

theorem CommTerms.sorted {t : Terms} (h : CommTerms t) : t.comm = true ∧ SortedTs t.items := by
  obtain ⟨xs, h⟩ := h
  obtain ⟨h1, _, h2, _⟩ := ofList_mem h
  exact ⟨h1, h2 rfl⟩

theorem setsOver {ts : List Terms} (hc : ∀ t ∈ ts, CommTerms t)
    (h : Told fun z => ∃ t ∈ ts, z ∈ t.items) : SetsOver (fun z => ∃ t ∈ ts, z ∈ t.items) ts :=
  ⟨h.orderly, fun t ht => (hc t ht).sorted.1, fun t ht => (hc t ht).sorted.2,
    fun t ht _ hz => ⟨t, ht, hz⟩⟩

/-- The union, for operands whose elements are told apart by their hash or by the index of their
single variable.

Missing from this and the next two: elements that the comparator does not tell apart, see the
counterexample. -/
theorem C11_union_partial {ts : List Terms} (hne : ts ≠ []) (hc : ∀ t ∈ ts, CommTerms t)
    (h : Told fun z => ∃ t ∈ ts, z ∈ t.items) :
    ∃ r, Terms.union ts = .ok r ∧ CommTerms r ∧ ∀ z, z ∈ r.items ↔ ∃ t ∈ ts, z ∈ t.items := by
  obtain ⟨r, e, s, hm⟩ := (setsOver hc h).union hne
  exact ⟨_, e, ⟨r, by simp [Terms.ofList, setInsertAll_self s]⟩, hm⟩

/-- The intersection, under the same condition. -/
theorem C11_intersection_partial {ts : List Terms} (hne : ts ≠ []) (hc : ∀ t ∈ ts, CommTerms t)
    (h : Told fun z => ∃ t ∈ ts, z ∈ t.items) :
    ∃ r, Terms.intersection ts = .ok r ∧ CommTerms r ∧ ∀ z, z ∈ r.items ↔ ∀ t ∈ ts, z ∈ t.items := by
  obtain ⟨r, e, s, hm⟩ := (setsOver hc h).intersection hne
  exact ⟨_, e, ⟨r, by simp [Terms.ofList, setInsertAll_self s]⟩, hm⟩

/-- The difference, under the same condition. -/
theorem C11_difference_partial {t : Terms} {ts : List Terms} (hc : ∀ u ∈ t :: ts, CommTerms u)
    (h : Told fun z => ∃ u ∈ t :: ts, z ∈ u.items) :
    ∃ r, Terms.difference (t :: ts) = .ok r ∧ CommTerms r ∧
      ∀ z, z ∈ r.items ↔ z ∈ t.items ∧ ∀ u ∈ ts, z ∉ u.items := by
  obtain ⟨r, e, s, hm⟩ := (setsOver hc h).difference
  exact ⟨_, e, ⟨r, by simp [Terms.ofList, setInsertAll_self s]⟩, hm⟩

example : ∃ r, Terms.difference [⟨true, [sA]⟩, ⟨true, [sB]⟩, ⟨true, [sC]⟩] = .ok r ∧ sA ∈ r.items := by
  have hc : ∀ u ∈ [(⟨true, [sA]⟩ : Terms), ⟨true, [sB]⟩, ⟨true, [sC]⟩], CommTerms u := by
    intro u hu
    simp only [List.mem_cons, List.not_mem_nil, or_false] at hu
    rcases hu with rfl | rfl | rfl
    exacts [⟨[sA], rfl⟩, ⟨[sB], rfl⟩, ⟨[sC], rfl⟩]
  have ht : Told fun z => ∃ u ∈ [(⟨true, [sA]⟩ : Terms), ⟨true, [sB]⟩, ⟨true, [sC]⟩], z ∈ u.items := by
    have e : ∀ z, (∃ u ∈ [(⟨true, [sA]⟩ : Terms), ⟨true, [sB]⟩, ⟨true, [sC]⟩], z ∈ u.items) →
        z ∈ [sC, sA, sB, sA] := by
      intro z hz; simp at hz ⊢; tauto
    exact ⟨fun a ha => sABC_told.1 a (e a ha), fun a b ha hb => sABC_told.2 a b (e a ha) (e b hb)⟩
  obtain ⟨r, er, _, hm⟩ := C11_difference_partial hc ht
  refine ⟨r, er, (hm _).2 ⟨by simp, ?_⟩⟩
  intro u hu
  simp only [List.mem_cons, List.not_mem_nil, or_false] at hu
  have h1 : sA ≠ sB := fun e => absurd (congrArg Term.hash e) (by decide +kernel)
  have h2 : sA ≠ sC := fun e => absurd (congrArg Term.hash e) (by decide +kernel)
  rcases hu with rfl | rfl <;> simp [h1, h2]

/-- C11, the full statement fails: a constant at the address `0x405000` has the hash of the interval
`+4214847` (C02).  The union of the two singletons has only one of them, their intersection is not
empty, and their difference is. -/
theorem C11_collision_counterexample :
    mkAtom 0x405000#64 ≠ mkInterval 4214847 ∧
    CommTerms ⟨true, [mkAtom 0x405000#64]⟩ ∧ CommTerms ⟨true, [mkInterval 4214847]⟩ ∧
    Terms.union [⟨true, [mkAtom 0x405000#64]⟩, ⟨true, [mkInterval 4214847]⟩] =
      .ok ⟨true, [mkAtom 0x405000#64]⟩ ∧
    Terms.intersection [⟨true, [mkAtom 0x405000#64]⟩, ⟨true, [mkInterval 4214847]⟩] =
      .ok ⟨true, [mkAtom 0x405000#64]⟩ ∧
    Terms.difference [⟨true, [mkAtom 0x405000#64]⟩, ⟨true, [mkInterval 4214847]⟩] = .ok ⟨true, []⟩ := by
  have h1 : lt (mkAtom 0x405000#64) (mkInterval 4214847) = .ok false := by rfl
  have h2 : lt (mkInterval 4214847) (mkAtom 0x405000#64) = .ok false := by rfl
  refine ⟨nofun, ⟨[_], rfl⟩, ⟨[_], rfl⟩, ?_, ?_, ?_⟩
  · simp [Terms.union, Terms.setOp, Terms.foldOp, Terms.unordered, Terms.mergeUnion, h1, h2, Terms.ofList,
      setInsertAll, setInsert]
  · simp [Terms.intersection, Terms.setOp, Terms.foldOp, Terms.unordered, Terms.mergeInter, h1, h2, Terms.ofList,
      setInsertAll, setInsert]
  · simp [Terms.difference, Terms.setOp, Terms.foldOp, Terms.unordered, Terms.mergeDiff, h1, h2, Terms.ofList,
      setInsertAll]

/-! ## C12 -/

/-- The three operations. -/
inductive SetOpName where
  | union | intersection | difference

def SetOpName.run : SetOpName → List Terms → Res Terms
  | .union => Terms.union
  | .intersection => Terms.intersection
  | .difference => Terms.difference

theorem foldOp_reject {op : List Term → List Term → Res (List Term)} {acc : List Term}
    {ts : List Terms} {t : Terms} (ht : t ∈ ts) (hc : t.comm = false) (r : List Term) :
    Terms.foldOp op acc ts ≠ .ok r := by
  induction ts generalizing acc with
  | nil => simp at ht
  | cons u ts ih =>
    intro h
    simp only [Terms.foldOp] at h
    split at h
    · cases h
    · next hu =>
      simp only [Res.bind_eq_ok] at h
      obtain ⟨_, _, tmp, _, h⟩ := h
      rcases List.mem_cons.1 ht with rfl | ht
      · simp [hc] at hu
      · exact ih ht h

/-- No operands: an error.  A non-commutative operand anywhere but in first place: no result, and,
when the comparator orders the elements of the operands, an error is raised.  Missing: the first
operand. -/
theorem C12_rejects_partial (op : SetOpName) :
    op.run [] = .throw "Empty input." ∧
    ∀ (t : Terms) (ts : List Terms), (∃ u ∈ ts, u.comm = false) →
      (∀ r, op.run (t :: ts) ≠ .ok r) ∧
      ((∀ u ∈ t :: ts, u.comm = true → CommTerms u) →
        Told (fun z => ∃ u ∈ t :: ts, z ∈ u.items) →
        op.run (t :: ts) = .throw "Each `Terms` should be commutative.") := by
  refine ⟨by cases op <;> rfl, ?_⟩
  intro t ts ⟨u, hu, huc⟩
  constructor
  · intro r h
    have : ∀ o, Terms.setOp o (t :: ts) ≠ .ok r := by
      intro o h
      simp only [Terms.setOp, Res.bind_eq_ok] at h
      obtain ⟨r', h1, _⟩ := h
      exact foldOp_reject hu huc r' h1
    cases op <;> exact this _ h
  · intro hct htold
    have hS := htold.orderly
    have gen : ∀ (o : List Term → List Term → Res (List Term)),
        (∀ xs ys, (∀ z ∈ xs, ∃ u ∈ t :: ts, z ∈ u.items) → (∀ z ∈ ys, ∃ u ∈ t :: ts, z ∈ u.items) →
          SortedTs xs → SortedTs ys → ∃ r, o xs ys = .ok r ∧ ∀ z ∈ r, z ∈ xs ∨ z ∈ ys) →
        ∀ (us : List Terms) (acc : List Term), (∀ v ∈ us, v ∈ ts) → (∃ v ∈ us, v.comm = false) →
          (∀ z ∈ acc, ∃ u ∈ t :: ts, z ∈ u.items) → SortedTs acc →
          Terms.foldOp o acc us = .throw "Each `Terms` should be commutative." := by
      intro o ho us
      induction us with
      | nil => intro acc _ ⟨v, hv, _⟩; simp at hv
      | cons w us ih =>
        intro acc hus hex hacc hsacc
        cases hw : w.comm with
        | false => simp [Terms.foldOp, hw]
        | true =>
          have hwt : w ∈ t :: ts := List.mem_cons_of_mem _ (hus w (by simp))
          have hws := (hct w hwt hw).sorted.2
          obtain ⟨r, er, hr⟩ := ho acc w.items hacc (fun z hz => ⟨w, hwt, hz⟩) hsacc hws
          have hrS : ∀ z ∈ r, ∃ u ∈ t :: ts, z ∈ u.items := fun z hz =>
            (hr z hz).elim (hacc z) (fun h => ⟨w, hwt, h⟩)
          obtain ⟨tmp, et, st, hm⟩ := hS.setInsertAll (xs := r) (s := []) hrS (by simp) (by simp [SortedTs])
          have := ih tmp (fun v hv => hus v (by simp [hv])) (by
            obtain ⟨v, hv, hvc⟩ := hex
            rcases List.mem_cons.1 hv with rfl | hv
            · rw [hw] at hvc; cases hvc
            · exact ⟨v, hv, hvc⟩) (fun z hz => hrS z (by simpa using (hm z).1 hz)) st
          simp [Terms.foldOp, hw, er, et, this]
    have fin : ∀ (o : List Term → List Term → Res (List Term)),
        (∀ xs ys, (∀ z ∈ xs, ∃ u ∈ t :: ts, z ∈ u.items) → (∀ z ∈ ys, ∃ u ∈ t :: ts, z ∈ u.items) →
          SortedTs xs → SortedTs ys → ∃ r, o xs ys = .ok r ∧ ∀ z ∈ r, z ∈ xs ∨ z ∈ ys) →
        Terms.setOp o (t :: ts) = .throw "Each `Terms` should be commutative." := by
      intro o ho
      have hun : (∀ z ∈ t.unordered, ∃ u ∈ t :: ts, z ∈ u.items) ∧ SortedTs t.unordered := by
        cases htc : t.comm with
        | false => simp [Terms.unordered, htc, SortedTs]
        | true =>
          simp only [Terms.unordered, htc, if_true]
          exact ⟨fun z hz => ⟨t, by simp, hz⟩, (hct t (by simp) htc).sorted.2⟩
      simp [Terms.setOp, gen o ho ts t.unordered (fun v hv => hv) ⟨u, hu, huc⟩ hun.1 hun.2]
    cases op
    · exact fin _ fun xs ys hx hy sx sy => by
        obtain ⟨r, e, hm⟩ := hS.mergeUnion hx hy sx sy
        exact ⟨r, e, fun z hz => (hm z).1 hz⟩
    · exact fin _ fun xs ys hx hy sx sy => by
        obtain ⟨r, e, hm⟩ := hS.mergeInter hx hy sx sy
        exact ⟨r, e, fun z hz => .inl ((hm z).1 hz).1⟩
    · exact fin _ fun xs ys hx hy sx sy => by
        obtain ⟨r, e, hm⟩ := hS.mergeDiff hx hy sx sy
        exact ⟨r, e, fun z hz => .inl ((hm z).1 hz).1⟩

example : Terms.union [⟨true, []⟩, ⟨false, [sA]⟩] = .throw "Each `Terms` should be commutative." := by
  refine ((C12_rejects_partial .union).2 _ _ ⟨⟨false, [sA]⟩, by simp, rfl⟩).2 ?_ ?_
  · intro u hu hc
    simp only [List.mem_cons, List.not_mem_nil, or_false] at hu
    rcases hu with rfl | rfl
    · exact ⟨[], rfl⟩
    · cases hc
  · refine told_of_hash ?_ ?_
    · intro a ha; simp at ha; rw [ha]; exact sA_c
    · intro a b ha hb _; simp at ha hb; rw [ha, hb]

/-- A non-commutative *first* operand is not rejected; it is taken for the empty set, whatever its
elements. -/
theorem C12_first_operand_counterexample (xs : List Term) :
    Terms.union [⟨false, xs⟩] = .ok ⟨true, []⟩ ∧
    Terms.union [⟨false, xs⟩, ⟨true, [sA]⟩] = .ok ⟨true, [sA]⟩ := by
  constructor
  · rfl
  · simp [Terms.union, Terms.setOp, Terms.unordered, Terms.foldOp, Terms.mergeUnion, setInsertAll,
      setInsert, Terms.ofList]

end Cnars.Props
