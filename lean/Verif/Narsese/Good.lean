import Verif.Narsese.Closure

/-!
Terms that the constructors can produce, and the invariant they satisfy.
-/

namespace Cnars
open Term

/-- Terms built by any history of constructor calls, with any enumeration order of the hash table
of argument groups in every call. -/
inductive Constructed : Term → Prop
  | atom (addr : Word) : Constructed (mkAtom addr)
  | operation (addr : Word) : Constructed (mkOperation addr)
  | interval (n : Int) : Constructed (mkInterval n)
  | var (k : VarKind) (name : String) (idx : Int) : Constructed (mkVar k name idx)
  | stmt {s p r : Term} (c : Copula) (isInput : Bool) : Constructed s → Constructed p →
      newStmt s c p isInput = .ok r → Constructed r
  | comp {ord : List (Option Connector) → List (Option Connector)} {args : List Term} {r : Term}
      (c : Connector) (isInput : Bool) : (∀ l, (ord l).Perm l) → (∀ t ∈ args, Constructed t) →
      mkComp ord c args isInput = .ok r → Constructed r
  | clone {t r : Term} : Constructed t → clone t = .ok r → Constructed r

/-- The invariant: all caches are those the constructors compute from the components, and the
components of commutative compounds are strictly ascending. -/
inductive Good : Term → Prop
  | atom (addr : Word) : Good (mkAtom addr)
  | operation (addr : Word) : Good (mkOperation addr)
  | interval (n : Int) : Good (mkInterval n)
  | var (k : VarKind) (name : String) (idx : Int) : Good (mkVar k name idx)
  | stmt {s p : Term} (c : Copula) : Good s → Good p → Good (mkStmt s c p)
  | comp {ts : List Term} (c : Connector) : (∀ t ∈ ts, Good t) →
      (c.isCommutative = true → SortedTs ts) → Good (finishComp c ts)

theorem Good.downClosed : DownClosed Good := by
  intro t h u hu
  cases h with
  | comp c hts _ => exact hts u hu
  | _ => simp [comps, mkAtom, mkOperation, mkInterval, mkVar, mkStmt] at hu

theorem clonePush_self {comm : Bool} {ts acc : List Term} (h : ∀ t ∈ ts, clone t = .ok t)
    (hs : comm = true → SortedTs (acc ++ ts)) : clonePush comm ts acc = .ok (acc ++ ts) := by
  induction ts generalizing acc with
  | nil => simp [clonePush]
  | cons t ts ih =>
    have ht := h t (by simp)
    have hts : ∀ u ∈ ts, clone u = .ok u := fun u hu => h u (by simp [hu])
    cases comm with
    | false =>
      have := ih (acc := acc ++ [t]) hts (by simp)
      simp [clonePush, ht, this]
    | true =>
      have hs' := hs rfl
      have hx : ∀ y ∈ acc, Above y t := fun y hy =>
        (List.pairwise_append.1 hs').2.2 y hy t (by simp)
      have := ih (acc := acc ++ [t]) hts (fun _ => by simpa [SortedTs] using hs')
      simp [clonePush, ht, setInsert_last hx, this]

/-- Cloning a constructed term succeeds and yields an equal value. -/
theorem Good.clone {t : Term} (h : Good t) : clone t = .ok t := by
  induction h with
  | atom => simp [Cnars.clone, mkAtom, leafInfo]
  | operation => simp [Cnars.clone, mkOperation, leafInfo]
  | interval => simp [Cnars.clone, mkInterval, leafInfo]
  | var => simp [Cnars.clone, mkVar]
  | stmt c hs hp ihs ihp =>
    simp only [mkStmt, Cnars.clone]
    split
    · simp [ihs, ihp, structInfo]
    · rfl
  | comp c hts hsort ih =>
    simp only [finishComp, Cnars.clone]
    split
    · rw [clonePush_self ih (by simpa using hsort)]
      simp [structInfo]
    · rfl

theorem Good.newStmt {s p r : Term} {c : Copula} {b : Bool} (hs : Good s) (hp : Good p)
    (h : newStmt s c p b = .ok r) : r = mkStmt s c p := by
  cases b with
  | true => simp [Cnars.newStmt] at h; exact h.symm
  | false => simp [Cnars.newStmt, hs.clone, hp.clone] at h; exact h.symm

/-- On good arguments the constructor of compounds amounts to `prepocess_terms` and the tail. -/
theorem mkCompF_inv {ord : List (Option Connector) → List (Option Connector)} {n : Nat}
    {c : Connector} {terms : List Term} {b : Bool} {r : Term} (ht : ∀ t ∈ terms, Good t)
    (h : mkCompF ord n c terms b = .ok r) :
    ∃ m c' us, n = m + 1 ∧
      prepocess ord (fun c us => mkCompF ord m c us false) c terms = .ok (c', us) ∧
      (∀ u ∈ us, Good u) ∧ (c.isCommutative = true → SortedTs us ∧ c'.isCommutative = true) ∧
      (c.isCommutative = false → c' = c) ∧ r = finishComp c' us := by
  induction n generalizing c terms b r with
  | zero => simp [mkCompF] at h
  | succ n ih =>
    simp only [mkCompF, Res.bind_eq_ok, Prod.exists] at h
    obtain ⟨c', us, h1, vs, h2, h3⟩ := h
    obtain ⟨hg, hc, hnc⟩ := prepocess_closed (P := Good) Good.downClosed (by
      intro c vs t hvs hmk
      obtain ⟨m, c'', us, _, _, hg, hc, hnc, rfl⟩ := ih hvs hmk
      refine Good.comp c'' hg ?_
      intro hcc
      cases hb : c.isCommutative with
      | true => exact (hc hb).1
      | false => rw [hnc hb, hb] at hcc; cases hcc) ht h1
    refine ⟨n, c', us, rfl, h1, hg, hc, hnc, ?_⟩
    have : vs = us := by
      cases b with
      | true => simp at h2; exact h2.symm
      | false =>
        simp only [Bool.false_eq_true, if_false] at h2
        rw [clonePush_self (fun t ht' => (hg t ht').clone) (by
          intro hcc
          cases hb : c.isCommutative with
          | true => exact (hc hb).1
          | false => rw [hnc hb, hb] at hcc; cases hcc)] at h2
        simpa using h2.symm
    subst this
    simp at h3; exact h3.symm

theorem mkCompF_good {ord : List (Option Connector) → List (Option Connector)} {n : Nat}
    {c : Connector} {terms : List Term} {b : Bool} {r : Term} (ht : ∀ t ∈ terms, Good t)
    (h : mkCompF ord n c terms b = .ok r) : Good r := by
  obtain ⟨m, c'', us, _, _, hg, hc, hnc, rfl⟩ := mkCompF_inv ht h
  refine Good.comp c'' hg ?_
  intro hcc
  cases hb : c.isCommutative with
  | true => exact (hc hb).1
  | false => rw [hnc hb, hb] at hcc; cases hcc

theorem ofList_mem {comm : Bool} {xs : List Term} {r : Terms} (h : Terms.ofList comm xs = .ok r) :
    r.comm = comm ∧ (∀ z ∈ r.items, z ∈ xs) ∧ (comm = true → SortedTs r.items) ∧
    (comm = false → r.items = xs) := by
  cases comm with
  | true =>
    simp only [Terms.ofList, if_true, Res.bind_eq_ok, Res.pure_eq, Res.ok.injEq] at h
    obtain ⟨s, h, rfl⟩ := h
    refine ⟨rfl, ?_, fun _ => setInsertAll_sorted h (by simp [SortedTs]), by simp⟩
    intro z hz
    rcases (setInsertAll_mem h).1 z hz with hz | hz
    · exact hz
    · simp at hz
  | false =>
    simp [Terms.ofList] at h; subst h; simp

theorem mkComp_inv {ord : List (Option Connector) → List (Option Connector)}
    {c : Connector} {args : List Term} {b : Bool} {r : Term}
    (h : mkComp ord c args b = .ok r) : ∃ ts, Terms.ofList c.isCommutative args = .ok ⟨c.isCommutative, ts⟩ ∧
      (∀ t ∈ ts, t ∈ args) ∧ mkCompF ord (heights args + 1) c ts b = .ok r := by
  simp only [mkComp, Res.bind_eq_ok] at h
  obtain ⟨ts, h1, h2⟩ := h
  obtain ⟨hc, hm, _⟩ := ofList_mem h1
  refine ⟨ts.items, ?_, hm, h2⟩
  rw [h1, ← hc]

theorem Constructed.good {t : Term} (h : Constructed t) : Good t := by
  induction h with
  | atom a => exact .atom a
  | operation a => exact .operation a
  | interval n => exact .interval n
  | var k n i => exact .var k n i
  | stmt c b _ _ h ihs ihp => rw [Good.newStmt ihs ihp h]; exact .stmt c ihs ihp
  | comp c b _ _ h ih =>
    obtain ⟨ts, _, hm, h2⟩ := mkComp_inv h
    exact mkCompF_good (fun t ht => ih t (hm t ht)) h2
  | clone _ h ih => rw [ih.clone] at h; cases h; exact ih

end Cnars
