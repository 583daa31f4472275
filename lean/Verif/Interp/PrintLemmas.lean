import Verif.Interp.Tree
import Verif.Narsese.Shape

/-!
# When printing is defined, and what it prints
-/

namespace Cnars
open Term

namespace Print

/-- An operation, or a statement whose predicate is operational: what makes `is_operation` true. -/
def operational : Term → Bool
  | .atom _ i => i.isOperation
  | .stmt _ _ p _ => operational p
  | _ => false

theorem mkStmt_isOperation (s : Term) (c : Copula) (p : Term) :
    (mkStmt s c p).info.isOperation = p.info.isOperation := by
  show stmtIsOperation s p = _
  unfold stmtIsOperation
  cases p.info.isOperation <;> simp

theorem Good.operational {t : Term} (h : Good t) : t.info.isOperation = operational t := by
  induction h with
  | stmt c hs hp _ ihp => rw [mkStmt_isOperation, ihp]; simp [Print.operational, mkStmt]
  | _ => rfl

/-- Printing is defined: compounds have components, and a statement with an operational predicate
has a compound as its subject. -/
inductive Printable : Term → Prop
  | atom (a : Word) (i : Info) : Printable (.atom a i)
  | interval (n : Int) (i : Info) : Printable (.interval n i)
  | var (k : VarKind) (n : String) (i : Info) : Printable (.var k n i)
  | stmt {s p : Term} (c : Copula) (i : Info) : operational p = false → Printable s → Printable p →
      Printable (.stmt s c p i)
  | opStmt {ts : List Term} {p : Term} (d : Connector) (c : Copula) (i j : Info) :
      operational p = true → (∀ t ∈ ts, Printable t) → Printable p →
      Printable (.stmt (.comp d ts j) c p i)
  | comp {ts : List Term} (c : Connector) (i : Info) : ts ≠ [] → (∀ t ∈ ts, Printable t) →
      Printable (.comp c ts i)

mutual
/-- The statements and compounds in a term, itself included. -/
def complexes : Term → List Term
  | .atom .. => []
  | .interval .. => []
  | .var .. => []
  | .stmt s c p i => .stmt s c p i :: (complexes s ++ complexes p)
  | .comp c ts i => .comp c ts i :: complexesAll ts
def complexesAll : List Term → List Term
  | [] => []
  | t :: ts => complexes t ++ complexesAll ts
end

mutual
/-- The constants and operations in a term. -/
def atoms : Term → List Term
  | .atom a i => [.atom a i]
  | .interval .. => []
  | .var .. => []
  | .stmt s _ p _ => atoms s ++ atoms p
  | .comp _ ts _ => atomsAll ts
def atomsAll : List Term → List Term
  | [] => []
  | t :: ts => atoms t ++ atomsAll ts
end

theorem mem_atomsAll {ts : List Term} {u : Term} : u ∈ atomsAll ts ↔ ∃ t ∈ ts, u ∈ atoms t := by
  induction ts with
  | nil => simp [atomsAll]
  | cons t ts ih => simp [atomsAll, ih]

theorem mem_complexesAll {ts : List Term} {u : Term} :
    u ∈ complexesAll ts ↔ ∃ t ∈ ts, u ∈ complexes t := by
  induction ts with
  | nil => simp [complexesAll]
  | cons t ts ih => simp [complexesAll, ih]

mutual
/-- The copulas in a term. -/
def copulas : Term → List Copula
  | .stmt s c p _ => c :: (copulas s ++ copulas p)
  | .comp _ ts _ => copulasAll ts
  | _ => []
def copulasAll : List Term → List Copula
  | [] => []
  | t :: ts => copulas t ++ copulasAll ts
end

theorem mem_copulasAll {ts : List Term} {c : Copula} : c ∈ copulasAll ts ↔ ∃ t ∈ ts, c ∈ copulas t := by
  induction ts with
  | nil => simp [copulasAll]
  | cons t ts ih => simp [copulasAll, ih]

/-- The dictionary has no entry under the keys of statements and compounds of `t`. -/
def NoClash (d : Map Key String) (t : Term) : Prop := ∀ u ∈ complexes t, d (keyOf u.hash) = none

theorem Good.varText (k : VarKind) (n : String) (idx : Int) :
    Print.varText k (mkVar k n idx).info = .ok (k.symbol.toList ++ decimal idx) := by
  cases k <;> rfl

theorem terms_cons2 (d : Map Key String) (b : Bool) (t u : Term) (us : List Term) :
    terms d b (t :: u :: us) = (do
      let str ← term d b t
      let sep ← paint b .separator [',', ' ']
      let rest ← terms d b (u :: us)
      return str ++ sep ++ rest) := by
  rw [terms]; simp

theorem terms_ok {d : Map Key String} {ts : List Term}
    (h : ∀ t ∈ ts, ∃ s, term d false t = .ok s) : ∃ s, terms d false ts = .ok s := by
  induction ts with
  | nil => exact ⟨[], by rw [terms]⟩
  | cons t ts ih =>
    obtain ⟨s, hs⟩ := h t (by simp)
    cases ts with
    | nil => exact ⟨s, by rw [terms]; exact hs⟩
    | cons u us =>
      obtain ⟨r, hr⟩ := ih fun t ht => h t (by simp [ht])
      exact ⟨_, by rw [terms_cons2, hs, hr]; rfl⟩

theorem terms_ok_inv {d : Map Key String} {b : Bool} {ts : List Term} {s : Str} (h : terms d b ts = .ok s) :
    ∀ t ∈ ts, ∃ s, term d b t = .ok s := by
  induction ts generalizing s with
  | nil => simp
  | cons t ts ih =>
    cases ts with
    | nil => intro u hu; simp at hu; subst hu; rw [terms] at h; exact ⟨s, h⟩
    | cons u us =>
      rw [terms_cons2] at h
      simp only [Res.bind_eq_ok] at h
      obtain ⟨x, hx, y, hy, z, hz, _⟩ := h
      intro v hv
      rw [List.mem_cons] at hv
      rcases hv with rfl | hv
      · exact ⟨x, hx⟩
      · exact ih hz v hv

theorem named_plain_ok {d : Map Key String} {t : Term} {r : Res Str} (h : named d false t = some r) :
    ∃ s, r = .ok s := by
  unfold named at h
  split at h
  · cases h
  · cases h
    split
    · exact ⟨_, rfl⟩
    · exact ⟨_, rfl⟩

/-- Plain printing of a printable term. -/
theorem Printable.ok {t : Term} (h : Printable t) (hg : Good t) (d : Map Key String) :
    ∃ s, term d false t = .ok s := by
  induction h with
  | atom a i =>
    rw [term]
    split
    · next r hr => exact named_plain_ok hr
    · split <;> exact ⟨_, rfl⟩
  | interval n i => exact ⟨_, by rw [term]; rfl⟩
  | var k n i =>
    obtain ⟨x, hx⟩ : ∃ x, varText k i = .ok x := by
      cases hg with
      | var k n idx => exact ⟨_, Good.varText k n idx⟩
    exact ⟨x, by rw [term, hx]; rfl⟩
  | @stmt s p c i hop _ _ ihs ihp =>
    obtain ⟨hs, hp, hi⟩ : Good s ∧ Good p ∧ i.isOperation = operational p := by
      have e := Good.operational hg
      cases hg with
      | stmt c h1 h2 => exact ⟨h1, h2, e⟩
    rw [term]
    split
    · next r hr => exact named_plain_ok hr
    · rw [hi, hop]
      obtain ⟨x, hx⟩ := ihs hs
      obtain ⟨y, hy⟩ := ihp hp
      exact ⟨_, by rw [hx, hy]; rfl⟩
  | @opStmt ts p e c i j hop _ _ ihs ihp =>
    obtain ⟨hs, hp, hi⟩ : (∀ t ∈ ts, Good t) ∧ Good p ∧ i.isOperation = operational p := by
      have e := Good.operational hg
      cases hg with
      | stmt c h1 h2 =>
        refine ⟨?_, h2, e⟩
        cases h1 with
        | comp _ h _ => exact h
    rw [term]
    split
    · next r hr => exact named_plain_ok hr
    · rw [hi, hop, subjectArgs]
      obtain ⟨x, hx⟩ := ihp hp
      obtain ⟨y, hy⟩ := terms_ok fun t ht => ihs t ht (hs t ht)
      exact ⟨_, by rw [hx, hy]; rfl⟩
  | @comp ts c i hne _ ih =>
    have hts : ∀ t ∈ ts, Good t := by
      cases hg with
      | comp _ h _ => exact h
    rw [term]
    split
    · next r hr => exact named_plain_ok hr
    · obtain ⟨y, hy⟩ := terms_ok fun t ht => ih t ht (hts t ht)
      rw [if_neg (by simpa using hne), hy]
      split
      · exact ⟨_, rfl⟩
      · split <;> exact ⟨_, rfl⟩

theorem NoClash.stmt {d : Map Key String} {s p : Term} {c : Copula} {i : Info}
    (h : NoClash d (.stmt s c p i)) :
    d (keyOf (Term.stmt s c p i).hash) = none ∧ NoClash d s ∧ NoClash d p := by
  refine ⟨h _ (by simp [complexes]), fun u hu => h u ?_, fun u hu => h u ?_⟩ <;> simp [complexes, hu]

theorem NoClash.comp {d : Map Key String} {ts : List Term} {c : Connector} {i : Info}
    (h : NoClash d (.comp c ts i)) :
    d (keyOf (Term.comp c ts i).hash) = none ∧ ∀ t ∈ ts, NoClash d t := by
  refine ⟨h _ (by simp [complexes]), fun t ht u hu => h u ?_⟩
  simp only [complexes, List.mem_cons, mem_complexesAll]
  exact .inr ⟨t, ht, hu⟩

theorem named_none {d : Map Key String} {b : Bool} {t : Term} (h : d (keyOf t.hash) = none) :
    named d b t = none := by simp [named, h]

theorem term_stmt {d : Map Key String} {b : Bool} {s p : Term} {c : Copula} {i : Info}
    (h : d (keyOf (Term.stmt s c p i).hash) = none) :
    term d b (.stmt s c p i) = if i.isOperation then do
        let op ← term d b p
        let l ← paint b .parenthesis ['(']
        let sep ← paint b .separator [',', ' ']
        let args ← subjectArgs d b s
        let r ← paint b .parenthesis [')']
        return l ++ op ++ sep ++ args ++ r
      else do
        let str1 ← term d b s
        let str2 ← term d b p
        let l ← paint b .angle ['<']
        let cop ← paint b .copula c.symbol.toList
        let r ← paint b .angle ['>']
        return l ++ wrapped b str1 ++ [' '] ++ cop ++ [' '] ++ wrapped b str2 ++ r := by
  rw [term, named_none h]

theorem term_comp {d : Map Key String} {b : Bool} {ts : List Term} {c : Connector} {i : Info}
    (h : d (keyOf (Term.comp c ts i).hash) = none) :
    term d b (.comp c ts i) = if ts.isEmpty then .ub
      else if c = .extensionalSet then do
        let l ← brace b '{'
        let args ← terms d b ts
        let r ← brace b '}'
        return l ++ args ++ r
      else if c = .intensionalSet then do
        let l ← paint b .parenthesis ['[']
        let args ← terms d b ts
        let r ← paint b .parenthesis [']']
        return l ++ args ++ r
      else do
        let l ← paint b .parenthesis ['(']
        let conn ← paint b .connector c.symbol.toList
        let sep ← paint b .separator [',', ' ']
        let args ← terms d b ts
        let r ← paint b .parenthesis [')']
        return l ++ conn ++ sep ++ args ++ r := by
  rw [term, named_none h]

/-- Without clashes, what prints is printable. -/
theorem Printable.of_ok' {t : Term} (hg : Good t) {d : Map Key String} {b : Bool} (hc : NoClash d t) :
    ((∃ s, term d b t = .ok s) → Printable t) ∧
    ∀ u ∈ t.comps, (∃ s, term d b u = .ok s) → Printable u := by
  induction hg with
  | atom a => exact ⟨fun _ => .atom _ _, by simp [mkAtom, comps]⟩
  | operation a => exact ⟨fun _ => .atom _ _, by simp [mkOperation, comps]⟩
  | interval n => exact ⟨fun _ => .interval _ _, by simp [mkInterval, comps]⟩
  | var k n i => exact ⟨fun _ => .var _ _ _, by simp [mkVar, comps]⟩
  | @stmt s' p c hs hp ihs ihp =>
    refine ⟨?_, by simp [mkStmt, comps]⟩
    rintro ⟨s, h⟩
    obtain ⟨h1, h2, h3⟩ := NoClash.stmt hc
    have hi : (mkStmt s' c p).info.isOperation = operational p := by
      rw [mkStmt_isOperation, Good.operational hp]
    have key : ∀ i : Info, i.isOperation = operational p →
        d (keyOf (Term.stmt s' c p i).hash) = none → term d b (.stmt s' c p i) = .ok s →
        Printable (.stmt s' c p i) := by
      intro i hi h1 h
      rw [term_stmt h1] at h
      cases ho : operational p with
      | false =>
        rw [hi, ho] at h
        simp only [Bool.false_eq_true, if_false, Res.bind_eq_ok] at h
        obtain ⟨x, hx, y, hy, _⟩ := h
        exact .stmt _ _ ho ((ihs h2).1 ⟨x, hx⟩) ((ihp h3).1 ⟨y, hy⟩)
      | true =>
        rw [hi, ho] at h
        simp only [if_true, Res.bind_eq_ok] at h
        obtain ⟨x, hx, y, hy, z, hz, w, hw, _⟩ := h
        cases s' with
        | comp e ts j =>
          rw [subjectArgs] at hw
          refine .opStmt _ _ _ _ ho ?_ ((ihp h3).1 ⟨x, hx⟩)
          intro t ht
          exact (ihs h2).2 t ht (terms_ok_inv hw t ht)
        | _ => simp [subjectArgs] at hw
    exact key _ hi h1 h
  | @comp ts c hts hs ih =>
    obtain ⟨h1, h2⟩ := NoClash.comp hc
    refine ⟨?_, fun u hu => (ih u hu (h2 u hu)).1⟩
    rintro ⟨s, h⟩
    have key : ∀ i : Info, d (keyOf (Term.comp c ts i).hash) = none →
        term d b (.comp c ts i) = .ok s → Printable (.comp c ts i) := by
      intro i h1 h
      rw [term_comp h1] at h
      split at h
      · cases h
      · next hne =>
        refine .comp _ _ (by simpa using hne) ?_
        have : ∃ y, terms d b ts = .ok y := by
          split at h
          · simp only [Res.bind_eq_ok] at h; obtain ⟨_, _, y, hy, _⟩ := h; exact ⟨y, hy⟩
          · split at h
            · simp only [Res.bind_eq_ok] at h; obtain ⟨_, _, y, hy, _⟩ := h; exact ⟨y, hy⟩
            · simp only [Res.bind_eq_ok] at h; obtain ⟨_, _, _, _, _, _, y, hy, _⟩ := h; exact ⟨y, hy⟩
        obtain ⟨y, hy⟩ := this
        intro t ht
        exact (ih t ht (h2 t ht)).1 (terms_ok_inv hy t ht)
    exact key _ h1 h

end Print
end Cnars
