import Verif.Parser.Main

/-!
# The member `error_delay`

`Parser::Parser` (Parser.cpp:6-10) does not set it, `parse` reads it (narsese.cpp:816) and counts it down at every shift
(narsese.cpp:935-936), and it keeps its value from one call to the next.
-/

namespace Cnars.Parser
open Cnars

/-- The main loop (narsese.cpp:699-938), with what is left in `error_delay`; it is the loop of `run`. -/
def runD (T : Tables) (strict : Bool) : Nat → St → Res (Parsed × Nat)
  | 0, _ => .outOfFuel
  | fuel + 1, s => do
    let o ← step T strict s
    match o with
    | .go s' => runD T strict fuel s'
    | .accept ast scan => .ok (⟨some ast, 0, scan⟩, s.errorDelay)
    | .reject len scan => .ok (⟨none, len, scan⟩, s.errorDelay)

/-- `parse` (narsese.cpp:673-960), with what is left in `error_delay`.  Simplified: the member is an `int`; negative values
are in `IntDelay.lean`. -/
def parseD (T : Tables) (strict : Bool) (fuel : Nat) (scan : Scan) (d : Nat) : Res (Parsed × Nat) := do
  let (r, d') ← runD T strict fuel (initSt scan d)
  let scan ← clearInput strict r.len r.scan
  .ok ({ r with scan := scan }, d')

/-- A new parser reads lines one after the other, without semantic actions (Parser.cpp:28-37): the syntax trees, `none` for a
line that is rejected.  `b` is the input buffer and `d` the member `error_delay`; a bound on the rounds is given with each
line. -/
def syntaxTrees (strict : Bool) : Buf → Nat → List (List WChar × Nat) → Res (List (Option (List Ast)))
  | _, _, [] => .ok []
  | b, d, (text, fuel) :: rest => do
    let (r, d') ← parseD narsese strict fuel ⟨b, fill text, false⟩ d
    let as ← syntaxTrees strict r.scan.buf d' rest
    .ok (r.ast :: as)

theorem run_runD (T : Tables) (strict : Bool) : ∀ (fuel : Nat) (s : St),
    run T strict fuel s = (runD T strict fuel s >>= fun x => .ok x.1)
  | 0, s => rfl
  | fuel + 1, s => by
    rw [run, runD, Res.bind_assoc]
    congr 1
    funext o
    cases o with
    | go s' => exact run_runD T strict fuel s'
    | accept ast scan => rfl
    | reject len scan => rfl

/-- It is the same function. -/
theorem parse_parseD (T : Tables) (strict : Bool) (fuel : Nat) (scan : Scan) (d : Nat) :
    parse T strict fuel scan d = (parseD T strict fuel scan d >>= fun x => .ok x.1) := by
  rw [parse, parseD, run_runD, Res.bind_assoc, Res.bind_assoc]
  congr 1
  funext x
  rw [Res.ok_bind, Res.bind_assoc]
  rfl

/-- Results of a step from two states that differ in `error_delay`, `x` and `y` before the step. -/
def OutLike (x y : Nat) : Out → Out → Prop
  | .go s, .go s' => { s with errorDelay := 0 } = { s' with errorDelay := 0 } ∧
      (s.errorDelay = x ∧ s'.errorDelay = y ∨ s.errorDelay = x - 1 ∧ s'.errorDelay = y - 1)
  | .accept a c, .accept a' c' => a = a' ∧ c = c'
  | .reject l c, .reject l' c' => l = l' ∧ c = c'
  | _, _ => False

theorem reduceStep_like (T : Tables) (strict : Bool) (s : St) (y : Nat) :
    Res.Rel false (OutLike s.errorDelay y) (reduceStep T strict s) (reduceStep T strict { s with errorDelay := y }) := by
  unfold reduceStep
  refine Res.Rel.bind (Res.Rel.eq _) ?_
  rintro p _ rfl
  refine Res.Rel.bind (Res.Rel.eq _) ?_
  rintro ⟨acc, st⟩ _ rfl
  cases st with
  | nil => trivial
  | cons e below =>
    simp only
    split
    · refine Res.Rel.bind (Res.Rel.eq _) ?_
      rintro c _ rfl
      exact ⟨rfl, rfl⟩
    · refine Res.Rel.bind (Res.Rel.eq _) ?_
      rintro q _ rfl
      refine Res.Rel.bind (Res.Rel.eq _) ?_
      rintro row _ rfl
      refine Res.Rel.bind (Res.Rel.eq _) ?_
      rintro st _ rfl
      exact ⟨rfl, .inl ⟨rfl, rfl⟩⟩

theorem shiftStep_like (T : Tables) (strict : Bool) (s : St) (y sym len act idx : Nat) (scan : Scan) :
    Res.Rel false (OutLike s.errorDelay y) (shiftStep T strict s sym len act idx scan)
      (shiftStep T strict { s with errorDelay := y } sym len act idx scan) := by
  unfold shiftStep
  refine Res.Rel.bind (Res.Rel.eq _) ?_
  rintro _ _ rfl
  refine Res.Rel.bind (Res.Rel.eq _) ?_
  rintro info _ rfl
  refine Res.Rel.bind (Res.Rel.eq _) ?_
  rintro _ _ rfl
  refine Res.Rel.bind (Res.Rel.eq _) ?_
  rintro st _ rfl
  refine Res.Rel.bind (Res.Rel.eq _) ?_
  rintro c _ rfl
  exact ⟨rfl, .inr ⟨rfl, rfl⟩⟩

theorem actStep_like (T : Tables) (strict : Bool) (q : Nat) (s : St) (y : Nat) (sym : Option Nat) (len : Nat) (scan : Scan) :
    Res.Rel false (OutLike s.errorDelay y) (actStep T strict q s sym len scan)
      (actStep T strict q { s with errorDelay := y } sym len scan) := by
  unfold actStep
  refine Res.Rel.bind (Res.Rel.eq _) ?_
  rintro a _ rfl
  cases a with
  | none =>
    simp only
    split
    · trivial
    · exact ⟨rfl, rfl⟩
  | some a =>
    obtain ⟨act, idx⟩ := a
    simp only
    split
    · cases sym with
      | none => trivial
      | some x => exact shiftStep_like T strict s y x len act idx scan
    · exact ⟨rfl, .inl ⟨rfl, rfl⟩⟩

/-- Except for 3, the value is only counted down. -/
theorem step_like (T : Tables) (strict : Bool) (s : St) (y : Nat) (hx : s.errorDelay ≠ 3) (hy : y ≠ 3) :
    Res.Rel false (OutLike s.errorDelay y) (step T strict s) (step T strict { s with errorDelay := y }) := by
  unfold step
  split
  · exact reduceStep_like T strict s y
  · unfold readStep
    simp only
    split
    · trivial
    · refine Res.Rel.bind (Res.Rel.eq _) ?_
      rintro q _ rfl
      unfold nextSym
      rw [if_neg hx, if_neg hy]
      refine Res.Rel.bind (Res.Rel.eq _) ?_
      rintro ⟨sym, len, scan⟩ _ rfl
      exact actStep_like T strict q s y sym len scan

/-- A value that does not become 3 within `n` rounds. -/
def Remote (n d : Nat) : Prop := d < 3 ∨ n + 3 < d

theorem Remote.ne {n d : Nat} (h : Remote n d) : d ≠ 3 := by unfold Remote at h; omega

/-- Two values that do not become 3 make no difference; they are counted down by the same number. -/
theorem runD_like (T : Tables) (strict : Bool) : ∀ (fuel : Nat) (s : St) (y : Nat), Remote fuel s.errorDelay → Remote fuel y →
    Res.Rel false (fun a b => a.1 = b.1 ∧ ∃ k ≤ fuel, a.2 = s.errorDelay - k ∧ b.2 = y - k)
      (runD T strict fuel s) (runD T strict fuel { s with errorDelay := y })
  | 0, s, y, _, _ => trivial
  | fuel + 1, s, y, hx, hy => by
    rw [runD, runD]
    refine Res.Rel.bind (step_like T strict s y hx.ne hy.ne) ?_
    intro o o' ho
    cases o with
    | go t =>
      cases o' with
      | go t' =>
        obtain ⟨h1, h2⟩ := ho
        have e : t' = { t with errorDelay := t'.errorDelay } := by
          cases t; cases t'; simp_all
        have ih := runD_like T strict fuel t t'.errorDelay (by unfold Remote at hx ⊢; omega)
          (by unfold Remote at hy ⊢; omega)
        rw [← e] at ih
        revert ih
        simp only
        cases runD T strict fuel t <;> cases runD T strict fuel t' <;> simp only [Res.Rel, imp_self]
        rintro ⟨i1, k, hk, i2, i3⟩
        rcases h2 with ⟨h3, h4⟩ | ⟨h3, h4⟩
        · exact ⟨i1, k, by omega, by omega, by omega⟩
        · exact ⟨i1, k + 1, by omega, by omega, by omega⟩
      | accept => exact ho.elim
      | reject => exact ho.elim
    | accept a c =>
      cases o' with
      | accept a' c' =>
        obtain ⟨rfl, rfl⟩ := ho
        exact ⟨rfl, 0, Nat.zero_le _, rfl, rfl⟩
      | go => exact ho.elim
      | reject => exact ho.elim
    | reject a c =>
      cases o' with
      | reject a' c' =>
        obtain ⟨rfl, rfl⟩ := ho
        exact ⟨rfl, 0, Nat.zero_le _, rfl, rfl⟩
      | go => exact ho.elim
      | accept => exact ho.elim

/-- The same for `parse`. -/
theorem parseD_like (T : Tables) (strict : Bool) (fuel : Nat) (scan : Scan) {x y : Nat} (hx : Remote fuel x)
    (hy : Remote fuel y) :
    Res.Rel false (fun a b => a.1 = b.1 ∧ ∃ k ≤ fuel, a.2 = x - k ∧ b.2 = y - k)
      (parseD T strict fuel scan x) (parseD T strict fuel scan y) := by
  unfold parseD
  refine Res.Rel.bind (runD_like T strict fuel (initSt scan x) y hx hy) ?_
  rintro ⟨r, d⟩ ⟨r', d'⟩ ⟨h1, h2⟩
  simp only at h1
  subst h1
  refine Res.Rel.bind (Res.Rel.eq _) ?_
  rintro c _ rfl
  exact ⟨rfl, h2⟩

theorem parse_delay (T : Tables) (strict : Bool) (fuel : Nat) (scan : Scan) {x y : Nat} (hx : Remote fuel x)
    (hy : Remote fuel y) : parse T strict fuel scan x = parse T strict fuel scan y := by
  rw [parse_parseD, parse_parseD]
  have := parseD_like T strict fuel scan hx hy
  revert this
  cases parseD T strict fuel scan x <;> cases parseD T strict fuel scan y <;> simp +contextual [Res.Rel]

theorem syntaxTrees_delay (strict : Bool) : ∀ (ls : List (List WChar × Nat)) (b : Buf) {x y : Nat},
    Remote (ls.map Prod.snd).sum x → Remote (ls.map Prod.snd).sum y → syntaxTrees strict b x ls = syntaxTrees strict b y ls
  | [], b, x, y, _, _ => rfl
  | (text, fuel) :: ls, b, x, y, hx, hy => by
    rw [List.map_cons, List.sum_cons] at hx hy
    simp only at hx hy
    have := parseD_like narsese strict fuel ⟨b, fill text, false⟩ (x := x) (y := y) (by unfold Remote at hx ⊢; omega)
      (by unfold Remote at hy ⊢; omega)
    rw [syntaxTrees, syntaxTrees]
    revert this
    cases parseD narsese strict fuel ⟨b, fill text, false⟩ x <;> cases parseD narsese strict fuel ⟨b, fill text, false⟩ y <;>
      simp only [Res.Rel, false_imp_iff, Bool.false_eq_true]
    · rename_i a a'
      rintro ⟨h1, k, hk, h2, h3⟩
      obtain ⟨r, d⟩ := a
      obtain ⟨r', d'⟩ := a'
      simp only at h1 h2 h3
      subst h1
      simp only [Res.ok_bind]
      rw [syntaxTrees_delay strict ls r.scan.buf (x := d) (y := d') (by unfold Remote at hx ⊢; omega)
        (by unfold Remote at hy ⊢; omega)]
    · rintro rfl; rfl
    · intro _; trivial
    · intro _; trivial

end Cnars.Parser
