import Verif.Parser.Delay

/-!
# The member `error_delay` as an `int`

In `Driver.lean` and `Delay.lean` it is a natural number.  Here it is what it is (narsese.h:1342), a number that may be negative
and cannot be counted down from -2^31.
-/

namespace Cnars.Parser
open Cnars

/-- `if (error_delay) error_delay--;` (narsese.cpp:935-936).  Signed overflow is undefined. -/
def countDown (d : Int) : Res Int :=
  if d = 0 then .ok 0 else if d = -2147483648 then .ub else .ok (d - 1)

/-- What is left in the member after what `get_act` found has been done: it is counted down if that was a shift
(narsese.cpp:881, 935-936). -/
def delayAfter (a : Option (Nat × Nat)) (d : Int) : Res Int :=
  match a with
  | some (act, _) => if act / 2 % 2 = 1 then countDown d else .ok d
  | none => .ok d

/-- The next symbol, as in `nextSym` (narsese.cpp:815-841). -/
def nextSymI (T : Tables) (strict : Bool) (q : Nat) (s : St) (d : Int) : Res (Option Nat × Nat × Scan) :=
  if d = 3 then skipSym T strict q (s.scan.avail + 2) s.scan else getSym T strict q s.scan

/-- One round of the loops of `parse` (narsese.cpp:699-938), the member `error_delay` being `d`; the component `errorDelay` of
the state is not looked at. -/
def stepI (T : Tables) (strict : Bool) (s : St) (d : Int) : Res (Out × Int) :=
  if s.act % 2 = 1 then do
    let o ← reduceStep T strict s
    .ok (o, d)
  else
    match s.stack with
    | [] => .ub
    | e :: _ => do
      let q ← Res.ofOption e.state
      let (sym, len, scan) ← nextSymI T strict q s d
      let o ← actStep T strict q s sym len scan
      let a ← getAct T q sym
      let d' ← delayAfter a d
      .ok (o, d')

/-- The main loop (narsese.cpp:699-938). -/
def runI (T : Tables) (strict : Bool) : Nat → St → Int → Res (Parsed × Int)
  | 0, _, _ => .outOfFuel
  | fuel + 1, s, d => do
    let (o, d') ← stepI T strict s d
    match o with
    | .go s' => runI T strict fuel s' d'
    | .accept ast scan => .ok (⟨some ast, 0, scan⟩, d')
    | .reject len scan => .ok (⟨none, len, scan⟩, d')

/-- `parse` (narsese.cpp:673-960). -/
def parseI (T : Tables) (strict : Bool) (fuel : Nat) (scan : Scan) (d : Int) : Res (Parsed × Int) := do
  let (r, d') ← runI T strict fuel (initSt scan 0) d
  let scan ← clearInput strict r.len r.scan
  .ok ({ r with scan := scan }, d')

/-- A new parser reads lines one after the other, without semantic actions (Parser.cpp:28-37), as in `syntaxTrees`. -/
def syntaxTreesI (strict : Bool) : Buf → Int → List (List WChar × Nat) → Res (List (Option (List Ast)))
  | _, _, [] => .ok []
  | b, d, (text, fuel) :: rest => do
    let (r, d') ← parseI narsese strict fuel ⟨b, fill text, false⟩ d
    let as ← syntaxTreesI strict r.scan.buf d' rest
    .ok (r.ast :: as)

/-- Results of a round with `d` in the member, and of one of `step` with `y` in the state. -/
def OutInt (d : Int) (y : Nat) : Out × Int → Out → Prop
  | (.go s, d'), .go s' => { s with errorDelay := 0 } = { s' with errorDelay := 0 } ∧
      (d' = d ∧ s'.errorDelay = y ∨ countDown d = .ok d' ∧ s'.errorDelay = y - 1)
  | (.accept a c, d'), .accept a' c' => a = a' ∧ c = c' ∧ d' = d
  | (.reject l c, d'), .reject l' c' => l = l' ∧ c = c' ∧ d' = d
  | _, _ => False

theorem countDown_ok {d : Int} (h : d ≠ -2147483648) : ∃ d', countDown d = .ok d' := by
  unfold countDown
  rw [if_neg h]
  split <;> exact ⟨_, rfl⟩

theorem reduceStep_int (T : Tables) (strict : Bool) (s : St) (d : Int) (y : Nat) :
    Res.Rel false (OutInt d y) (reduceStep T strict s >>= fun o => .ok (o, d))
      (reduceStep T strict { s with errorDelay := y }) := by
  unfold reduceStep
  rw [Res.bind_assoc]
  refine Res.Rel.bind (Res.Rel.eq _) ?_
  rintro p _ rfl
  rw [Res.bind_assoc]
  refine Res.Rel.bind (Res.Rel.eq _) ?_
  rintro ⟨acc, st⟩ _ rfl
  cases st with
  | nil => trivial
  | cons e below =>
    simp only
    split
    · rw [Res.bind_assoc]
      refine Res.Rel.bind (Res.Rel.eq _) ?_
      rintro c _ rfl
      exact ⟨rfl, rfl, rfl⟩
    · rw [Res.bind_assoc]
      refine Res.Rel.bind (Res.Rel.eq _) ?_
      rintro q _ rfl
      rw [Res.bind_assoc]
      refine Res.Rel.bind (Res.Rel.eq _) ?_
      rintro row _ rfl
      rw [Res.bind_assoc]
      refine Res.Rel.bind (Res.Rel.eq _) ?_
      rintro st _ rfl
      exact ⟨rfl, .inl ⟨rfl, rfl⟩⟩

theorem shiftStep_int (T : Tables) (strict : Bool) (s : St) {d d' : Int} (hd : countDown d = .ok d') (y sym len act idx : Nat)
    (scan : Scan) : Res.Rel false (OutInt d y) (shiftStep T strict s sym len act idx scan >>= fun o => .ok (o, d'))
      (shiftStep T strict { s with errorDelay := y } sym len act idx scan) := by
  unfold shiftStep
  rw [Res.bind_assoc]
  refine Res.Rel.bind (Res.Rel.eq _) ?_
  rintro _ _ rfl
  rw [Res.bind_assoc]
  refine Res.Rel.bind (Res.Rel.eq _) ?_
  rintro info _ rfl
  rw [Res.bind_assoc]
  refine Res.Rel.bind (Res.Rel.eq _) ?_
  rintro _ _ rfl
  rw [Res.bind_assoc]
  refine Res.Rel.bind (Res.Rel.eq _) ?_
  rintro st _ rfl
  rw [Res.bind_assoc]
  refine Res.Rel.bind (Res.Rel.eq _) ?_
  rintro c _ rfl
  exact ⟨rfl, .inr ⟨hd, rfl⟩⟩

theorem stepI_int (T : Tables) (strict : Bool) (s : St) {d : Int} (h : d ≠ -2147483648) {y : Nat} (h3 : d = 3 ↔ y = 3) :
    Res.Rel false (OutInt d y) (stepI T strict s d) (step T strict { s with errorDelay := y }) := by
  unfold stepI step
  split
  · exact reduceStep_int T strict s d y
  · unfold readStep
    have e : ∀ q, nextSymI T strict q s d = nextSym T strict q { s with errorDelay := y } := by
      intro q; simp only [nextSymI, nextSym, h3]
    obtain ⟨st, size, scan0, act0, idx0, len0, y0⟩ := s
    cases st with
    | nil => trivial
    | cons e0 below =>
      simp only
      refine Res.Rel.bind (Res.Rel.eq _) ?_
      rintro q _ rfl
      rw [e q]
      refine Res.Rel.bind (Res.Rel.eq _) ?_
      rintro ⟨sym, len, scan⟩ _ rfl
      simp only
      unfold actStep
      cases getAct T q sym with
      | throw m => simp [Res.Rel]
      | ub => trivial
      | outOfFuel => trivial
      | ok a =>
        simp only [Res.ok_bind]
        cases a with
        | none =>
          simp only [delayAfter]
          split
          · trivial
          · exact ⟨rfl, rfl, rfl⟩
        | some a =>
          obtain ⟨act, idx⟩ := a
          simp only [delayAfter]
          split
          · cases sym with
            | none => trivial
            | some x =>
              obtain ⟨d', hd⟩ := countDown_ok h
              rw [hd]
              exact shiftStep_int T strict _ hd y x len act idx scan
          · exact ⟨rfl, .inl ⟨rfl, rfl⟩⟩

theorem St.upto {t t' : St} (h : { t with errorDelay := 0 } = { t' with errorDelay := 0 }) :
    t' = { t with errorDelay := t'.errorDelay } := by
  cases t; cases t'; simp_all

/-- A value that is not negative is as in `runD`. -/
theorem runI_nat (T : Tables) (strict : Bool) : ∀ (fuel : Nat) (s : St) (y : Nat),
    Res.Rel false (fun a b => a.1 = b.1 ∧ a.2 = (b.2 : Int)) (runI T strict fuel s y)
      (runD T strict fuel { s with errorDelay := y })
  | 0, s, y => trivial
  | fuel + 1, s, y => by
    rw [runI, runD]
    refine Res.Rel.bind (stepI_int T strict s (by omega) (by omega : (y : Int) = 3 ↔ y = 3)) ?_
    rintro ⟨o, d'⟩ o' ho
    cases o with
    | go t =>
      cases o' with
      | go t' =>
        obtain ⟨h1, h2⟩ := ho
        have hd : d' = (t'.errorDelay : Int) := by
          rcases h2 with ⟨h2, h3⟩ | ⟨h2, h3⟩
          · rw [h2, h3]
          · unfold countDown at h2
            split at h2
            · cases h2; omega
            · split at h2
              · cases h2
              · cases h2; omega
        have ih := runI_nat T strict fuel t t'.errorDelay
        rw [← St.upto h1] at ih
        rw [hd]
        exact ih
      | accept => exact ho.elim
      | reject => exact ho.elim
    | accept a c =>
      cases o' with
      | accept a' c' =>
        obtain ⟨rfl, rfl, rfl⟩ := ho
        exact ⟨rfl, rfl⟩
      | go => exact ho.elim
      | reject => exact ho.elim
    | reject a c =>
      cases o' with
      | reject a' c' =>
        obtain ⟨rfl, rfl, rfl⟩ := ho
        exact ⟨rfl, rfl⟩
      | go => exact ho.elim
      | accept => exact ho.elim

/-- A negative value, so long as it is not counted down too far, is like one that does not become 3. -/
theorem runI_neg (T : Tables) (strict : Bool) : ∀ (fuel : Nat) (s : St) (d : Int) (y : Nat), d < 0 →
    -2147483648 + (fuel : Int) ≤ d → Remote fuel y →
    Res.Rel false (fun a b => a.1 = b.1 ∧ ∃ k ≤ fuel, a.2 = d - k ∧ b.2 = y - k) (runI T strict fuel s d)
      (runD T strict fuel { s with errorDelay := y })
  | 0, s, d, y, _, _, _ => trivial
  | fuel + 1, s, d, y, h0, hf, hy => by
    rw [runI, runD]
    have := hy.ne
    refine Res.Rel.bind (stepI_int T strict s (by omega) (by omega : d = 3 ↔ y = 3)) ?_
    rintro ⟨o, d'⟩ o' ho
    cases o with
    | go t =>
      cases o' with
      | go t' =>
        obtain ⟨h1, h2⟩ := ho
        have h2 : d' = d ∧ t'.errorDelay = y ∨ d' = d - 1 ∧ t'.errorDelay = y - 1 := by
          refine h2.imp id fun ⟨h2, h3⟩ => ⟨?_, h3⟩
          unfold countDown at h2
          rw [if_neg (by omega), if_neg (by omega)] at h2
          cases h2
          rfl
        have ih := runI_neg T strict fuel t d' t'.errorDelay (by omega) (by omega) (by unfold Remote at hy ⊢; omega)
        rw [← St.upto h1] at ih
        revert ih
        simp only
        cases runI T strict fuel t d' <;> cases runD T strict fuel t' <;> simp only [Res.Rel, imp_self]
        rintro ⟨i1, k, hk, i2, i3⟩
        rcases h2 with ⟨h3, h4⟩ | ⟨h3, h4⟩
        · exact ⟨i1, k, by omega, by omega, by omega⟩
        · exact ⟨i1, k + 1, by omega, by omega, by omega⟩
      | accept => exact ho.elim
      | reject => exact ho.elim
    | accept a c =>
      cases o' with
      | accept a' c' =>
        obtain ⟨rfl, rfl, rfl⟩ := ho
        exact ⟨rfl, 0, Nat.zero_le _, by simp, rfl⟩
      | go => exact ho.elim
      | reject => exact ho.elim
    | reject a c =>
      cases o' with
      | reject a' c' =>
        obtain ⟨rfl, rfl, rfl⟩ := ho
        exact ⟨rfl, 0, Nat.zero_le _, by simp, rfl⟩
      | go => exact ho.elim
      | accept => exact ho.elim

theorem parseI_nat (T : Tables) (strict : Bool) (fuel : Nat) (scan : Scan) (y : Nat) :
    Res.Rel false (fun a b => a.1 = b.1 ∧ a.2 = (b.2 : Int)) (parseI T strict fuel scan y) (parseD T strict fuel scan y) := by
  unfold parseI parseD
  refine Res.Rel.bind (runI_nat T strict fuel (initSt scan 0) y) ?_
  rintro ⟨r, d⟩ ⟨r', d'⟩ ⟨h1, h2⟩
  simp only at h1
  subst h1
  refine Res.Rel.bind (Res.Rel.eq _) ?_
  rintro c _ rfl
  exact ⟨rfl, h2⟩

theorem parseI_neg (T : Tables) (strict : Bool) (fuel : Nat) (scan : Scan) {d : Int} {y : Nat} (h0 : d < 0)
    (hf : -2147483648 + (fuel : Int) ≤ d) (hy : Remote fuel y) :
    Res.Rel false (fun a b => a.1 = b.1 ∧ ∃ k ≤ fuel, a.2 = d - k ∧ b.2 = y - k) (parseI T strict fuel scan d)
      (parseD T strict fuel scan y) := by
  unfold parseI parseD
  refine Res.Rel.bind (runI_neg T strict fuel (initSt scan 0) d y h0 hf hy) ?_
  rintro ⟨r, d⟩ ⟨r', d'⟩ ⟨h1, h2⟩
  simp only at h1
  subst h1
  refine Res.Rel.bind (Res.Rel.eq _) ?_
  rintro c _ rfl
  exact ⟨rfl, h2⟩

/-- Not negative: `syntaxTrees`. -/
theorem syntaxTreesI_nat (strict : Bool) : ∀ (ls : List (List WChar × Nat)) (b : Buf) (y : Nat),
    syntaxTreesI strict b y ls = syntaxTrees strict b y ls
  | [], b, y => rfl
  | (text, fuel) :: ls, b, y => by
    have := parseI_nat narsese strict fuel ⟨b, fill text, false⟩ y
    rw [syntaxTreesI, syntaxTrees]
    revert this
    cases parseI narsese strict fuel ⟨b, fill text, false⟩ y <;> cases parseD narsese strict fuel ⟨b, fill text, false⟩ y <;>
      simp only [Res.Rel, false_imp_iff, Bool.false_eq_true]
    · rename_i a a'
      obtain ⟨r, d⟩ := a
      obtain ⟨r', d'⟩ := a'
      rintro ⟨h1, h2⟩
      simp only at h1 h2
      subst h1 h2
      simp only [Res.ok_bind]
      rw [syntaxTreesI_nat strict ls]
    · rintro rfl; rfl
    · intro _; trivial
    · intro _; trivial

/-- Negative, and not too many rounds: like 0. -/
theorem syntaxTreesI_neg (strict : Bool) : ∀ (ls : List (List WChar × Nat)) (b : Buf) (d : Int) (y : Nat), d < 0 →
    -2147483648 + (((ls.map Prod.snd).sum : Nat) : Int) ≤ d → y < 3 → syntaxTreesI strict b d ls = syntaxTrees strict b y ls
  | [], b, d, y, _, _, _ => rfl
  | (text, fuel) :: ls, b, d, y, h0, hf, hy => by
    rw [List.map_cons, List.sum_cons] at hf
    simp only at hf
    have := parseI_neg narsese strict fuel ⟨b, fill text, false⟩ (d := d) (y := y) h0 (by omega) (.inl hy)
    rw [syntaxTreesI, syntaxTrees]
    revert this
    cases parseI narsese strict fuel ⟨b, fill text, false⟩ d <;> cases parseD narsese strict fuel ⟨b, fill text, false⟩ y <;>
      simp only [Res.Rel, false_imp_iff, Bool.false_eq_true]
    · rename_i a a'
      obtain ⟨r, d1⟩ := a
      obtain ⟨r', d2⟩ := a'
      rintro ⟨h1, k, hk, h2, h3⟩
      simp only at h1 h2 h3
      subst h1
      simp only [Res.ok_bind]
      rw [syntaxTreesI_neg strict ls _ d1 d2 (by omega) (by omega) (by omega)]
    · rintro rfl; rfl
    · intro _; trivial
    · intro _; trivial

end Cnars.Parser
