import Verif.Parser.Driver

/-!
# Comparing runs of the parser

Two things at once, as both compare two runs step by step:

* with `strict = true` leaving a block of memory is undefined behaviour, with `strict = false` memory
  is unlimited; a strict run is undefined or equal to the run without limits (`strict_cases`);
* what follows the first newline of the input makes no difference (`first_line`).
-/

namespace Cnars

/-- The same outcome up to `R`; with `u = true` the first may also be undefined. -/
def Res.Rel {α β : Type _} (u : Bool) (R : α → β → Prop) : Res α → Res β → Prop
  | .ok a, .ok b => R a b
  | .throw m, .throw m' => m = m'
  | .ub, .ub => True
  | .ub, _ => u = true
  | .outOfFuel, .outOfFuel => True
  | _, _ => False

theorem Res.Rel.refl {α : Type _} {u : Bool} {R : α → α → Prop} (h : ∀ a, R a a) (x : Res α) :
    Res.Rel u R x x := by
  cases x <;> simp [Res.Rel, h]

theorem Res.Rel.eq {α : Type _} {u : Bool} (x : Res α) : Res.Rel u Eq x x :=
  Res.Rel.refl (fun _ => rfl) x

theorem Res.Rel.bind {α β γ δ : Type _} {u : Bool} {R : α → β → Prop} {S : γ → δ → Prop}
    {x : Res α} {y : Res β} {f : α → Res γ} {g : β → Res δ} (h : Res.Rel u R x y)
    (hf : ∀ a b, R a b → Res.Rel u S (f a) (g b)) : Res.Rel u S (x >>= f) (y >>= g) := by
  cases x <;> cases y <;> simp_all [Res.Rel]
  all_goals first
    | exact hf _ _ h
    | (rename_i b; cases g b <;> simp)

theorem Res.Rel.ub {α β : Type _} {R : α → β → Prop} (y : Res β) :
    Res.Rel true R (.ub : Res α) y := by
  cases y <;> simp [Res.Rel]

namespace Parser

/-- The two settings of `strict` that are compared. -/
def Flags (u b1 b2 : Bool) : Prop := b1 = b2 ∨ (u = true ∧ b1 = true ∧ b2 = false)

/-- The same up to what follows the first newline. -/
def ScanRel (s1 s2 : Scan) : Prop :=
  s1.buf = s2.buf ∧ s1.isEof = s2.isEof ∧
    (s1.isEof = true ∨ s1.input = s2.input ∨
      ∃ pre r1 r2, s1.input = pre ++ eofChar :: r1 ∧ s2.input = pre ++ eofChar :: r2)

theorem ScanRel.refl (s : Scan) : ScanRel s s := ⟨rfl, rfl, Or.inr (Or.inl rfl)⟩

theorem takeWhile_pre (pre r1 r2 : List WChar) :
    (pre ++ eofChar :: r1).takeWhile (fun c => c ≠ eofChar) =
      (pre ++ eofChar :: r2).takeWhile (fun c => c ≠ eofChar) := by
  induction pre with
  | nil => simp
  | cons c cs ih => simp only [List.cons_append, List.takeWhile_cons, ih]

theorem ScanRel.avail {s1 s2 : Scan} (h : ScanRel s1 s2) : s1.avail = s2.avail := by
  obtain ⟨h1, h2, h3⟩ := h
  unfold Scan.avail
  rw [h1, ← h2]
  rcases h3 with h3 | h3 | ⟨pre, r1, r2, h3, h4⟩
  · simp [h3]
  · rw [h3]
  · rw [h3, h4, takeWhile_pre pre r1 r2]

theorem checkCell_rel {u b1 b2 : Bool} (h : Flags u b1 b2) (b : Buf) (i : Nat) :
    Res.Rel u Eq (checkCell b1 b i) (checkCell b2 b i) := by
  rcases h with rfl | ⟨rfl, rfl, rfl⟩
  · exact Res.Rel.eq _
  · unfold checkCell
    simp only [true_and, Bool.false_eq_true, false_and, if_false]
    split
    · exact Res.Rel.ub _
    · rfl

theorem fillTo_rel {u b1 b2 : Bool} (h : Flags u b1 b2) : ∀ (n : Nat) {s1 s2 : Scan},
    ScanRel s1 s2 → Res.Rel u (fun x y => x.1 = y.1 ∧ ScanRel x.2 y.2) (fillTo b1 n s1)
      (fillTo b2 n s2)
  | 0, _, _, hs => ⟨rfl, hs⟩
  | n + 1, s1, s2, hs => by
    have hs' := hs
    obtain ⟨h1, h2, h3⟩ := hs
    unfold fillTo
    rw [← h1, ← h2]
    dsimp only
    cases he : s1.isEof with
    | true =>
      simp only [if_true]
      exact ⟨rfl, rfl, rfl, Or.inl rfl⟩
    | false =>
      simp only [Bool.false_eq_true, if_false]
      have hf : (fetch s1.input).1 = (fetch s2.input).1 ∧
          ((fetch s1.input).1 ≠ eofChar → ScanRel { s1 with input := (fetch s1.input).2 }
            { s2 with input := (fetch s2.input).2 }) := by
        rcases h3 with h3 | h3 | ⟨pre, r1, r2, h3, h4⟩
        · simp [he] at h3
        · rw [h3]; exact ⟨rfl, fun _ => ⟨h1, h2, Or.inr (Or.inl rfl)⟩⟩
        · rw [h3, h4]
          cases pre with
          | nil => exact ⟨rfl, fun hc => absurd rfl hc⟩
          | cons c cs => exact ⟨rfl, fun _ => ⟨h1, h2, Or.inr (Or.inr ⟨cs, r1, r2, rfl, rfl⟩)⟩⟩
      rw [hf.1]
      refine Res.Rel.bind (checkCell_rel h _ _) (fun _ _ _ => ?_)
      split
      · exact ⟨rfl, rfl, rfl, Or.inl rfl⟩
      · rename_i hc
        refine Res.Rel.bind (checkCell_rel h _ _) (fun _ _ _ => ?_)
        refine fillTo_rel h n ⟨rfl, rfl, ?_⟩
        have := (hf.2 (by rw [hf.1]; exact hc)).2.2
        rcases this with this | this
        · simp [he] at this
        · exact Or.inr this

theorem getInput_rel {u b1 b2 : Bool} (h : Flags u b1 b2) (o : Nat) {s1 s2 : Scan}
    (hs : ScanRel s1 s2) : Res.Rel u (fun x y => x.1 = y.1 ∧ ScanRel x.2 y.2) (getInput b1 o s1)
      (getInput b2 o s2) := by
  unfold getInput
  rw [← hs.1]
  refine Res.Rel.bind (fillTo_rel h _ hs) ?_
  rintro ⟨e1, t1⟩ ⟨e2, t2⟩ ⟨h1, h2⟩
  simp only at h1 h2
  subst h1
  simp only
  split
  · exact ⟨rfl, h2⟩
  · rw [← h2.1]
    split
    · exact ⟨rfl, h2⟩
    · simp [Res.Rel]

theorem clearInput_rel {u b1 b2 : Bool} (h : Flags u b1 b2) (l : Nat) {s1 s2 : Scan}
    (hs : ScanRel s1 s2) : Res.Rel u ScanRel (clearInput b1 l s1) (clearInput b2 l s2) := by
  unfold clearInput
  rw [← hs.1]
  split
  · exact hs
  · split
    · exact ⟨rfl, hs.2⟩
    · split
      · simp [Res.Rel]
      · exact Res.Rel.bind (checkCell_rel h _ _) (fun _ _ _ => ⟨rfl, hs.2⟩)

theorem lexLoop_rel {u b1 b2 : Bool} (h : Flags u b1 b2) {T : Tables} {m : Machine} :
    ∀ (fuel state len : Nat) (next : WChar) (best : Option (Nat × Nat)) {s1 s2 : Scan},
      ScanRel s1 s2 → Res.Rel u (fun x y => x.1 = y.1 ∧ ScanRel x.2 y.2)
        (lexLoop T b1 m fuel state len next best s1) (lexLoop T b2 m fuel state len next best s2)
  | 0, _, _, _, _, _, _, _ => trivial
  | fuel + 1, state, len, next, best, s1, s2, hs => by
    unfold lexLoop
    refine Res.Rel.bind (Res.Rel.eq _) ?_
    rintro ⟨row, x⟩ _ rfl
    simp only
    split
    · exact ⟨rfl, hs⟩
    · refine Res.Rel.bind (Res.Rel.eq _) ?_
      rintro ⟨y, a⟩ _ rfl
      simp only
      refine Res.Rel.bind (Res.Rel.eq _) ?_
      rintro stop _ rfl
      split
      · exact ⟨rfl, hs⟩
      · refine Res.Rel.bind (getInput_rel h _ hs) ?_
        rintro ⟨c, t1⟩ ⟨c', t2⟩ ⟨h1, h2⟩
        simp only at h1 h2
        subst h1
        simp only
        split
        · exact ⟨rfl, h2⟩
        · exact lexLoop_rel h fuel _ _ _ _ h2

theorem getSym_rel {u b1 b2 : Bool} (h : Flags u b1 b2) {T : Tables} (q : Nat) {s1 s2 : Scan}
    (hs : ScanRel s1 s2) : Res.Rel u (fun x y => x.1 = y.1 ∧ x.2.1 = y.2.1 ∧ ScanRel x.2.2 y.2.2)
      (getSym T b1 q s1) (getSym T b2 q s2) := by
  unfold getSym
  refine Res.Rel.bind (Res.Rel.eq _) ?_
  rintro sel _ rfl
  refine Res.Rel.bind (getInput_rel h _ hs) ?_
  rintro ⟨c, t1⟩ ⟨c', t2⟩ ⟨h1, h2⟩
  simp only at h1 h2
  subst h1
  simp only
  split
  · exact ⟨rfl, rfl, h2⟩
  · cases sel with
    | none => exact ⟨rfl, rfl, h2⟩
    | some k =>
      simp only
      refine Res.Rel.bind (Res.Rel.eq _) ?_
      rintro m _ rfl
      rw [h2.avail]
      refine Res.Rel.bind (lexLoop_rel h _ _ _ _ _ h2) ?_
      rintro ⟨r, w1⟩ ⟨r', w2⟩ ⟨h3, h4⟩
      simp only at h3 h4
      subst h3
      cases r with
      | none => exact ⟨rfl, rfl, h4⟩
      | some x => exact ⟨rfl, rfl, h4⟩

theorem skipSym_rel {u b1 b2 : Bool} (h : Flags u b1 b2) {T : Tables} (q : Nat) :
    ∀ (fuel : Nat) {s1 s2 : Scan}, ScanRel s1 s2 →
      Res.Rel u (fun x y => x.1 = y.1 ∧ x.2.1 = y.2.1 ∧ ScanRel x.2.2 y.2.2)
        (skipSym T b1 q fuel s1) (skipSym T b2 q fuel s2)
  | 0, _, _, _ => trivial
  | fuel + 1, s1, s2, hs => by
    unfold skipSym
    refine Res.Rel.bind (getSym_rel h q hs) ?_
    rintro ⟨x, l, t1⟩ ⟨x', l', t2⟩ ⟨h1, h2, h3⟩
    simp only at h1 h2 h3
    subst h1 h2
    cases x with
    | some _ => exact ⟨rfl, rfl, h3⟩
    | none => exact Res.Rel.bind (clearInput_rel h 1 h3) (fun _ _ h4 => skipSym_rel h q fuel h4)

theorem push_rel {u b1 b2 : Bool} (h : Flags u b1 b2) (n : Nat) (e : Entry) (st : List Entry) :
    Res.Rel u Eq (push b1 n e st) (push b2 n e st) := by
  rcases h with rfl | ⟨rfl, rfl, rfl⟩
  · exact Res.Rel.eq _
  · unfold push
    simp only [true_and, Bool.false_eq_true, false_and, if_false]
    split
    · exact Res.Rel.ub _
    · rfl

theorem checkLexeme_rel {u b1 b2 : Bool} (h : Flags u b1 b2) (e : Emit) (w : List WChar) :
    Res.Rel u Eq (checkLexeme b1 e w) (checkLexeme b2 e w) := by
  rcases h with rfl | ⟨rfl, rfl, rfl⟩
  · exact Res.Rel.eq _
  · unfold checkLexeme
    simp only [true_and, Bool.false_eq_true, false_and, if_false]
    split
    · exact Res.Rel.ub _
    · rfl

/-- States that differ only in the rest of the input. -/
def StRel (s1 s2 : St) : Prop :=
  s1.stack = s2.stack ∧ s1.stacksize = s2.stacksize ∧ ScanRel s1.scan s2.scan ∧
    s1.act = s2.act ∧ s1.idx = s2.idx ∧ s1.len = s2.len ∧ s1.errorDelay = s2.errorDelay

/-- Outcomes that differ only in the rest of the input. -/
def OutRel : Out → Out → Prop
  | .go s1, .go s2 => StRel s1 s2
  | .accept a1 s1, .accept a2 s2 => a1 = a2 ∧ ScanRel s1 s2
  | .reject l1 s1, .reject l2 s2 => l1 = l2 ∧ ScanRel s1 s2
  | _, _ => False

theorem reduceStep_rel {u b1 b2 : Bool} (h : Flags u b1 b2) {T : Tables} {s1 s2 : St}
    (hs : StRel s1 s2) : Res.Rel u OutRel (reduceStep T b1 s1) (reduceStep T b2 s2) := by
  obtain ⟨h1, h2, h3, h4, h5, h6, h7⟩ := hs
  unfold reduceStep
  rw [← h1, ← h2, ← h4, ← h5, ← h6]
  refine Res.Rel.bind (Res.Rel.eq _) ?_
  rintro p _ rfl
  refine Res.Rel.bind (Res.Rel.eq _) ?_
  rintro ⟨acc, st⟩ _ rfl
  simp only
  cases st with
  | nil => simp [Res.Rel]
  | cons e below =>
    simp only
    split
    · refine Res.Rel.bind (clearInput_rel h _ h3) ?_
      intro t1 t2 ht
      exact ⟨rfl, ht⟩
    · refine Res.Rel.bind (Res.Rel.eq _) ?_
      rintro q _ rfl
      refine Res.Rel.bind (Res.Rel.eq _) ?_
      rintro row _ rfl
      refine Res.Rel.bind (push_rel h _ _ _) ?_
      rintro st' _ rfl
      exact ⟨rfl, rfl, h3, rfl, rfl, rfl, h7⟩

theorem dropSym_rel {u b1 b2 : Bool} (h : Flags u b1 b2) (sym len : Nat) {s1 s2 : Scan}
    (hs : ScanRel s1 s2) : Res.Rel u ScanRel (dropSym b1 sym len s1) (dropSym b2 sym len s2) := by
  unfold dropSym
  split
  · exact hs
  · exact clearInput_rel h _ hs

theorem shiftStep_rel {u b1 b2 : Bool} (h : Flags u b1 b2) {T : Tables} {s1 s2 : St}
    (hs : StRel s1 s2) (sym len act idx : Nat) {c1 c2 : Scan} (hc : ScanRel c1 c2) :
    Res.Rel u OutRel (shiftStep T b1 s1 sym len act idx c1)
      (shiftStep T b2 s2 sym len act idx c2) := by
  obtain ⟨h1, h2, h3, h4, h5, h6, h7⟩ := hs
  unfold shiftStep
  rw [← h1, ← h2, ← h7, ← hc.1]
  refine Res.Rel.bind (checkCell_rel h _ _) (fun _ _ _ => ?_)
  refine Res.Rel.bind (Res.Rel.eq _) ?_
  rintro info _ rfl
  refine Res.Rel.bind (checkLexeme_rel h _ _) (fun _ _ _ => ?_)
  refine Res.Rel.bind (push_rel h _ _ _) ?_
  rintro st _ rfl
  refine Res.Rel.bind (dropSym_rel h _ _ hc) ?_
  intro t1 t2 ht
  exact ⟨rfl, rfl, ht, rfl, rfl, rfl, rfl⟩

theorem nextSym_rel {u b1 b2 : Bool} (h : Flags u b1 b2) {T : Tables} (q : Nat) {s1 s2 : St}
    (hs : StRel s1 s2) : Res.Rel u (fun x y => x.1 = y.1 ∧ x.2.1 = y.2.1 ∧ ScanRel x.2.2 y.2.2)
      (nextSym T b1 q s1) (nextSym T b2 q s2) := by
  obtain ⟨h1, h2, h3, h4, h5, h6, h7⟩ := hs
  unfold nextSym
  rw [← h7, ← h3.avail]
  split
  · exact skipSym_rel h q _ h3
  · exact getSym_rel h q h3

theorem actStep_rel {u b1 b2 : Bool} (h : Flags u b1 b2) {T : Tables} (q : Nat) {s1 s2 : St}
    (hs : StRel s1 s2) (sym : Option Nat) (len : Nat) {c1 c2 : Scan} (hc : ScanRel c1 c2) :
    Res.Rel u OutRel (actStep T b1 q s1 sym len c1) (actStep T b2 q s2 sym len c2) := by
  unfold actStep
  refine Res.Rel.bind (Res.Rel.eq _) ?_
  rintro a _ rfl
  cases a with
  | none =>
    simp only
    rw [← hc.1]
    rcases h with rfl | ⟨rfl, rfl, rfl⟩
    · split
      · simp [Res.Rel]
      · exact ⟨rfl, hc⟩
    · simp only [true_and, Bool.false_eq_true, false_and, if_false]
      split
      · exact Res.Rel.ub _
      · exact ⟨rfl, hc⟩
  | some x =>
    simp only
    split
    · cases sym with
      | none => simp [Res.Rel]
      | some y => exact shiftStep_rel h hs _ _ _ _ hc
    · obtain ⟨h1, h2, h3, h4, h5, h6, h7⟩ := hs
      exact ⟨h1, h2, hc, rfl, rfl, rfl, h7⟩

theorem step_rel {u b1 b2 : Bool} (h : Flags u b1 b2) {T : Tables} {s1 s2 : St}
    (hs : StRel s1 s2) : Res.Rel u OutRel (step T b1 s1) (step T b2 s2) := by
  unfold step
  rw [← hs.2.2.2.1]
  split
  · exact reduceStep_rel h hs
  · unfold readStep
    rw [← hs.1]
    split
    · simp [Res.Rel]
    · refine Res.Rel.bind (Res.Rel.eq _) ?_
      rintro q _ rfl
      refine Res.Rel.bind (nextSym_rel h q hs) ?_
      rintro ⟨x, l, t1⟩ ⟨x', l', t2⟩ ⟨h1, h2, h3⟩
      simp only at h1 h2 h3
      subst h1 h2
      exact actStep_rel h q hs _ _ h3

/-- Results that differ only in the rest of the input. -/
def ParsedRel (r1 r2 : Parsed) : Prop :=
  r1.ast = r2.ast ∧ r1.len = r2.len ∧ ScanRel r1.scan r2.scan

theorem run_rel {u b1 b2 : Bool} (h : Flags u b1 b2) {T : Tables} : ∀ (fuel : Nat) {s1 s2 : St},
    StRel s1 s2 → Res.Rel u ParsedRel (run T b1 fuel s1) (run T b2 fuel s2)
  | 0, _, _, _ => trivial
  | fuel + 1, s1, s2, hs => by
    unfold run
    refine Res.Rel.bind (step_rel h hs) ?_
    intro o1 o2 ho
    cases o1 <;> cases o2 <;> simp only [OutRel] at ho
    · exact run_rel h fuel ho
    · exact ⟨by rw [ho.1], rfl, ho.2⟩
    · exact ⟨rfl, ho.1, ho.2⟩

theorem parse_rel {u b1 b2 : Bool} (h : Flags u b1 b2) {T : Tables} (fuel d : Nat) {s1 s2 : Scan}
    (hs : s1.buf = s2.buf ∧ (s1.input = s2.input ∨
      ∃ pre r1 r2, s1.input = pre ++ eofChar :: r1 ∧ s2.input = pre ++ eofChar :: r2)) :
    Res.Rel u ParsedRel (parse T b1 fuel s1 d) (parse T b2 fuel s2 d) := by
  unfold parse
  refine Res.Rel.bind (run_rel h fuel ⟨rfl, rfl, ⟨hs.1, rfl, Or.inr hs.2⟩, rfl, rfl, rfl, rfl⟩) ?_
  rintro ⟨a1, l1, c1⟩ ⟨a2, l2, c2⟩ ⟨h1, h2, h3⟩
  simp only at h1 h2 h3
  subst h1 h2
  exact Res.Rel.bind (clearInput_rel h _ h3) (fun _ _ h4 => ⟨rfl, rfl, h4⟩)

theorem parsedRel_refl_ok {x y : Res Parsed} {u : Bool} (h : Res.Rel u ParsedRel x y) :
    Res.Rel u (fun a b => a.ast = b.ast ∧ a.len = b.len ∧ a.scan.buf = b.scan.buf) x y := by
  cases x <;> cases y <;> simp_all [Res.Rel, ParsedRel, ScanRel]

/-- A parse with limited memory is undefined, or ends as the parse with unlimited memory. -/
theorem strict_cases {T : Tables} (fuel : Nat) (scan : Scan) (d : Nat) :
    parse T true fuel scan d = .ub ∨
      Res.Rel false (fun a b => a.ast = b.ast ∧ a.len = b.len ∧ a.scan.buf = b.scan.buf)
        (parse T true fuel scan d) (parse T false fuel scan d) := by
  have h := parsedRel_refl_ok (parse_rel (u := true) (Or.inr ⟨rfl, rfl, rfl⟩) (T := T) fuel d
    (s1 := scan) (s2 := scan) ⟨rfl, Or.inl rfl⟩)
  cases h1 : parse T true fuel scan d <;> cases h2 : parse T false fuel scan d <;>
    simp_all [Res.Rel]

theorem run_mono {T : Tables} {b : Bool} : ∀ {fuel k : Nat} {s : St} {r : Parsed},
    run T b fuel s = .ok r → run T b (fuel + k) s = .ok r
  | 0, _, _, _, h => by simp [run] at h
  | fuel + 1, k, s, r, h => by
    rw [Nat.add_right_comm]
    unfold run at h ⊢
    simp only [Res.bind_eq_ok] at h ⊢
    obtain ⟨o, ho, h⟩ := h
    refine ⟨o, ho, ?_⟩
    cases o with
    | go s' => exact run_mono h
    | accept a sc => exact h
    | reject l sc => exact h

/-- More fuel does not change the result. -/
theorem parse_mono {T : Tables} {b : Bool} {fuel k : Nat} {scan : Scan} {d : Nat} {r : Parsed}
    (h : parse T b fuel scan d = .ok r) : parse T b (fuel + k) scan d = .ok r := by
  unfold parse at h ⊢
  simp only [Res.bind_eq_ok] at h ⊢
  obtain ⟨x, hx, h⟩ := h
  exact ⟨x, run_mono hx, h⟩

end Parser
end Cnars
