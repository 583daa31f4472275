import Verif.Parser.Regex

/-!
# The machines of the lexer find the tokens

The converse of `machine_sound`: a finite check that a machine accepts all texts of a regular
expression and cannot go on with certain characters after them, so that the longest match is the
token.  Helper lemmas.
-/

namespace Cnars.Parser

theorem Rx.nullable_complete : ∀ {r : Rx}, r.Matches [] → r.nullable = true
  | .eps, _ => rfl
  | .cls _, h => by cases h
  | .seq a b, h => by
    generalize hw : ([] : List WChar) = w at h
    cases h with
    | seq h1 h2 =>
      obtain ⟨rfl, rfl⟩ := List.append_eq_nil_iff.mp hw.symm
      simp [nullable, nullable_complete h1, nullable_complete h2]
  | .alt a b, h => by
    cases h with
    | altL h => simp [nullable, nullable_complete h]
    | altR h => simp [nullable, nullable_complete h]
  | .star _, _ => rfl

/-- The ways an expression can begin: a class for the first character and what remains. -/
def Rx.lf : Rx → List (List (Nat × Nat) × Rx)
  | .eps => []
  | .cls rs => [(rs, .eps)]
  | .seq a b => a.lf.map (fun x => (x.1, Rx.seq' x.2 b)) ++ if a.nullable then b.lf else []
  | .alt a b => a.lf ++ b.lf
  | .star a => a.lf.map (fun x => (x.1, Rx.seq' x.2 (.star a)))

theorem Rx.seq'_complete {a b : Rx} {u v : List WChar} (ha : a.Matches u) (hb : b.Matches v) :
    (Rx.seq' a b).Matches (u ++ v) := by
  unfold seq'
  split
  · rename_i h; subst h; cases ha; exact hb
  · exact .seq ha hb

theorem Rx.lf_complete {r : Rx} {w : List WChar} (h : r.Matches w) :
    ∀ {c : WChar} {v : List WChar}, w = c :: v →
      ∃ x ∈ r.lf, x.2.Matches v ∧ ∃ n lo hi, c = ((n : Nat) : Int) ∧ (lo, hi) ∈ x.1 ∧ lo ≤ n ∧ n ≤ hi := by
  induction h with
  | eps => intro c v hw; simp at hw
  | @cls rs lo hi n h1 h2 h3 =>
    intro c v hw
    simp only [List.cons.injEq] at hw
    obtain ⟨rfl, rfl⟩ := hw
    exact ⟨(rs, .eps), by simp [lf], .eps, n, lo, hi, rfl, h1, h2, h3⟩
  | @seq a b u v ha hb iha ihb =>
    intro c t hw
    cases u with
    | nil =>
      obtain ⟨x, hx, h1, h2⟩ := ihb hw
      refine ⟨x, ?_, h1, h2⟩
      simp [lf, Rx.nullable_complete ha, hx]
    | cons d u =>
      simp only [List.cons_append, List.cons.injEq] at hw
      obtain ⟨rfl, rfl⟩ := hw
      obtain ⟨x, hx, h1, h2⟩ := iha rfl
      refine ⟨(x.1, Rx.seq' x.2 b), ?_, Rx.seq'_complete h1 hb, h2⟩
      simp only [lf, List.mem_append, List.mem_map]
      exact .inl ⟨x, hx, rfl⟩
  | altL _ ih =>
    intro c v hw
    obtain ⟨x, hx, h⟩ := ih hw
    exact ⟨x, by simp [lf, hx], h⟩
  | altR _ ih =>
    intro c v hw
    obtain ⟨x, hx, h⟩ := ih hw
    exact ⟨x, by simp [lf, hx], h⟩
  | starNil => intro c v hw; simp at hw
  | @starCons a u v ha hb iha ihb =>
    intro c t hw
    cases u with
    | nil => exact ihb hw
    | cons d u =>
      simp only [List.cons_append, List.cons.injEq] at hw
      obtain ⟨rfl, rfl⟩ := hw
      obtain ⟨x, hx, h1, h2⟩ := iha rfl
      refine ⟨(x.1, Rx.seq' x.2 (.star a)), ?_, Rx.seq'_complete h1 hb, h2⟩
      simp only [lf, List.mem_map]
      exact ⟨x, hx, rfl⟩

/-! ## Sets of characters -/

/-- All characters above 127 count as one. -/
def code (n : Nat) : Nat := min n 128

/-- The codes of a range, as a bit mask. -/
def rangeMask (lo hi : Nat) : Nat := (2 ^ (code hi + 1) - 1) ^^^ (2 ^ code lo - 1)

theorem rangeMask_bit {lo hi n : Nat} (h1 : lo ≤ n) (h2 : n ≤ hi) :
    (rangeMask lo hi).testBit (code n) = true := by
  unfold rangeMask
  rw [Nat.testBit_xor, Nat.testBit_two_pow_sub_one, Nat.testBit_two_pow_sub_one]
  unfold code
  have h3 : min n 128 < min hi 128 + 1 := by omega
  have h4 : ¬ min n 128 < min lo 128 := by omega
  simp [h3, h4]

/-- The characters in a bit mask. -/
def inMask (m : Nat) : WChar → Prop
  | .ofNat n => m.testBit (code n) = true
  | .negSucc _ => False

/-- No transition with a character of the mask. -/
def noTrans (row : List (Nat × Nat × Nat)) (m : Nat) : Bool :=
  row.all fun x => Nat.beq (rangeMask x.1 x.2.1 &&& m) 0

theorem noTrans_sound {row : List (Nat × Nat × Nat)} {m : Nat} (h : noTrans row m = true)
    {c : WChar} (hc : inMask m c) : transition row c = none := by
  cases ht : transition row c with
  | none => rfl
  | some t =>
    obtain ⟨lo, hi, h1, h2⟩ := transition_mem ht
    have := List.all_eq_true.mp h _ h1
    have h0 : rangeMask lo hi &&& m = 0 := Nat.eq_of_beq_eq_true this
    cases c with
    | negSucc n => cases hc
    | ofNat n =>
      simp only [inRange, Bool.and_eq_true, decide_eq_true_eq] at h2
      have hb : (rangeMask lo hi &&& m).testBit (code n) = true := by
        rw [Nat.testBit_and, rangeMask_bit h2.1 h2.2]
        exact hc
      rw [h0] at hb
      simp at hb

/-- The first characters of the texts of an expression. -/
def Rx.heads (r : Rx) : Nat :=
  r.lf.foldl (fun m x => x.1.foldl (fun m y => m ||| rangeMask y.1 y.2) m) 0

theorem foldl_or_ranges {i : Nat} : ∀ (l : List (Nat × Nat)) (m : Nat),
    (m.testBit i = true ∨ ∃ y ∈ l, (rangeMask y.1 y.2).testBit i = true) →
    (l.foldl (fun m y => m ||| rangeMask y.1 y.2) m).testBit i = true
  | [], m, h => by
    rcases h with h | ⟨y, hy, _⟩
    · exact h
    · simp at hy
  | z :: l, m, h => by
    rw [List.foldl_cons]
    apply foldl_or_ranges l
    rcases h with h | ⟨y, hy, h⟩
    · exact .inl (by rw [Nat.testBit_or, h]; rfl)
    · rcases List.mem_cons.mp hy with rfl | hy
      · exact .inl (by rw [Nat.testBit_or, h]; simp)
      · exact .inr ⟨y, hy, h⟩

theorem Rx.heads_complete {r : Rx} {c : WChar} {v : List WChar} (h : r.Matches (c :: v)) :
    inMask r.heads c := by
  obtain ⟨x, hx, _, n, lo, hi, rfl, h1, h2, h3⟩ := Rx.lf_complete h rfl
  show (heads r).testBit (code n) = true
  unfold heads
  have key : ∀ (l : List (List (Nat × Nat) × Rx)) (m : Nat),
      (m.testBit (code n) = true ∨ x ∈ l) →
      (l.foldl (fun m x => x.1.foldl (fun m y => m ||| rangeMask y.1 y.2) m) m).testBit (code n)
        = true := by
    intro l
    induction l with
    | nil => intro m h; simpa using h
    | cons z l ih =>
      intro m h
      rw [List.foldl_cons]
      apply ih
      rcases h with h | h
      · exact .inl (foldl_or_ranges _ _ (.inl h))
      · rcases List.mem_cons.mp h with rfl | h
        · exact .inl (foldl_or_ranges _ _ (.inr ⟨(lo, hi), h1, rangeMask_bit h2 h3⟩))
        · exact .inr h
  exact key _ _ (.inr hx)

/-! ## Machines -/

/-- From all characters of the range the machine goes to states that satisfy `ok`. -/
def covers (row : List (Nat × Nat × Nat)) (ok : Nat → Bool) (lo hi : Nat) : Bool :=
  match row with
  | [] => decide (hi < lo)
  | (a, b, t) :: row =>
    if hi < a ∨ b < lo then covers row ok lo hi
    else ok t && (decide (a ≤ lo) || covers row ok lo (a - 1)) &&
      (decide (hi ≤ b) || covers row ok (b + 1) hi)

theorem covers_sound {ok : Nat → Bool} : ∀ {row : List (Nat × Nat × Nat)} {lo hi : Nat},
    covers row ok lo hi = true → ∀ {n : Nat}, lo ≤ n → n ≤ hi →
      ∃ t, transition row ((n : Nat) : Int) = some t ∧ ok t = true
  | [], lo, hi, h, n, h1, h2 => by simp [covers] at h; omega
  | (a, b, t) :: row, lo, hi, h, n, h1, h2 => by
    unfold covers at h
    unfold transition
    have hr : inRange ((n : Nat) : Int) a b = (decide (a ≤ n) && decide (n ≤ b)) := rfl
    rw [hr]
    split at h
    · rename_i ho
      have : ¬ (a ≤ n ∧ n ≤ b) := by omega
      rw [if_neg (by simpa using this)]
      exact covers_sound h h1 h2
    · simp only [Bool.and_eq_true, Bool.or_eq_true, decide_eq_true_eq] at h
      obtain ⟨⟨h3, h4⟩, h5⟩ := h
      by_cases hn : a ≤ n ∧ n ≤ b
      · rw [if_pos (by simpa using hn)]
        exact ⟨t, rfl, h3⟩
      · rw [if_neg (by simpa using hn)]
        by_cases ha : n < a
        · rcases h4 with h4 | h4
          · omega
          · exact covers_sound h4 h1 (by omega)
        · rcases h5 with h5 | h5
          · omega
          · exact covers_sound h5 (by omega) h2

/-- The machine, being in state `x.1` and having still to read a text of `x.2`, gets to pairs of the
list again, and at the end is in a state that accepts `s` and cannot go on with `stop`. -/
def pairOk (m : Machine) (s stop : Nat) (rel : List (Nat × Rx)) (x : Nat × Rx) : Bool :=
  match m[x.1]? with
  | none => false
  | some (row, a) =>
    (!x.2.nullable || (Nat.beq a (s + 1) && noTrans row stop)) &&
    x.2.lf.all fun y => y.1.all fun z =>
      covers row (fun t => rel.any fun w => Nat.beq w.1 t && decide (w.2 = y.2)) z.1 z.2

/-- Some target of the row from the range. -/
def firstTarget (row : List (Nat × Nat × Nat)) (lo hi : Nat) : List Nat :=
  row.filterMap fun x => if hi < x.1 ∨ x.2.1 < lo then none else some x.2.2

/-- The pairs that can be reached. -/
def explore (m : Machine) : Nat → List (Nat × Rx) → List (Nat × Rx) → List (Nat × Rx)
  | 0, _, seen => seen
  | _, [], seen => seen
  | fuel + 1, x :: todo, seen =>
    if seen.any fun w => Nat.beq w.1 x.1 && decide (w.2 = x.2) then explore m fuel todo seen
    else
      let row := ((m[x.1]?).map (·.1)).getD []
      explore m fuel
        (x.2.lf.foldl (fun l y => y.1.foldl (fun l z =>
          (firstTarget row z.1 z.2).map (fun t => (t, y.2)) ++ l) l) todo) (x :: seen)

/-- The check. -/
def sureOk (m : Machine) (s : Nat) (r : Rx) (stop : Nat) : Bool :=
  let rel := explore m 200 [(0, r)] []
  (rel.any fun w => Nat.beq w.1 0 && decide (w.2 = r)) && rel.all (pairOk m s stop rel)

theorem pairOk_run {m : Machine} {s stop : Nat} {rel : List (Nat × Rx)}
    (h : ∀ x ∈ rel, pairOk m s stop rel x = true) :
    ∀ (u : List WChar) (q : Nat) (r : Rx), (q, r) ∈ rel → r.Matches u →
      ∃ t row, dfaRun m q u = some t ∧ m[t]? = some (row, s + 1) ∧ noTrans row stop = true
  | [], q, r, hm, hr => by
    have := h _ hm
    unfold pairOk at this
    split at this
    · cases this
    · rename_i row a hq
      simp only [Bool.and_eq_true, Bool.or_eq_true, Rx.nullable_complete hr] at this
      rcases this.1 with h' | ⟨h1, h2⟩
      · cases h'
      · have ha : a = s + 1 := Nat.eq_of_beq_eq_true h1
        exact ⟨q, row, rfl, by rw [← ha]; exact hq, h2⟩
  | c :: u, q, r, hm, hr => by
    have := h _ hm
    unfold pairOk at this
    split at this
    · cases this
    · rename_i row a hq
      obtain ⟨x, hx, h1, n, lo, hi, rfl, h2, h3, h4⟩ := Rx.lf_complete hr rfl
      simp only [Bool.and_eq_true] at this
      have h5 := List.all_eq_true.mp (List.all_eq_true.mp this.2 x hx) _ h2
      obtain ⟨t, ht, h6⟩ := covers_sound h5 h3 h4
      rw [List.any_eq_true] at h6
      obtain ⟨w, hw, h7⟩ := h6
      simp only [Bool.and_eq_true, decide_eq_true_eq] at h7
      have h8 : w.1 = t := Nat.eq_of_beq_eq_true h7.1
      obtain ⟨t', row', h9, h10⟩ := pairOk_run h u t x.2 (by
        rw [← h8, ← h7.2]; exact hw) h1
      refine ⟨t', row', ?_, h10⟩
      unfold dfaRun
      simp only at hq
      rw [hq]
      simp only [ht]
      exact h9

theorem sureOk_sound {m : Machine} {s : Nat} {r : Rx} {stop : Nat}
    (h : sureOk m s r stop = true) {u : List WChar} (hu : r.Matches u) :
    ∃ t row, dfaRun m 0 u = some t ∧ m[t]? = some (row, s + 1) ∧
      ∀ c, inMask stop c → transition row c = none := by
  unfold sureOk at h
  simp only [Bool.and_eq_true, List.any_eq_true, decide_eq_true_eq] at h
  obtain ⟨⟨⟨w1, w2⟩, hw, h1, h2⟩, h3⟩ := h
  have h4 : w1 = 0 := Nat.eq_of_beq_eq_true h1
  have h2 : w2 = r := h2
  rw [h4, h2] at hw
  obtain ⟨t, row, h5, h6, h7⟩ := pairOk_run (List.all_eq_true.mp h3) u 0 r hw hu
  exact ⟨t, row, h5, h6, fun c hc => noTrans_sound h7 hc⟩

/-- The scanner stops at the end of the token. -/
theorem scanM_stop {m : Machine} {s : Nat} : ∀ (u rest : List WChar) (q len : Nat)
    (best : Option (Nat × Nat)) (t : Nat) (row : List (Nat × Nat × Nat)), u ≠ [] →
    dfaRun m q u = some t → m[t]? = some (row, s + 1) →
    (∀ c v, rest = c :: v → transition row c = none) →
    scanM m q (u ++ rest) len best = some (s, len + u.length)
  | [], _, _, _, _, _, _, h, _, _, _ => absurd rfl h
  | c :: u, rest, q, len, best, t, row, _, hr, ht, hs => by
    unfold dfaRun at hr
    rw [List.cons_append]
    unfold scanM
    cases hq : m[q]? with
    | none => rw [hq] at hr; cases hr
    | some x =>
      rw [hq] at hr
      obtain ⟨rw', a⟩ := x
      simp only at hr ⊢
      cases htr : transition rw' c with
      | none => rw [htr] at hr; cases hr
      | some t' =>
        rw [htr] at hr
        simp only at hr ⊢
        cases u with
        | nil =>
          simp only [dfaRun, Option.some.injEq] at hr
          subst hr
          rw [ht]
          simp only [List.nil_append]
          have hacc : accepted (s + 1) len best = some (s, len + 1) := by
            unfold accepted; rw [if_pos (by omega)]; simp
          rw [hacc]
          cases rest with
          | nil => rfl
          | cons d v =>
            unfold scanM
            rw [ht]
            simp only [hs d v rfl]
            rfl
        | cons d u =>
          cases ht' : m[t']? with
          | none => unfold dfaRun at hr; rw [ht'] at hr; cases hr
          | some y =>
            simp only
            rw [scanM_stop (d :: u) rest t' (len + 1) _ t row (by simp) hr ht hs]
            simp only [List.length_cons]
            congr 2; omega

end Cnars.Parser
