import Verif.Parser.SkipTotal
import Verif.Parser.Session
import Verif.Props.Parsing

/-!
# C71: the value of `error_delay`

The member is not initialised (Parser.cpp:6-10).  Which values it can have is not known, and it is counted down at every shift,
from one call to the next.
-/

namespace Cnars.Props
open Cnars Parser

/-! ### Where it makes no difference -/

/-- C71, for lines of Narsese without tabs: whatever is in `error_delay`, and whatever was parsed before, such a line is parsed
in the same way, with the same tree, the same use of memory and the same number of rounds.  Missing: lines that are not
Narsese, which may be accepted. -/
theorem C71_narsese_partial {b : Buf} (hb : ReachedAny b) {text : List WChar} {a : List Ast} (h : IsNarsese (firstLine text) a)
    (h9 : (9 : WChar) ∉ firstLine text) (strict : Bool) (fuel d : Nat) :
    parseText strict fuel b text d = parseText strict fuel b text 0 :=
  parseText_anyDelay hb.empty h h9 strict fuel d

/-- So such a line is accepted with its one tree, whatever is in `error_delay`, and with no other.  Missing: as before. -/
theorem C71_tree_partial {b : Buf} (hb : ReachedAny b) {text : List WChar} {a : List Ast} (h : IsNarsese (firstLine text) a)
    (hm : Ast.meantAll a = true) (h9 : (9 : WChar) ∉ firstLine text) (d : Nat) {fuel : Nat}
    (hf : 24 * (firstLine text).length + 6 ≤ fuel) : ∃ scan, parseText false fuel b text d = .ok ⟨some a, 0, scan⟩ := by
  rw [parseText_anyDelay hb.empty h h9 false fuel d]
  exact (parseText_iff hb.empty (by omega) hf h9 a).mpr ⟨h, hm⟩

/-- The same for tasks: what `parse_task` returns and what it leaves behind. -/
theorem C71_task_partial {s : Session} (hb : ReachedAny s.buf) {text : List WChar} {a : List Ast}
    (h : IsNarsese (firstLine text) a) (h9 : (9 : WChar) ∉ firstLine text) (M : Mach) (bad : Act Val) (strict : Bool)
    (fuel d : Nat) : parseTask M bad strict fuel d s text = parseTask M bad strict fuel 0 s text := by
  unfold parseTask
  rw [C71_narsese_partial hb h h9 strict fuel d]

/-- C71, for histories: a program that reads only lines of Narsese without tabs gets the same trees whatever was in
`error_delay` at the beginning. -/
theorem C71_sentences_partial (strict : Bool) {b : Buf} (hb : ReachedAny b) (ls : List (List WChar × Nat))
    (h : ∀ x ∈ ls, (∃ a, IsNarsese (firstLine x.1) a) ∧ (9 : WChar) ∉ firstLine x.1) (d : Nat) :
    syntaxTrees strict b d ls = syntaxTrees strict b 0 ls := by
  have hb' := hb.empty
  clear hb
  rename BufIs b [] => hb
  induction ls generalizing b d with
  | nil => rfl
  | cons x ls ih =>
    obtain ⟨text, fuel⟩ := x
    obtain ⟨⟨a, ha⟩, h9⟩ := h (text, fuel) (by simp)
    have hp := parseText_anyDelay hb ha h9 strict fuel d
    have h0 : ∀ r, parseText strict fuel b text 0 = .ok r → BufIs r.scan.buf [] :=
      fun r hr => (parseText_ok hb (by omega : 0 < 3) hr).1
    unfold parseText at hp h0
    rw [parse_parseD, parse_parseD] at hp
    rw [parse_parseD] at h0
    have ih' := fun b hb d => ih (b := b) (fun x hx => h x (by simp [hx])) d hb
    rw [syntaxTrees, syntaxTrees]
    revert hp h0
    cases parseD narsese strict fuel ⟨b, fill text, false⟩ d with
    | ok x =>
      cases parseD narsese strict fuel ⟨b, fill text, false⟩ 0 with
      | ok x' =>
        obtain ⟨r, d1⟩ := x
        obtain ⟨r', d2⟩ := x'
        simp only [Res.ok_bind, Res.ok.injEq]
        rintro rfl h0
        have hr := h0 r rfl
        rw [ih' _ hr d1, ih' _ hr d2]
      | throw m => intro hp; cases hp
      | ub => intro hp; cases hp
      | outOfFuel => intro hp; cases hp
    | throw m =>
      cases parseD narsese strict fuel ⟨b, fill text, false⟩ 0 <;> intro hp <;> cases hp <;> intro _ <;> rfl
    | ub =>
      cases parseD narsese strict fuel ⟨b, fill text, false⟩ 0 <;> intro hp <;> cases hp <;> intro _ <;> rfl
    | outOfFuel =>
      cases parseD narsese strict fuel ⟨b, fill text, false⟩ 0 <;> intro hp <;> cases hp <;> intro _ <;> rfl

/-- `A.` is such a line. -/
example : ∃ a, IsNarsese (firstLine (bytes ['A', '.'])) a ∧ Ast.meantAll a = true ∧ (9 : WChar) ∉ firstLine (bytes ['A', '.']) := by
  have h : accepted? (parseText false 100 freshBuf (bytes ['A', '.']) 0) = true := by decide +kernel
  have h9 : (9 : WChar) ∉ firstLine (bytes ['A', '.']) := by decide +kernel
  have hl : 24 * (firstLine (bytes ['A', '.'])).length + 6 ≤ 100 := by decide +kernel
  obtain ⟨scan, _, hs⟩ := parseText_spec Reached.fresh.empty (bytes ['A', '.']) (by omega : 0 < 3) hl
  rcases hs with ⟨t, _, _, _, _, h5⟩ | ⟨_, h5⟩
  · have h6 := (parseText_iff Reached.fresh.empty (by omega) hl h9 _).mp ⟨scan, h5⟩
    exact ⟨_, h6.1, h6.2, h9⟩
  · rw [h5] at h; cases h

/-- C71, for any lines and values that are not near 3: a value that is below 3, or that is not counted down to 3 within the given
number of rounds, makes no difference to what a program gets that reads any lines. Missing: other values. -/
theorem C71_large_delay_partial (strict : Bool) (b : Buf) (ls : List (List WChar × Nat)) {d d' : Nat}
    (hd : d < 3 ∨ (ls.map Prod.snd).sum + 3 < d) (hd' : d' < 3 ∨ (ls.map Prod.snd).sum + 3 < d') :
    syntaxTrees strict b d ls = syntaxTrees strict b d' ls :=
  syntaxTrees_delay strict ls b hd hd'

/-- The rejected `)A.`, twice, with 0 and with 2147483647. -/
example : (2147483647 < 3 ∨ ([(bytes [')', 'A', '.'], 100), (bytes [')', 'A', '.'], 100)].map Prod.snd).sum + 3 < 2147483647) := by
  decide

/-! ### How much difference it makes -/

/-- C71, for any line and any value: what is accepted is a line of Narsese with at most one piece put in somewhere, and the syntax
tree is that of the line without the piece.  Missing: the piece is not always empty. -/
theorem C71_piece_partial {b : Buf} (hb : ReachedAny b) {text : List WChar} {strict : Bool} {fuel d : Nat} {r : Parsed}
    {a : List Ast} (h : parseText strict fuel b text d = .ok r) (ha : r.ast = some a) :
    ∃ before piece after, firstLine text = before ++ piece ++ after ∧ IsNarsese (before ++ after) a := by
  obtain ⟨_, ⟨x, y, z, h1, rfl⟩, h2⟩ := parseText_without hb.empty h ha
  exact ⟨x, y, z, h1, h2⟩

/-- C71, for any line and any value: the call ends, with nothing undefined if the memory is unlimited.  Missing: the tree. -/
theorem C71_ends_partial {b : Buf} (hb : ReachedAny b) (text : List WChar) (d : Nat) {fuel : Nat}
    (hf : 24 * (firstLine text).length + 6 ≤ fuel) : ∃ r, parseText false fuel b text d = .ok r := by
  obtain ⟨r, h, _⟩ := parseText_ends hb.empty text d hf
  exact ⟨r, h⟩

/-- `)A.` is accepted with 3; the buffer left by it is among those meant. -/
example : ∃ r a, parseText true 100 freshBuf (bytes [')', 'A', '.']) 3 = .ok r ∧ r.ast = some a ∧ ReachedAny r.scan.buf := by
  have h := C71_error_delay_counterexample.2
  unfold accepted? at h
  split at h
  · rename_i r hr
    obtain ⟨a, ha⟩ := Option.isSome_iff_exists.mp h
    exact ⟨r, a, hr, ha, .next .fresh hr⟩
  · cases h

/-! ### Where it makes a difference -/

/-- What is left in the buffer after `A.`. -/
def afterA : Buf := { cells := [some 0, none, none], cap := 129, size := 0 }

/-- `A.` is accepted, and `afterA` and the given value remain. -/
def readsA (x : Res (Parsed × Nat)) (d : Nat) : Bool :=
  match x with
  | .ok (r, d') => r.ast.isSome && decide (r.scan.buf = afterA) && Nat.beq d' d
  | _ => false

/-- Read `A.`. -/
def lineA (b : Buf) (d : Nat) : Res (Parsed × Nat) := parseD narsese true 27 ⟨b, fill (bytes ['A', '.']), false⟩ d

theorem lineA_fresh : ((List.range 25).all fun i => readsA (lineA freshBuf (i + 6)) (i + 3)) = true := by decide +kernel
theorem lineA_after : ((List.range 25).all fun i => readsA (lineA afterA (i + 6)) (i + 3)) = true := by decide +kernel
theorem lineA_fresh0 : readsA (lineA freshBuf 0) 0 = true := by decide +kernel
theorem lineA_after0 : readsA (lineA afterA 0) 0 = true := by decide +kernel
theorem lineA_freshBig : readsA (lineA freshBuf 50) 47 = true := by decide +kernel
theorem lineA_afterBig : readsA (lineA afterA 50) 47 = true := by decide +kernel

theorem readsA_elim {x : Res (Parsed × Nat)} {d : Nat} (h : readsA x d = true) :
    ∃ r, x = .ok (r, d) ∧ r.scan.buf = afterA := by
  unfold readsA at h
  split at h
  · rename_i r d'
    simp only [Bool.and_eq_true, decide_eq_true_eq] at h
    have : d' = d := Nat.eq_of_beq_eq_true h.2
    subst this
    exact ⟨r, rfl, h.1.2⟩
  · cases h

/-- `A.` takes 3 off a value of at least 6. -/
theorem lineA_takes {b : Buf} (hb : b = freshBuf ∨ b = afterA) {d : Nat} (hd : 6 ≤ d) :
    ∃ r, lineA b d = .ok (r, d - 3) ∧ r.scan.buf = afterA := by
  have hs : ∀ i < 25, readsA (lineA b (i + 6)) (i + 3) = true := by
    intro i hi
    rcases hb with rfl | rfl
    · exact List.all_eq_true.mp lineA_fresh i (List.mem_range.mpr hi)
    · exact List.all_eq_true.mp lineA_after i (List.mem_range.mpr hi)
  have hl : readsA (lineA b 50) 47 = true := by
    rcases hb with rfl | rfl
    · exact lineA_freshBig
    · exact lineA_afterBig
  by_cases h : d ≤ 30
  · obtain ⟨i, rfl⟩ : ∃ i, d = i + 6 := ⟨d - 6, by omega⟩
    exact readsA_elim (hs i (by omega))
  · obtain ⟨r, h1, h2⟩ := readsA_elim hl
    have := parseD_like narsese true 27 ⟨b, fill (bytes ['A', '.']), false⟩ (x := 50) (y := d) (by unfold Remote; omega)
      (by unfold Remote; omega)
    have h1' : parseD narsese true 27 ⟨b, fill (bytes ['A', '.']), false⟩ 50 = .ok (r, 47) := h1
    rw [h1'] at this
    unfold lineA
    revert this
    cases parseD narsese true 27 ⟨b, fill (bytes ['A', '.']), false⟩ d with
    | ok y =>
      rintro ⟨h3, k, hk, h4, h5⟩
      obtain ⟨r', d'⟩ := y
      simp only at h3 h4 h5
      subst h3
      have : k = 3 := by omega
      subst this
      exact ⟨r, by rw [h5], h2⟩
    | throw m => simp [Res.Rel]
    | ub => simp [Res.Rel]
    | outOfFuel => simp [Res.Rel]

theorem lineA_zero {b : Buf} (hb : b = freshBuf ∨ b = afterA) : ∃ r, lineA b 0 = .ok (r, 0) ∧ r.scan.buf = afterA := by
  rcases hb with rfl | rfl
  · exact readsA_elim lineA_fresh0
  · exact readsA_elim lineA_after0

/-- `)A.` after some blanks. -/
def blankedLine (r : Nat) : List WChar := List.replicate r 32 ++ bytes [')', 'A', '.']

theorem blanked_accepted : ((List.range 3).all fun r => accepted? (parseText true 100 freshBuf (blankedLine r) (r + 3)) &&
    accepted? (parseText true 100 afterA (blankedLine r) (r + 3))) = true := by decide +kernel
theorem blanked_rejected : ((List.range 3).all fun r => rejected? (parseText true 100 freshBuf (blankedLine r) 0) &&
    rejected? (parseText true 100 afterA (blankedLine r) 0)) = true := by decide +kernel

/-- Lines `A.`, and one more. -/
def blankedHistory (n r : Nat) : List (List WChar × Nat) :=
  List.replicate n (bytes ['A', '.'], 27) ++ [(blankedLine r, 100)]

theorem one_line {b : Buf} {text : List WChar} {fuel d : Nat} {p : Parsed} (h : parseText true fuel b text d = .ok p) :
    syntaxTrees true b d [(text, fuel)] = .ok [p.ast] := by
  unfold parseText at h
  rw [parse_parseD] at h
  rw [syntaxTrees]
  revert h
  cases parseD narsese true fuel ⟨b, fill text, false⟩ d with
  | ok x =>
    simp only [Res.ok_bind, Res.ok.injEq]
    rintro rfl
    rfl
  | throw m => intro h; cases h
  | ub => intro h; cases h
  | outOfFuel => intro h; cases h

theorem history_accepted {r : Nat} (hr : r < 3) : ∀ (n : Nat) (b : Buf), b = freshBuf ∨ b = afterA →
    ∃ xs a, xs.length = n ∧ syntaxTrees true b (3 * n + r + 3) (blankedHistory n r) = .ok (xs ++ [some a])
  | 0, b, hb => by
    have h := List.all_eq_true.mp blanked_accepted r (List.mem_range.mpr hr)
    rw [Bool.and_eq_true] at h
    have h : accepted? (parseText true 100 b (blankedLine r) (r + 3)) = true := by
      rcases hb with rfl | rfl
      · exact h.1
      · exact h.2
    unfold accepted? at h
    split at h
    · rename_i p hp
      obtain ⟨a, ha⟩ := Option.isSome_iff_exists.mp h
      refine ⟨[], a, rfl, ?_⟩
      have := one_line hp
      rw [ha] at this
      simpa [blankedHistory] using this
    · cases h
  | n + 1, b, hb => by
    obtain ⟨p, h1, h2⟩ := lineA_takes hb (d := 3 * (n + 1) + r + 3) (by omega)
    obtain ⟨xs, a, h3, h4⟩ := history_accepted hr n afterA (.inr rfl)
    refine ⟨p.ast :: xs, a, by simp [h3], ?_⟩
    unfold lineA at h1
    have e : 3 * (n + 1) + r + 3 - 3 = 3 * n + r + 3 := by omega
    have e' : blankedHistory (n + 1) r = (bytes ['A', '.'], 27) :: blankedHistory n r := by
      unfold blankedHistory; rw [List.replicate_succ]; rfl
    rw [e', syntaxTrees, h1, e]
    simp only [Res.ok_bind, h2, h4]
    rfl

theorem history_rejected {r : Nat} (hr : r < 3) : ∀ (n : Nat) (b : Buf), b = freshBuf ∨ b = afterA →
    ∃ xs, xs.length = n ∧ syntaxTrees true b 0 (blankedHistory n r) = .ok (xs ++ [none])
  | 0, b, hb => by
    have h := List.all_eq_true.mp blanked_rejected r (List.mem_range.mpr hr)
    rw [Bool.and_eq_true] at h
    have h : rejected? (parseText true 100 b (blankedLine r) 0) = true := by
      rcases hb with rfl | rfl
      · exact h.1
      · exact h.2
    unfold rejected? at h
    split at h
    · rename_i p hp
      refine ⟨[], rfl, ?_⟩
      have := one_line hp
      rw [Option.isNone_iff_eq_none.mp h] at this
      simpa [blankedHistory] using this
    · cases h
  | n + 1, b, hb => by
    obtain ⟨p, h1, h2⟩ := lineA_zero hb
    obtain ⟨xs, h3, h4⟩ := history_rejected hr n afterA (.inr rfl)
    refine ⟨p.ast :: xs, by simp [h3], ?_⟩
    unfold lineA at h1
    have e' : blankedHistory (n + 1) r = (bytes ['A', '.'], 27) :: blankedHistory n r := by
      unfold blankedHistory; rw [List.replicate_succ]; rfl
    rw [e', syntaxTrees, h1]
    simp only [Res.ok_bind, h2, h4]
    rfl

/-- C71 is false for every value from 3 on, not only for 3: there are lines, all but the last the sentence `A.`, after which a
line is accepted that a parser with 0 in `error_delay` rejects. -/
theorem C71_every_delay_counterexample (d : Nat) (hd : 3 ≤ d) : ∃ (n : Nat) (line : List WChar) (xs ys : List (Option (List Ast)))
    (a : List Ast), xs.length = n ∧ ys.length = n ∧
      syntaxTrees true freshBuf d (List.replicate n (bytes ['A', '.'], 27) ++ [(line, 100)]) = .ok (xs ++ [some a]) ∧
      syntaxTrees true freshBuf 0 (List.replicate n (bytes ['A', '.'], 27) ++ [(line, 100)]) = .ok (ys ++ [none]) := by
  have hr : (d - 3) % 3 < 3 := Nat.mod_lt _ (by omega)
  obtain ⟨xs, a, h1, h2⟩ := history_accepted hr ((d - 3) / 3) freshBuf (.inl rfl)
  obtain ⟨ys, h3, h4⟩ := history_rejected hr ((d - 3) / 3) freshBuf (.inl rfl)
  have e : 3 * ((d - 3) / 3) + (d - 3) % 3 + 3 = d := by omega
  rw [e] at h2
  exact ⟨_, blankedLine ((d - 3) % 3), xs, ys, a, h1, h3, h2, h4⟩

end Cnars.Props
