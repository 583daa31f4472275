import Verif.Parser.IntDelay
import Verif.Props.Delay

/-!
# C71: all values of `error_delay`
-/

namespace Cnars.Props
open Cnars Cnars.Parser

/-- C71, for the member as an `int`, not negative: the model with natural numbers is right about it. -/
theorem C71_int_partial (strict : Bool) (b : Buf) (d : Nat) (ls : List (List WChar × Nat)) :
    syntaxTreesI strict b d ls = syntaxTrees strict b d ls :=
  syntaxTreesI_nat strict ls b d

/-- C71, for negative values: they make no difference as long as the rounds are fewer than the numbers below.  Missing: later the
member overflows (`C71_negative_counterexample`). -/
theorem C71_negative_partial (strict : Bool) (b : Buf) {d : Int} (h0 : d < 0) (ls : List (List WChar × Nat))
    (hf : -2147483648 + (((ls.map Prod.snd).sum : Nat) : Int) ≤ d) :
    syntaxTreesI strict b d ls = syntaxTreesI strict b 0 ls := by
  rw [syntaxTreesI_neg strict ls b d 0 h0 hf (by omega)]
  exact (syntaxTreesI_nat strict ls b 0).symm

/-- The rejected `)A.`, twice, with -1. -/
example : (-1 : Int) < 0 ∧ -2147483648 + ((([(bytes [')', 'A', '.'], 100), (bytes [')', 'A', '.'], 100)].map Prod.snd).sum : Nat) : Int)
    ≤ -1 := by decide

/-! ### Counting down from a negative value -/

/-- Read `A.`. -/
def lineI (b : Buf) (d : Int) : Res (Parsed × Int) := parseI narsese true 27 ⟨b, fill (bytes ['A', '.']), false⟩ d

/-- `A.` is accepted, and `afterA` and the given value remain. -/
def readsI (x : Res (Parsed × Int)) (d : Int) : Bool :=
  match x with
  | .ok (r, d') => r.ast.isSome && decide (r.scan.buf = afterA) && decide (d' = d)
  | _ => false

/-- Undefined. -/
def lineUb {α : Type} (x : Res α) : Bool :=
  match x with
  | .ub => true
  | _ => false

theorem lineI_fresh : ((List.range 24).all fun i => readsI (lineI freshBuf ((i : Int) - 2147483645)) ((i : Int) - 2147483648)) = true := by
  decide +kernel
theorem lineI_after : ((List.range 24).all fun i => readsI (lineI afterA ((i : Int) - 2147483645)) ((i : Int) - 2147483648)) = true := by
  decide +kernel
theorem lineI_freshUb : ((List.range 3).all fun i => lineUb (lineI freshBuf ((i : Int) - 2147483648))) = true := by decide +kernel
theorem lineI_afterUb : ((List.range 3).all fun i => lineUb (lineI afterA ((i : Int) - 2147483648))) = true := by decide +kernel

theorem readsI_elim {x : Res (Parsed × Int)} {d : Int} (h : readsI x d = true) :
    ∃ r, x = .ok (r, d) ∧ r.scan.buf = afterA := by
  unfold readsI at h
  split at h
  · rename_i r d'
    simp only [Bool.and_eq_true, decide_eq_true_eq] at h
    obtain ⟨⟨_, h1⟩, rfl⟩ := h
    exact ⟨r, rfl, h1⟩
  · cases h

theorem lineUb_elim {α : Type} {x : Res α} (h : lineUb x = true) : x = .ub := by
  unfold lineUb at h
  split at h
  · rfl
  · cases h

/-- `A.` takes 3 off a negative value … -/
theorem lineI_takes {b : Buf} (hb : b = freshBuf ∨ b = afterA) {d : Int} (h0 : d < 0) (hd : -2147483645 ≤ d) :
    ∃ r, lineI b d = .ok (r, d - 3) ∧ r.scan.buf = afterA := by
  by_cases h : d < -2147483621
  · have hs : ∀ i : Nat, i < 24 → readsI (lineI b ((i : Int) - 2147483645)) ((i : Int) - 2147483648) = true := by
      intro i hi
      rcases hb with rfl | rfl
      · exact List.all_eq_true.mp lineI_fresh i (List.mem_range.mpr hi)
      · exact List.all_eq_true.mp lineI_after i (List.mem_range.mpr hi)
    have := hs (d + 2147483645).toNat (by omega)
    have e : (((d + 2147483645).toNat : Nat) : Int) = d + 2147483645 := Int.toNat_of_nonneg (by omega)
    rw [e] at this
    have e1 : d + 2147483645 - 2147483645 = d := by omega
    have e2 : d + 2147483645 - 2147483648 = d - 3 := by omega
    rw [e1, e2] at this
    exact readsI_elim this
  · have hl : readsA (lineA b 50) 47 = true := by
      rcases hb with rfl | rfl
      · exact lineA_freshBig
      · exact lineA_afterBig
    obtain ⟨r, h1, h2⟩ := readsA_elim hl
    have := parseI_neg narsese true 27 ⟨b, fill (bytes ['A', '.']), false⟩ (d := d) (y := 50) h0 (by omega)
      (by unfold Remote; omega)
    have h1' : parseD narsese true 27 ⟨b, fill (bytes ['A', '.']), false⟩ 50 = .ok (r, 47) := h1
    rw [h1'] at this
    unfold lineI
    revert this
    cases parseI narsese true 27 ⟨b, fill (bytes ['A', '.']), false⟩ d with
    | ok y =>
      rintro ⟨h3, k, hk, h4, h5⟩
      obtain ⟨r', d'⟩ := y
      simp only at h3 h4 h5
      subst h3
      have : k = 3 := by omega
      subst this
      exact ⟨r', by rw [h4]; rfl, h2⟩
    | throw m => simp [Res.Rel]
    | ub => simp [Res.Rel]
    | outOfFuel => simp [Res.Rel]

/-- … if it can. -/
theorem lineI_ub {b : Buf} (hb : b = freshBuf ∨ b = afterA) {d : Int} (h0 : -2147483648 ≤ d) (hd : d < -2147483645) :
    lineI b d = .ub := by
  have hs : ∀ i : Nat, i < 3 → lineUb (lineI b ((i : Int) - 2147483648)) = true := by
    intro i hi
    rcases hb with rfl | rfl
    · exact List.all_eq_true.mp lineI_freshUb i (List.mem_range.mpr hi)
    · exact List.all_eq_true.mp lineI_afterUb i (List.mem_range.mpr hi)
  have := hs (d + 2147483648).toNat (by omega)
  have e : (((d + 2147483648).toNat : Nat) : Int) = d + 2147483648 := Int.toNat_of_nonneg (by omega)
  rw [e] at this
  have e1 : d + 2147483648 - 2147483648 = d := by omega
  rw [e1] at this
  exact lineUb_elim this

theorem overflow : ∀ (n : Nat) (b : Buf), b = freshBuf ∨ b = afterA → ∀ (d : Int), d < 0 →
    -2147483648 + 3 * (n : Int) ≤ d → d < -2147483645 + 3 * (n : Int) →
    syntaxTreesI true b d (List.replicate (n + 1) (bytes ['A', '.'], 27)) = .ub
  | 0, b, hb, d, h0, h1, h2 => by
    have := lineI_ub hb (d := d) (by omega) (by omega)
    unfold lineI at this
    rw [List.replicate_succ, syntaxTreesI, this]
    rfl
  | n + 1, b, hb, d, h0, h1, h2 => by
    obtain ⟨r, h3, h4⟩ := lineI_takes hb (d := d) h0 (by omega)
    unfold lineI at h3
    rw [List.replicate_succ, syntaxTreesI, h3]
    simp only [Res.ok_bind, h4]
    rw [overflow n afterA (.inr rfl) (d - 3) (by omega) (by omega) (by omega)]
    rfl

theorem linesA_ok : ∀ (n : Nat) (b : Buf), b = freshBuf ∨ b = afterA →
    ∃ xs, syntaxTrees true b 0 (List.replicate n (bytes ['A', '.'], 27)) = .ok xs ∧ xs.length = n
  | 0, b, hb => ⟨[], rfl, rfl⟩
  | n + 1, b, hb => by
    obtain ⟨r, h1, h2⟩ := lineA_zero hb
    obtain ⟨xs, h3, h4⟩ := linesA_ok n afterA (.inr rfl)
    unfold lineA at h1
    refine ⟨r.ast :: xs, ?_, by simp [h4]⟩
    rw [List.replicate_succ, syntaxTrees, h1]
    simp only [Res.ok_bind, h2, h3]

/-- C71 is false for every negative value: after some number of lines `A.` the member is counted down from -2^31, which is
undefined, while a parser with 0 in the member reads them all. -/
theorem C71_negative_counterexample (d : Int) (h0 : d < 0) (hd : -2147483648 ≤ d) : ∃ (n : Nat) (xs : List (Option (List Ast))),
    syntaxTreesI true freshBuf d (List.replicate n (bytes ['A', '.'], 27)) = .ub ∧
    syntaxTreesI true freshBuf 0 (List.replicate n (bytes ['A', '.'], 27)) = .ok xs ∧ xs.length = n := by
  have hn : ∃ n : Nat, -2147483648 + 3 * (n : Int) ≤ d ∧ d < -2147483645 + 3 * (n : Int) :=
    ⟨((d + 2147483648) / 3).toNat, by omega, by omega⟩
  obtain ⟨n, h1, h2⟩ := hn
  obtain ⟨xs, h3, h4⟩ := linesA_ok (n + 1) freshBuf (.inl rfl)
  refine ⟨n + 1, xs, overflow n freshBuf (.inl rfl) d h0 h1 h2, ?_, h4⟩
  rw [← h3]
  exact syntaxTreesI_nat true _ freshBuf 0

/-- C71, exactly: of all values an `int` can have, 0, 1 and 2 are those with which a new parser gives, for all lines, what it gives
with 0.  Missing: that the constructor sets one of these. -/
theorem C71_exact_partial (d : Int) (hd : -2147483648 ≤ d) :
    (∀ strict ls, syntaxTreesI strict freshBuf d ls = syntaxTreesI strict freshBuf 0 ls) ↔ 0 ≤ d ∧ d < 3 := by
  constructor
  · intro h
    by_cases h0 : d < 0
    · obtain ⟨n, xs, h1, h2, _⟩ := C71_negative_counterexample d h0 hd
      have := h true (List.replicate n (bytes ['A', '.'], 27))
      rw [h1, h2] at this
      cases this
    · obtain ⟨y, rfl⟩ : ∃ y : Nat, d = y := ⟨d.toNat, by omega⟩
      by_cases h3 : y < 3
      · omega
      · obtain ⟨n, line, xs, ys, a, h1, h2, h4, h5⟩ := C71_every_delay_counterexample y (by omega)
        have := h true (List.replicate n (bytes ['A', '.'], 27) ++ [(line, 100)])
        rw [syntaxTreesI_nat, h4] at this
        have e := syntaxTreesI_nat true (List.replicate n (bytes ['A', '.'], 27) ++ [(line, 100)]) freshBuf 0
        rw [h5] at e
        have e' : syntaxTreesI true freshBuf 0 (List.replicate n (bytes ['A', '.'], 27) ++ [(line, 100)]) = .ok (ys ++ [none]) := e
        rw [e'] at this
        have := congrArg List.getLast? (Res.ok.inj this)
        simp at this
  · rintro ⟨h0, h3⟩ strict ls
    obtain ⟨y, rfl⟩ : ∃ y : Nat, d = y := ⟨d.toNat, by omega⟩
    have e := syntaxTreesI_nat strict ls freshBuf 0
    have e' : syntaxTreesI strict freshBuf 0 ls = syntaxTrees strict freshBuf 0 ls := e
    rw [syntaxTreesI_nat, e']
    exact syntaxTrees_delay strict ls freshBuf (.inl (by omega)) (.inl (by omega))

/-- Both sides occur. -/
example : (0 ≤ (2 : Int) ∧ (2 : Int) < 3) ∧ ¬ (0 ≤ (-1 : Int) ∧ (-1 : Int) < 3) := by decide

end Cnars.Props
