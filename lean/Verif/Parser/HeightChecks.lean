import Verif.Parser.Height
import Verif.Parser.HeightCerts
import Verif.Parser.Checks

/-!
# The height of the stack and the length of tokens, for the Narsese parser

Helper lemmas; the theorems are in `Props/Parsing.lean`.
-/

namespace Cnars.Parser

theorem narsese_height : HeightOk narsese 3 capTable := by
  unfold HeightOk
  decide +kernel

/-- A tree whose syntax tree is not nested too deeply is not too high. -/
theorem height_of_depth {P : Nat → List WChar → Prop} {t : PTree} (hv : t.Valid narsese P)
    (hr : t.root narsese = goalSym) (hd : Ast.depths (t.ast narsese) ≤ 41) : t.height ≤ 127 := by
  have h := height_depth narsese_height hv
  have h2 : capOf capTable goalSym = 4 := by decide +kernel
  rw [hr, h2] at h
  omega

/-- The blank and the characters that occur in connectors, copulas and brackets: the printable
characters other than letters, digits, `_`, `'`, the backquote and the dot. -/
def delimiters : List WChar :=
  " !\"#$%&()*+,-/:;<=>?@[\\]^{|}~".toList.map (fun c => (c.toNat : Int))

/-- The levels of one machine. -/
def LevelsOk (m : Machine) (d : List Nat) : Prop :=
  (d[0]?).getD 9 ≤ 3 ∧ ∀ q < m.length, (d[q]?).getD 9 ≤ 3 →
    ∀ x ∈ ((m[q]?).map (·.1)).getD [], (x.1 = 34 ∧ x.2.1 = 34) ∨
      ((d[q]?).getD 9 = 0 ∧ (d[x.2.2]?).getD 9 = 0 ∧ ∀ c ∈ delimiters, inRange c x.1 x.2.1 = false) ∨
      (d[x.2.2]?).getD 9 + 1 ≤ (d[q]?).getD 9

instance (m : Machine) (d : List Nat) : Decidable (LevelsOk m d) := by
  unfold LevelsOk; infer_instance

theorem narsese_levels : ∀ k < narsese.dfas.length,
    LevelsOk ((narsese.dfas[k]?).getD []) ((levelTable[k]?).getD []) := by
  decide +kernel

/-- What a machine reads without a quotation mark: a few characters, then no delimiters. -/
theorem run_split {m : Machine} {d : List Nat} (h : LevelsOk m d) :
    ∀ (w : List WChar) (q t : Nat), dfaRun m q w = some t → (34 : WChar) ∉ w →
      (d[q]?).getD 9 ≤ 3 →
      ∃ u v, w = u ++ v ∧ u.length ≤ (d[q]?).getD 9 ∧ ∀ c ∈ v, c ∉ delimiters
  | [], _, _, _, _, _ => ⟨[], [], rfl, by simp, by simp⟩
  | c :: w, q, t, hr, hq, hd => by
    simp only [dfaRun] at hr
    cases hm : m[q]? with
    | none => rw [hm] at hr; simp at hr
    | some r =>
      rw [hm] at hr
      simp only at hr
      cases ht : transition r.1 c with
      | none => rw [ht] at hr; simp at hr
      | some t1 =>
        rw [ht] at hr
        simp only at hr
        obtain ⟨lo, hi, hx, hc⟩ := transition_mem ht
        have hql : q < m.length := (List.getElem?_eq_some_iff.mp hm).1
        have h1 := h.2 q hql hd (lo, hi, t1) (by rw [hm]; exact hx)
        simp only at h1
        rcases h1 with ⟨h1, h2⟩ | ⟨h1, h2, h3⟩ | h1
        · exfalso
          subst h1 h2
          apply hq
          unfold inRange at hc
          split at hc
          · simp only [Bool.and_eq_true, decide_eq_true_eq] at hc
            rename_i n
            have : n = 34 := by omega
            subst this
            exact List.mem_cons_self
          · simp at hc
        · obtain ⟨u, v, h4, h5, h6⟩ := run_split h w t1 t hr (fun h' => hq (by simp [h'])) (by omega)
          rw [h2] at h5
          have hu : u = [] := List.eq_nil_of_length_eq_zero (by omega)
          subst hu
          refine ⟨[], c :: v, by simpa using h4, by simp, ?_⟩
          intro x hx
          rcases List.mem_cons.mp hx with rfl | hx
          · intro hdel
            rw [h3 _ hdel] at hc
            simp at hc
          · exact h6 x hx
        · obtain ⟨u, v, h4, h5, h6⟩ := run_split h w t1 t hr (fun h' => hq (by simp [h'])) (by omega)
          exact ⟨c :: u, v, by simp [h4], by simp; omega, h6⟩

/-- The line has no quotation mark, and never more than 120 characters in a row without a delimiter. -/
def ShortTokens (line : List WChar) : Prop :=
  (34 : WChar) ∉ line ∧ ∀ pre run post, line = pre ++ run ++ post → (∀ c ∈ run, c ∉ delimiters) →
    run.length ≤ 120

/-- With short tokens the scanner never looks at more than 127 characters. -/
theorem spare_of_runs {text : List WChar} (hs : ShortTokens text) (k : Nat) :
    Spare narsese (text.drop k) := by
  obtain ⟨hq, hr⟩ := hs
  intro m hm n hn hne
  obtain ⟨i, hi⟩ := List.getElem?_of_mem hm
  have hil : i < narsese.dfas.length := (List.getElem?_eq_some_iff.mp hi).1
  have hl := narsese_levels i hil
  rw [hi] at hl
  simp only [Option.getD_some] at hl
  cases ht : dfaRun m 0 ((text.drop k).take n) with
  | none => exact absurd ht hne
  | some t =>
    obtain ⟨u, v, h1, h2, h3⟩ := run_split hl _ 0 t ht
      (fun h => hq (List.mem_of_mem_drop (List.mem_of_mem_take h))) hl.1
    have h4 := hl.1
    have h5 : v.length ≤ 120 := by
      refine hr (text.take k ++ u) v ((text.drop k).drop n) ?_ h3
      rw [List.append_assoc, List.append_assoc, ← List.append_assoc u, ← h1, List.take_append_drop,
        List.take_append_drop]
    have h6 := congrArg List.length h1
    rw [List.length_append, List.length_take] at h6
    omega

/-- A test for `ShortTokens`; `k` is the number of characters that may follow. -/
def runsOk : Nat → List WChar → Bool
  | _, [] => true
  | k, c :: cs => if c ∈ delimiters then runsOk 120 cs else decide (0 < k) && runsOk (k - 1) cs

theorem runsOk_run : ∀ (run : List WChar) (k : Nat) (post : List WChar),
    runsOk k (run ++ post) = true → (∀ c ∈ run, c ∉ delimiters) → run.length ≤ k
  | [], _, _, _, _ => by simp
  | c :: run, k, post, h, hd => by
    rw [List.cons_append, runsOk, if_neg (hd c (by simp))] at h
    simp only [Bool.and_eq_true, decide_eq_true_eq] at h
    have := runsOk_run run (k - 1) post h.2 (fun x hx => hd x (by simp [hx]))
    simp only [List.length_cons]
    omega

theorem runsOk_drop : ∀ (pre : List WChar) (k : Nat) (rest : List WChar), k ≤ 120 →
    runsOk k (pre ++ rest) = true → ∃ k', k' ≤ 120 ∧ runsOk k' rest = true
  | [], k, _, hk, h => ⟨k, hk, h⟩
  | c :: pre, k, rest, hk, h => by
    rw [List.cons_append, runsOk] at h
    split at h
    · exact runsOk_drop pre 120 rest (Nat.le_refl _) h
    · simp only [Bool.and_eq_true, decide_eq_true_eq] at h
      exact runsOk_drop pre (k - 1) rest (by omega) h.2

theorem shortTokens_of_runsOk {line : List WChar} (hq : (34 : WChar) ∉ line)
    (h : runsOk 120 line = true) : ShortTokens line := by
  refine ⟨hq, fun pre run post he hd => ?_⟩
  rw [he, List.append_assoc] at h
  obtain ⟨k, h1, h2⟩ := runsOk_drop pre 120 _ (Nat.le_refl _) h
  have := runsOk_run run k post h2 hd
  omega

/-- A short text. -/
theorem spare_of_short {T : Tables} {text : List WChar} (h : text.length ≤ 127) (k : Nat) :
    Spare T (text.drop k) := by
  intro m hm n hn _
  simp only [List.length_drop] at hn
  omega

end Cnars.Parser
