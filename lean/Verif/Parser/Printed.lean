import Verif.Parser.Reread
import Verif.Parser.Stamps

/-!
# The syntax tree of a printed task

Which syntax tree the line printed for a task has, and what it is read as.  Nothing of `/repo` is
modelled here.
-/

namespace Cnars.Parser
open Cnars Print

/-! ## Numbers with a fixed number of decimals -/

/-- The last `n` decimal digits of `k`. -/
def padded : Nat → Nat → List Char
  | 0, _ => []
  | n + 1, k => padded n (k / 10) ++ [Nat.digitChar (k % 10)]

/-- The number `k / 10 ^ n`, written with `n` decimals. -/
def point (n k : Nat) : List Char := Nat.toDigits 10 (k / 10 ^ n) ++ '.' :: padded n k

theorem digitChar_spec : ∀ m, m < 10 → (Nat.digitChar m).toNat = 48 + m ∧ (Nat.digitChar m).isDigit = true := by
  decide

theorem padded_length : ∀ n k, (padded n k).length = n
  | 0, _ => rfl
  | n + 1, k => by simp [padded, padded_length n]

theorem padded_digits : ∀ n k, allDigits (padded n k)
  | 0, _ => by simp [padded, allDigits]
  | n + 1, k => by
    refine allDigits_append (padded_digits n _) ?_
    have := (digitChar_spec (k % 10) (Nat.mod_lt _ (by decide))).2
    intro c hc
    simp only [List.mem_singleton] at hc
    rw [hc]; exact this

theorem natOf_snoc (s : List Char) (c : Char) : natOf (s ++ [c]) = 10 * natOf s + (c.toNat - 48) := by
  simp only [natOf, List.reverse_append, List.reverse_singleton, List.singleton_append, List.map_cons,
    Nat.ofDigits_cons]
  simp [Nat.add_comm]

theorem natOf_padded : ∀ n k, natOf (padded n k) = k % 10 ^ n
  | 0, k => by simp [padded, natOf, Nat.mod_one]
  | n + 1, k => by
    rw [padded, natOf_snoc, natOf_padded n, (digitChar_spec (k % 10) (Nat.mod_lt _ (by decide))).1,
      Nat.add_sub_cancel_left, Nat.pow_succ, Nat.mul_comm (10 ^ n) 10, Nat.mod_mul]
    exact Nat.add_comm _ _

theorem natOf_toDigits (k : Nat) : natOf (Nat.toDigits 10 k) = k := by
  induction k using Nat.strong_induction_on with
  | _ k ih =>
    by_cases h : k < 10
    · rw [Nat.toDigits_of_lt_base h]
      simp [natOf, (digitChar_spec k h).1]
    · have h10 : 10 ≤ k := Nat.le_of_not_lt h
      rw [Nat.toDigits_of_base_le (by decide) h10, natOf_snoc,
        ih _ (Nat.div_lt_self (by omega) (by decide)),
        (digitChar_spec (k % 10) (Nat.mod_lt _ (by decide))).1]
      omega

theorem toDigits_digits (k : Nat) : allDigits (Nat.toDigits 10 k) := fun _ hc =>
  Nat.isDigit_of_mem_toDigits (b := 10) (by omega) (by omega) hc

/-- The value of such a numeral. -/
theorem point_value (n k : Nat) : Decimal (point n k) (k / 10 ^ n) := by
  have h := Decimal.point (a := Nat.toDigits 10 (k / 10 ^ n)) (b := padded n k)
    (.inl (Nat.toDigits_ne_nil)) (toDigits_digits _) (padded_digits n k)
  rw [natOf_toDigits, natOf_padded, padded_length] at h
  have e : ((k / 10 ^ n : Nat) : ℚ) + ((k % 10 ^ n : Nat) : ℚ) / 10 ^ n = k / 10 ^ n := by
    have h1 : ((k : Nat) : ℚ) = ((10 ^ n * (k / 10 ^ n) + k % 10 ^ n : Nat) : ℚ) := by
      rw [Nat.div_add_mod]
    rw [h1]
    push_cast
    field_simp
  rwa [e] at h

theorem digit_matches {c : Char} (h : c.isDigit = true) : Rx.digit.Matches (codes [c]) := by
  simp only [Char.isDigit, Bool.and_eq_true, decide_eq_true_eq, ge_iff_le] at h
  exact .cls (List.mem_singleton.mpr rfl) (UInt32.le_iff_toNat_le.mp h.1) (UInt32.le_iff_toNat_le.mp h.2)

theorem star_matches {r : Rx} : ∀ {s : List Char}, (∀ c ∈ s, r.Matches (codes [c])) →
    (Rx.star r).Matches (codes s)
  | [], _ => .starNil
  | c :: s, h => .starCons (u := codes [c]) (h c (by simp)) (star_matches fun x hx => h x (by simp [hx]))

theorem plus_matches {r : Rx} {s : List Char} (hs : s ≠ []) (h : ∀ c ∈ s, r.Matches (codes [c])) :
    (Rx.plus r).Matches (codes s) := by
  cases s with
  | nil => exact absurd rfl hs
  | cons c s => exact .seq (u := codes [c]) (h c (by simp)) (star_matches fun x hx => h x (by simp [hx]))

theorem zeros_natOf : ∀ {s : List Char}, (∀ c ∈ s, c = '0') → natOf s = 0 := by
  intro s h
  induction s using List.reverseRecOn with
  | nil => rfl
  | append_singleton s c ih =>
    rw [natOf_snoc, ih fun x hx => h x (by simp [hx]), h c (by simp)]
    rfl

theorem natOf_zeros : ∀ {s : List Char}, allDigits s → natOf s = 0 → ∀ c ∈ s, c = '0' := by
  intro s hd h
  induction s using List.reverseRecOn with
  | nil => simp
  | append_singleton s c ih =>
    rw [natOf_snoc] at h
    have hc : c.isDigit = true := hd c (by simp)
    simp only [Char.isDigit, Bool.and_eq_true, decide_eq_true_eq, ge_iff_le] at hc
    have h0 : 48 ≤ c.toNat := UInt32.le_iff_toNat_le.mp hc.1
    have hc0 : c = '0' := by
      apply Char.ext
      apply UInt32.toNat_inj.mp
      show c.toNat = 48
      omega
    intro x hx
    rcases List.mem_append.mp hx with hx | hx
    · exact ih (fun y hy => hd y (by simp [hy])) (by omega) x hx
    · rw [List.mem_singleton.mp hx, hc0]

theorem point_small {n k : Nat} (h : k < 10 ^ n) : point n k = '0' :: '.' :: padded n k := by
  rw [point, Nat.div_eq_of_lt h]; rfl

theorem point_one (n : Nat) : point n (10 ^ n) = '1' :: '.' :: padded n (10 ^ n) := by
  rw [point, Nat.div_self (by positivity)]; rfl

/-- Numerals from 0 to 1. -/
theorem point_unit {n k : Nat} (hn : 0 < n) (h : k ≤ 10 ^ n) : Rx.unit.Matches (codes (point n k)) := by
  rcases Nat.lt_or_eq_of_le h with h | rfl
  · rw [point_small h]
    refine .altL (.seq (u := codes ['0']) (.altL (ch_matches _)) (.seq (u := codes ['.']) (ch_matches _) ?_))
    refine plus_matches ?_ fun c hc => digit_matches (padded_digits n k c hc)
    intro h0
    have := padded_length n k
    rw [h0] at this
    simp at this
    omega
  · rw [point_one]
    refine .altR (.altL (.seq (u := codes ['1']) (ch_matches _) (.seq (u := codes ['.']) (ch_matches _) ?_)))
    refine star_matches fun c hc => ?_
    rw [natOf_zeros (padded_digits n _) (by rw [natOf_padded, Nat.mod_self]) c hc]
    exact ch_matches _

/-- Numerals between 0 and 1. -/
theorem point_openUnit {n k : Nat} (h0 : 0 < k) (h : k < 10 ^ n) :
    Rx.openUnit.Matches (codes (point n k)) := by
  rw [point_small h]
  refine .seq (u := codes ['0']) (.altL (ch_matches _)) (.seq (u := codes ['.']) (ch_matches _) ?_)
  have hd := padded_digits n k
  have hv : natOf (padded n k) ≠ 0 := by rw [natOf_padded, Nat.mod_eq_of_lt h]; omega
  generalize padded n k = s at hd hv
  have hs := List.takeWhile_append_dropWhile (p := fun c => c == '0') (l := s)
  have hz : ∀ c ∈ s.takeWhile (fun c => c == '0'), c = '0' := fun c hc => by
    simpa using List.mem_takeWhile_imp hc
  cases hr : s.dropWhile (fun c => c == '0') with
  | nil =>
    rw [hr, List.append_nil] at hs
    rw [hs] at hz
    exact absurd (zeros_natOf hz) hv
  | cons c r =>
    have hc : c ≠ '0' := by
      have := List.head?_dropWhile_not (fun c => c == '0') s
      rw [hr] at this
      simpa using this
    rw [hr] at hs
    have hsub : ∀ x ∈ c :: r, x.isDigit = true := fun x hx => hd x (by rw [← hs]; simp at hx ⊢; tauto)
    rw [← hs, List.map_append]
    refine .seq (star_matches fun x hx => by rw [hz x hx]; exact ch_matches _) ?_
    refine .seq (u := codes [c]) (plus_matches (by simp) fun x hx => ?_)
      (star_matches fun x hx => digit_matches (hsub x (by simp [hx])))
    simp only [List.mem_singleton] at hx
    subst hx
    have hx := hsub x (by simp)
    simp only [Char.isDigit, Bool.and_eq_true, decide_eq_true_eq, ge_iff_le] at hx
    have h1 : 48 ≤ x.toNat := UInt32.le_iff_toNat_le.mp hx.1
    have h2 : x.toNat ≤ 57 := UInt32.le_iff_toNat_le.mp hx.2
    refine .cls (List.mem_singleton.mpr rfl) ?_ h2
    show 49 ≤ x.toNat
    rcases Nat.lt_or_eq_of_le h1 with h3 | h3
    · exact h3
    · refine absurd ?_ hc
      apply Char.ext
      apply UInt32.toNat_inj.mp
      exact h3.symm

theorem point_ascii (n k : Nat) : Ascii (point n k) := by
  have hd : ∀ {s : List Char}, allDigits s → Ascii s := fun h c hc => by
    have := h c hc
    simp only [Char.isDigit, Bool.and_eq_true, decide_eq_true_eq, ge_iff_le] at this
    have h1 : 48 ≤ c.toNat := UInt32.le_iff_toNat_le.mp this.1
    have h2 : c.toNat ≤ 57 := UInt32.le_iff_toNat_le.mp this.2
    omega
  exact (hd (toDigits_digits _)).append (Ascii.append (s := ['.']) (by simp [Ascii]) (hd (padded_digits n k)))

/-! ## The line -/

/-- Text of a truth value. -/
def truthText (v : Option (List Char × List Char)) : List Char :=
  v.elim [] fun v => '%' :: (v.1 ++ (';' :: (v.2 ++ ['%'])))

/-- Its nodes. -/
def truthAst (v : Option (List Char × List Char)) : List Ast :=
  v.elim [] fun v => [.node .truth [.leaf .frequency v.1, .leaf .confidence v.2]]

/-- Text of a tense mark; none for eternal sentences. -/
def tenseText : Stamp.Tense → List Char
  | .eternal => []
  | .past => [':', '\\', ':', ' ']
  | .present => [':', '|', ':', ' ']
  | .future => [':', '/', ':', ' ']

/-- Its nodes. -/
def tenseAst : Stamp.Tense → List Ast
  | .eternal => []
  | .past => [.node .tense_past []]
  | .present => [.node .tense_present []]
  | .future => [.node .tense_future []]

/-- The time it stands for. -/
def tenseTime : Stamp.Tense → Option Int
  | .eternal => none
  | .past => some (-5)
  | .present => some 0
  | .future => some 5

/-- The numbers of a budget and a truth value, as printed, can be read. -/
structure Writable (p : Punct) (b : List Char × List Char × List Char) (v : Option (List Char × List Char)) :
    Prop where
  priority : Rx.unit.Matches (codes b.1)
  durability : Rx.openUnit.Matches (codes b.2.1)
  quality : Rx.unit.Matches (codes b.2.2)
  frequency : ∀ w, v = some w → Rx.unit.Matches (codes w.1)
  confidence : ∀ w, v = some w → Rx.openUnit.Matches (codes w.2)
  asked : p = .question ∨ p = .quest → v = none

/-- A line with everything in it. -/
def lineText (b : List Char × List Char × List Char) (t : List Char) (p : Punct) (n : Stamp.Tense)
    (v : Option (List Char × List Char)) : List Char :=
  '$' :: (b.1 ++ (';' :: (b.2.1 ++ (';' :: (b.2.2 ++ ('$' :: ' ' :: (t ++ (punctChar p :: ' ' ::
    (tenseText n ++ truthText v)))))))))

/-- Its nodes. -/
def lineAst (b : List Char × List Char × List Char) (t : Ast) (p : Punct) (n : Stamp.Tense)
    (v : Option (List Char × List Char)) : List Ast :=
  [.node .task [.node .budget [.leaf .priority b.1, .leaf .durability b.2.1, .leaf .quality b.2.2],
    .node (punctEmit p) (t :: (tenseAst n ++ truthAst v))]]

theorem Reads.some {x : List Gram} {s : List Char} {as : List Ast} (h : ReadsAll x s as) :
    Reads (Gram.maybe x) s as := by
  obtain ⟨ts, h1, h2⟩ := h
  exact ⟨ts, .opt_some (.grp (List.mem_singleton.mpr rfl) h1), h2⟩

theorem Reads.none {x : List Gram} : Reads (Gram.maybe x) [] [] := Reads.opt_none

theorem reads_tense (n : Stamp.Tense) :
    Reads (Gram.maybe [.nt .tense]) (tenseText n) (tenseAst n) := by
  cases n with
  | eternal => exact .none
  | past =>
    refine .some (.one (.node (body := [Gram.kw [':', '\\', ':']]) (by decide) (by simp [rules])
      (.one ?_)))
    simpa [sp, tenseText] using Reads.kw (s := [':', '\\', ':']) (by simp) 1
  | present =>
    refine .some (.one (.node (body := [Gram.kw [':', '|', ':']]) (by decide) (by simp [rules])
      (.one ?_)))
    simpa [sp, tenseText] using Reads.kw (s := [':', '|', ':']) (by simp) 1
  | future =>
    refine .some (.one (.node (body := [Gram.kw [':', '/', ':']]) (by decide) (by simp [rules])
      (.one ?_)))
    simpa [sp, tenseText] using Reads.kw (s := [':', '/', ':']) (by simp) 1

theorem reads_truth {v : List Char × List Char} (h1 : Rx.unit.Matches (codes v.1))
    (h2 : Rx.openUnit.Matches (codes v.2)) :
    Reads (.nt .truth) (truthText (some v)) (truthAst (some v)) := by
  refine .node (body := [Gram.kw ['%'], Gram.frequency,
    Gram.maybe [Gram.kw [';'], Gram.confidence, Gram.maybe [Gram.kw [';'], Gram.k_evidence]], Gram.kw ['%']])
    (by decide) (by simp [rules]) ?_
  have := ReadsAll.cons (tight ['%'] (by simp)) (.cons (Reads.leaf (e := .frequency) (by decide) h1)
    (.cons (Reads.some (.cons (tight [';'] (by simp)) (.cons (Reads.leaf (e := .confidence) (by decide) h2)
      (.one (Reads.none (x := [Gram.kw [';'], Gram.k_evidence])))))) (.one (tight ['%'] (by simp)))))
  simpa [Gram.frequency, Gram.confidence, truthText] using this

theorem reads_budget {b : List Char × List Char × List Char} (h1 : Rx.unit.Matches (codes b.1))
    (h2 : Rx.openUnit.Matches (codes b.2.1)) (h3 : Rx.unit.Matches (codes b.2.2)) :
    Reads (.nt .budget) ('$' :: (b.1 ++ (';' :: (b.2.1 ++ (';' :: (b.2.2 ++ ['$', ' ']))))))
      [.node .budget [.leaf .priority b.1, .leaf .durability b.2.1, .leaf .quality b.2.2]] := by
  refine .node (body := [Gram.kw ['$'], Gram.priority,
    Gram.maybe [Gram.kw [';'], Gram.durability, Gram.maybe [Gram.kw [';'], Gram.quality]], Gram.kw ['$']])
    (by decide) (by simp [rules]) ?_
  have := ReadsAll.cons (tight ['$'] (by simp)) (.cons (Reads.leaf (e := .priority) (by decide) h1)
    (.cons (Reads.some (.cons (tight [';'] (by simp)) (.cons (Reads.leaf (e := .durability) (by decide) h2)
      (.one (Reads.some (.cons (tight [';'] (by simp)) (.one (Reads.leaf (e := .quality) (by decide) h3))))))))
      (.one (Reads.kw (s := ['$']) (by simp) 1))))
  simpa [Gram.priority, Gram.durability, Gram.quality, sp] using this

theorem isNarsese_task {d : Map Key String} {t : Term} (h : Legible d t) (hv : Sayable t)
    {b : List Char × List Char × List Char} {p : Punct} {v : Option (List Char × List Char)}
    (hw : Writable p b v) (n : Stamp.Tense) :
    IsNarsese (codes (lineText b (treeOf d t).text p n v)) (lineAst b (astContent d t) p n v) := by
  have h1 : Reads (.nt .sentence) ((treeOf d t).text ++ (punctChar p :: ' ' :: (tenseText n ++ truthText v)))
      [.node (punctEmit p) (astContent d t :: (tenseAst n ++ truthAst v))] := by
    have kw : Reads (Gram.kw [punctChar p]) [punctChar p, ' '] [] := Reads.kw (s := [punctChar p]) (by simp) 1
    have asked : ∀ body : List Gram, v = none → body = [Gram.content, Gram.kw [punctChar p], Gram.maybe [.nt .tense]] →
        ReadsAll body ((treeOf d t).text ++ (punctChar p :: ' ' :: (tenseText n ++ truthText v)))
          (astContent d t :: (tenseAst n ++ truthAst v)) := by
      rintro _ rfl rfl
      simpa [truthText, truthAst] using ReadsAll.cons (reads_content h hv) (.cons kw (.one (reads_tense n)))
    have believed : ∀ m : NT, m = .truth ∨ m = .desire →
        ReadsAll [Gram.content, Gram.kw [punctChar p], Gram.maybe [.nt .tense], Gram.maybe [.nt m]]
          ((treeOf d t).text ++ (punctChar p :: ' ' :: (tenseText n ++ truthText v)))
          (astContent d t :: (tenseAst n ++ truthAst v)) := by
      intro m hm
      have ht : Reads (Gram.maybe [.nt m]) (truthText v) (truthAst v) := by
        cases v with
        | none => exact .none
        | some v =>
          have := reads_truth (hw.frequency v rfl) (hw.confidence v rfl)
          rcases hm with rfl | rfl
          · exact .some (.one this)
          · exact .some (.one (.plain (body := [.nt .truth]) (by simp [rules]) (.one this)))
      simpa using ReadsAll.cons (reads_content h hv) (.cons kw (.cons (reads_tense n) (.one ht)))
    cases p with
    | judgement => exact .node (by decide) (by simp [rules, punctChar, punctEmit]) (believed _ (.inl rfl))
    | question => exact .node (by decide) (by simp [rules, punctChar, punctEmit]) (asked _ (hw.asked (.inl rfl)) rfl)
    | goal => exact .node (by decide) (by simp [rules, punctChar, punctEmit]) (believed _ (.inr rfl))
    | quest => exact .node (by decide) (by simp [rules, punctChar, punctEmit]) (asked _ (hw.asked (.inr rfl)) rfl)
  have h2 : Reads (.nt .task) (lineText b (treeOf d t).text p n v) (lineAst b (astContent d t) p n v) := by
    refine .node (body := [Gram.maybe [.nt .budget], .nt .sentence]) (by decide) (by simp [rules]) ?_
    have := ReadsAll.cons (Reads.some (.one (reads_budget hw.priority hw.durability hw.quality))) (.one h1)
    simpa [lineText] using this
  obtain ⟨ts, h3, h4⟩ := h2
  exact isNarsese_tokens.mpr ⟨[], ts, _, by simp, by simp, h4, h3⟩

theorem meant_task {d : Map Key String} {t : Term} (h : Legible d t) (b : List Char × List Char × List Char)
    (p : Punct) (n : Stamp.Tense) (v : Option (List Char × List Char)) :
    Ast.meantAll (lineAst b (astContent d t) p n v) = true := by
  have h0 := meant_line h
  rw [astLine] at h0
  generalize astContent d t = c at h0
  cases c with
  | leaf =>
    cases p <;> cases n <;> cases v <;>
      simp [lineAst, Ast.meantAll, Ast.meant, tenseAst, truthAst, headIs, punctEmit]
  | node =>
    cases p <;> cases n <;> cases v <;>
      simpa [lineAst, Ast.meantAll, Ast.meant, tenseAst, truthAst, headIs, punctEmit] using h0

theorem part_line_task {d : Map Key String} {t : Term} (h : Legible d t) (b : List Char × List Char × List Char)
    (p : Punct) (n : Stamp.Tense) (v : Option (List Char × List Char)) :
    partAll (lineAst b (astContent d t) p n v) = some [.task (some [b.1, b.2.1, b.2.2]) p (synOf d t)
      ((tenseTime n).toList.map .tense ++ truthMarks (v.elim [] fun v => [v.1, v.2]))] := by
  have h0 := part_line h
  simp only [astLine, partAll, Ast.part] at h0
  cases hc : (astContent d t).part with
  | none => simp [hc] at h0
  | some q =>
    have hq : q = .syn (synOf d t) := by
      cases q <;> simp [hc, Part.build, Part.marks?] at h0
      exact congrArg _ h0
    subst hq
    have e1 : Stamp.tensePast = -5 := rfl
    have e2 : Stamp.tensePresent = 0 := rfl
    have e3 : Stamp.tenseFuture = 5 := rfl
    cases p <;> cases n <;> cases v <;>
      simp [lineAst, partAll, Ast.part, tenseAst, truthAst, hc, punctEmit, Part.build, Part.marks?, Part.nums?,
        Part.ofLeaf, tenseTime, truthMarks, e1, e2, e3]

/-! ## What it is read as -/

theorem tenseIs_printed (n : Stamp.Tense) : TenseIs ((tenseTime n).toList.map .tense) (tenseTime n) := by
  cases n <;> simp [tenseTime, TenseIs]

theorem numbers_ok {M : Mach} {ss : List (List Char)} {xs : List ℚ} (h : List.Forall₂ Decimal ss xs)
    (hx : ∀ x ∈ xs, M.erange x = false) (e : Env) : numbers M ss e = (.ok (xs.map M.R.d), e) := by
  induction h with
  | nil => rfl
  | @cons s x ss xs hd _ ih =>
    have h1 : Action.stod M s = .ok (M.R.d x) := by
      rw [Action.stod, hd.reads]
      simp [hx x (by simp)]
    rw [numbers, Act.bind_of_ok (show Act.lift (Action.stod M s) e = (.ok (M.R.d x), e) by rw [h1]; rfl),
      Act.bind_of_ok (ih fun y hy => hx y (by simp [hy]))]
    rfl

theorem evalMarks_ok {M : Mach} (n : Option Int) {ss : List (List Char)} {xs : List ℚ}
    (h : List.Forall₂ Decimal ss xs) (hx : ∀ x ∈ xs, M.erange x = false) (e : Env) :
    ∃ tr, evalMarks M (n.toList.map .tense ++ truthMarks ss) e = (.ok (markVals n tr), e) := by
  have h1 : ∃ tr : Option (Truth ℚ), evalMarks M (truthMarks ss) e = (.ok (tr.toList.map .truth), e) := by
    unfold truthMarks
    split
    · exact ⟨none, rfl⟩
    · have h2 : ∃ tr, (Mark.truth ss).eval M e = (.ok (.truth tr), e) := by
        rw [Mark.eval, Act.bind_of_ok (numbers_ok h hx e), truth_eq]
        exact ⟨_, rfl⟩
      obtain ⟨tr, h2⟩ := h2
      rw [evalMarks, Act.bind_of_ok h2]
      exact ⟨some tr, rfl⟩
  obtain ⟨tr, h1⟩ := h1
  refine ⟨tr, ?_⟩
  cases n with
  | none => simpa [markVals] using h1
  | some n =>
    rw [Option.toList_some, List.map_singleton, List.singleton_append, evalMarks]
    rw [Act.bind_of_ok (show (Mark.tense n).eval M e = (.ok (.tense n), e) from rfl), Act.bind_of_ok h1]
    rfl

/-- There is a task. -/
theorem taskPart_ok {M : Mach} {t : Syn} {u : Term} {e e1 : Env} (h : t.eval M e = (.ok u, e1)) (p : Punct)
    (n : Option Int) {bs vs : List (List Char)} {ys xs : List ℚ} (hb : List.Forall₂ Decimal bs ys)
    (hv : List.Forall₂ Decimal vs xs) (hy : ∀ y ∈ ys, M.erange y = false) (hx : ∀ x ∈ xs, M.erange x = false) :
    ∃ tk e2, evalTaskPart M (some bs) p t (n.toList.map .tense ++ truthMarks vs) e = (.ok (.task tk), e2) ∧
      tk.sentence.term = u ∧ e2.world = e1.world := by
  obtain ⟨tr, h1⟩ := evalMarks_ok n hv hx e1
  have h2 : ∃ s e2, evalSentence M p t (n.toList.map .tense ++ truthMarks vs) e = (.ok (.sentence s), e2) ∧
      s.term = u ∧ (s.punct = .judgement ∨ s.punct = .goal → s.truth ≠ none) ∧ e2.world = e1.world := by
    rw [evalSentence, Act.bind_of_ok h, Act.bind_of_ok h1]
    cases n <;> cases tr <;> cases p <;>
      exact ⟨_, _, rfl, rfl, by simp [Sentence.judgement, Sentence.goal, Sentence.question, Sentence.quest], rfl⟩
  obtain ⟨s, e2, h3, h4, h5, h6⟩ := h2
  rw [evalTaskPart, Act.bind_of_ok (numbers_ok hb hy e), budget_eq, Option.getD_some]
  have hf : ∀ b, ∃ b', Action.finishBudget M b s = .ok b' := by
    intro b
    cases hp : s.punct with
    | question => exact ⟨_, by unfold Action.finishBudget; rw [hp]; rfl⟩
    | quest => exact ⟨_, by unfold Action.finishBudget; rw [hp]; rfl⟩
    | judgement =>
      obtain ⟨tr, ht⟩ := Option.ne_none_iff_exists'.mp (h5 (.inl hp))
      unfold Action.finishBudget
      rw [hp]
      simp only [ht, Res.ofOption]
      split
      · exact ⟨_, rfl⟩
      · exact ⟨_, rfl⟩
    | goal =>
      obtain ⟨tr, ht⟩ := Option.ne_none_iff_exists'.mp (h5 (.inr hp))
      unfold Action.finishBudget
      rw [hp]
      simp only [ht, Res.ofOption]
      split
      · exact ⟨_, rfl⟩
      · exact ⟨_, rfl⟩
  obtain ⟨b', hb'⟩ := hf (budgetFor M (some (ys.map M.R.d)))
  refine ⟨⟨b', s⟩, e2, ?_, h4, h6⟩
  simp only [pure_bind]
  rw [Act.bind_of_ok h3]
  simp only [Action.task, Option.getD_some, hb']
  rfl

end Cnars.Parser
