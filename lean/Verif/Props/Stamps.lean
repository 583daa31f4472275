import Verif.Sentence.Stamp
import Mathlib.Data.List.Basic
import Mathlib.Tactic.Common

/-!
# C54 – C56: tenses and evidential bases of sentences
-/

namespace Cnars.Props
open Cnars Cnars.Stamp

theorem toInt32_small {x : Nat} (h : x < 2^31) : toInt32 x = x := by
  simp only [toInt32, BitVec.toInt, BitVec.toNat_ofNat]
  have : x % 2^32 = x := Nat.mod_eq_of_lt (by omega)
  rw [this, if_pos (by omega)]

theorem toInt32_sub {time : Nat} (h : time + 5 < 2^31) :
    toInt32 (subU64 time temporalDuration) = (time : Int) - 5 := by
  simp only [subU64, temporalDuration, toInt32, BitVec.toInt, BitVec.toNat_ofNat]
  by_cases ht : 5 ≤ time
  · have e : (time + 2^64 - 5 % 2^64) % 2^64 % 2^32 = time - 5 := by omega
    rw [e, if_pos (by omega)]; omega
  · have e : (time + 2^64 - 5 % 2^64) % 2^64 % 2^32 = 2^32 + time - 5 := by omega
    rw [e, if_neg (by omega)]; omega

/-- Specification of the tenses of a stamp at a given time, with duration 5. -/
def SpecTense (s : Stamp) (time : Int) : Tense → Prop
  | .eternal => s.isEternal = true
  | .future => s.isEternal = false ∧ time + 5 ≤ s.tOccurrence
  | .past => s.isEternal = false ∧ s.tOccurrence ≤ time - 5
  | .present => s.isEternal = false ∧ time - 5 < s.tOccurrence ∧ s.tOccurrence < time + 5

/-- C54: as long as the clock stays below 2^31 - 5, the reported tense is the unique one that the
specification allows.  Missing: later times, where the narrowing to `int` misclassifies
(`C54_counterexample`). -/
theorem C54_partial (s : Stamp) (time : Nat) (ht : time + 5 < 2^31) (t : Tense) :
    s.tense time = t ↔ SpecTense s time t := by
  have e1 : toInt32 ((time + temporalDuration) % 2^64) = (time : Int) + 5 := by
    have : (time + temporalDuration) % 2^64 = time + 5 := by
      simp only [temporalDuration]; omega
    rw [this, toInt32_small (by omega)]; omega
  have e2 := toInt32_sub ht
  unfold Stamp.tense
  rw [e1, e2]
  cases he : s.isEternal
  · simp only [Bool.false_eq_true, if_false]
    split
    · next h => cases t <;> simp [SpecTense, he] <;> omega
    · split
      · next h1 h2 => cases t <;> simp [SpecTense, he] <;> omega
      · next h1 h2 => cases t <;> simp [SpecTense, he] <;> omega
  · cases t <;> simp [SpecTense, he]

example : (⟨none, 0, 12, -1, false⟩ : Stamp).tense 7 = .future ∧
    (⟨none, 0, 2, -1, false⟩ : Stamp).tense 7 = .past ∧
    (⟨none, 0, 3, -1, false⟩ : Stamp).tense 7 = .present := by decide

/-- C54 counterexample: near 2^31 an event happening right now is reported as future. -/
theorem C54_counterexample :
    (⟨some [0], 2^31 - 5, 2^31 - 5, -1, false⟩ : Stamp).tense (2^31 - 5) = .future := by decide

/-- C55, what holds: while the clock has not been advanced (time 0) the three marks are reported
back as given, for every state of the id counter; and unmarked sentences are eternal at any time.
Missing: at later times the marks still denote the absolute times 5, 0 and -5
(`C55_counterexample`). -/
theorem C55_partial (g : Globals) (hg : g.time = 0) (later : Nat) :
    (sentenceStamp g (some tenseFuture)).1.tense g.time = .future ∧
    (sentenceStamp g (some tensePresent)).1.tense g.time = .present ∧
    (sentenceStamp g (some tensePast)).1.tense g.time = .past ∧
    (sentenceStamp g none).1.tense later = .eternal := by
  rw [hg]
  have k : ∀ t : Int, (sentenceStamp g (some t)).1.isEternal = false ∧
      (sentenceStamp g (some t)).1.tOccurrence = t := fun t => ⟨rfl, rfl⟩
  refine ⟨(C54_partial _ 0 (by omega) .future).2 ⟨(k _).1, ?_⟩,
    (C54_partial _ 0 (by omega) .present).2 ⟨(k _).1, ?_⟩,
    (C54_partial _ 0 (by omega) .past).2 ⟨(k _).1, ?_⟩, ?_⟩
  · rw [(k _).2]; decide
  · rw [(k _).2]; decide
  · rw [(k _).2]; decide
  · simp [sentenceStamp, Stamp.makeEternal, Stamp.make5, Stamp.tense]

example : (⟨0, 17⟩ : Globals).time = 0 := rfl

/-- C55 counterexample: at time 10 a sentence entered with `:|:` (present) or `:/:` (future) is
reported as past; and this is so at every time from 10 on until the `int` conversion wraps. -/
theorem C55_counterexample (g : Globals) (h1 : 10 ≤ g.time) (h2 : g.time + 5 < 2^31) :
    (sentenceStamp g (some tensePresent)).1.tense g.time = .past ∧
    (sentenceStamp g (some tenseFuture)).1.tense g.time = .past := by
  have k : ∀ t : Int, (sentenceStamp g (some t)).1.isEternal = false ∧
      (sentenceStamp g (some t)).1.tOccurrence = t := fun t => ⟨rfl, rfl⟩
  have hf : tenseFuture = 5 := by decide
  constructor
  · refine (C54_partial _ _ h2 .past).2 ⟨(k _).1, ?_⟩
    rw [(k _).2]; simp only [tensePresent]; omega
  · refine (C54_partial _ _ h2 .past).2 ⟨(k _).1, ?_⟩
    rw [(k _).2, hf]; omega

/-- A sentence entered with a tense mark. -/
def Tensed : Creation → Prop
  | .parsed (some _) => True
  | _ => False

/-- Every creation uses up exactly one id, and the base, if any, consists of it. -/
theorem create_spec (g : Globals) (c : Creation) :
    (create g c).2 = { g with inputId := (g.inputId + 1) % 2^64 } ∧
    (Tensed c → (create g c).1.evidentialBase = none) ∧
    (¬ Tensed c → (create g c).1.evidentialBase = some [g.inputId]) := by
  cases c with
  | parsed t => cases t <;> exact ⟨rfl, by simp [Tensed, create, sentenceStamp, Stamp.make5, ctorStamp],
      by simp [Tensed, create, sentenceStamp, Stamp.makeEternal, Stamp.make5, ctorStamp,
        Globals.getInputId]⟩
  | constructed => exact ⟨rfl, by simp [Tensed], fun _ => rfl⟩
  | stamped t => exact ⟨rfl, by simp [Tensed], fun _ => rfl⟩

theorem createAll_spec (g : Globals) (cs : List Creation) (h : g.inputId + cs.length ≤ 2^64) :
    (createAll g cs).1.length = cs.length ∧
    ∀ i c, cs[i]? = some c → ∃ s, (createAll g cs).1[i]? = some s ∧
      (Tensed c → s.evidentialBase = none) ∧
      (¬ Tensed c → s.evidentialBase = some [g.inputId + i]) := by
  induction cs generalizing g with
  | nil => simp [createAll]
  | cons c cs ih =>
    obtain ⟨hg, h1, h2⟩ := create_spec g c
    simp only [List.length_cons] at h
    by_cases hcs : cs = []
    · subst hcs
      refine ⟨by simp [createAll], ?_⟩
      intro i c' hi
      have : i = 0 ∧ c = c' := by
        cases i <;> simp at hi; exact ⟨rfl, hi⟩
      obtain ⟨rfl, rfl⟩ := this
      exact ⟨_, rfl, h1, h2⟩
    · have hpos : 0 < cs.length := List.length_pos_iff.2 hcs
      have hid : (create g c).2.inputId = g.inputId + 1 := by
        rw [hg]; exact Nat.mod_eq_of_lt (by omega)
      obtain ⟨il, ih⟩ := ih (create g c).2 (by omega)
      refine ⟨by simp [createAll, il], ?_⟩
      intro i c' hi
      cases i with
      | zero => simp at hi; subst hi; exact ⟨_, rfl, h1, h2⟩
      | succ i =>
        obtain ⟨s, hs, a, b⟩ := ih i c' (by simpa using hi)
        refine ⟨s, by simpa [createAll] using hs, a, ?_⟩
        intro hn; rw [b hn, hid]; congr 2; omega

/-- C56, what holds: in any history of up to 2^64 sentence creations in one translation unit, every
sentence entered without a tense mark has an evidential base, and the bases of two different
sentences have no id in common.  Missing: sentences with a tense mark have no base at all
(`C56_tense_counterexample`), and each translation unit has its own id counter
(`C56_units_counterexample`). -/
theorem C56_partial (g : Globals) (cs : List Creation) (h : g.inputId + cs.length ≤ 2^64) :
    (∀ (i : Nat) (c : Creation), cs[i]? = some c → ¬ Tensed c →
      ∃ (s : Stamp) (base : List Nat), (createAll g cs).1[i]? = some s ∧ s.evidentialBase = some base ∧ base ≠ []) ∧
    (∀ (i j : Nat) (si sj : Stamp) (bi bj : List Nat), i ≠ j →
       (createAll g cs).1[i]? = some si → (createAll g cs).1[j]? = some sj →
      si.evidentialBase = some bi → sj.evidentialBase = some bj → ∀ x, ¬ (x ∈ bi ∧ x ∈ bj)) := by
  obtain ⟨hl, hs⟩ := createAll_spec g cs h
  constructor
  · intro i c hi hn
    obtain ⟨s, e, _, b⟩ := hs i c hi
    exact ⟨s, _, e, b hn, by simp⟩
  · intro i j si sj bi bj hij hi hj hbi hbj x
    have key : ∀ (k : Nat) (sk : Stamp) (bk : List Nat), (createAll g cs).1[k]? = some sk → sk.evidentialBase = some bk →
        bk = [g.inputId + k] := by
      intro k sk bk hk hb
      have hlt := (List.getElem?_eq_some_iff.1 hk).1
      rw [hl] at hlt
      obtain ⟨s, e, t1, t2⟩ := hs k _ (List.getElem?_eq_getElem hlt)
      rw [hk] at e; cases e
      by_cases ht : Tensed cs[k]
      · rw [t1 ht] at hb; cases hb
      · rw [t2 ht] at hb; cases hb; rfl
    rw [key i si bi hi hbi, key j sj bj hj hbj]
    simp only [List.mem_singleton]
    rintro ⟨h1, h2⟩; omega

example : (createAll ⟨0, 3⟩ [.parsed none, .parsed (some 5), .constructed]).1.map (·.evidentialBase)
    = [some [3], none, some [5]] := by decide

/-- C56 counterexample: every sentence entered with a tense mark lacks an evidential base. -/
theorem C56_tense_counterexample (g : Globals) (t : Int) :
    (create g (.parsed (some t))).1.evidentialBase = none := rfl

/-- C56 counterexample: `_input_id` is `static` in a header, so every translation unit counts for
itself; the first sentences created in two units get the same base. -/
theorem C56_units_counterexample :
    (createAll ⟨0, 0⟩ [.parsed none]).1.map (·.evidentialBase) =
    (createAll ⟨0, 0⟩ [.constructed]).1.map (·.evidentialBase) := by decide

end Cnars.Props
