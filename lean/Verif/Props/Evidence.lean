import Verif.Sentence.EvidenceLemmas

/-!
# C57 – C60: evidential bases

All theorems speak about worlds reachable from the empty one by any history of operations.
-/

namespace Cnars.Props
open Cnars Cnars.Evidence

/-- `w` is the state after some history of operations with length limit `cap`. -/
def EvReachable (cap : Nat) (w : World) : Prop := ∃ os, run cap World.empty os = .ok w

theorem evReachable_inv {cap : Nat} {w : World} (h : EvReachable cap w) : Inv w := by
  obtain ⟨os, h⟩ := h; exact run_inv cap _ _ os inv_empty h

/-- Two base objects share their set (one is a copy of the other). -/
def Shared (w : World) (a b : Nat) : Prop :=
  ∃ o p, w.bases[a]? = some o ∧ w.bases[b]? = some p ∧ o.set = p.set

/-- For the concrete cases: a result described by a decidable property. -/
theorem exists_ok {α : Type} {x : Res α} (P : α → Prop) [DecidablePred P]
    (h : (match x with | .ok w => decide (P w) | _ => false) = true) : ∃ w, x = .ok w ∧ P w := by
  cases x <;> simp_all

/-- A world used in the examples: three unshared bases and a copy of the first. -/
def exampleWorld : World :=
  ⟨[[0], [3, 5], [2, 5, 9]], [⟨0, 0, false⟩, ⟨1, 0, false⟩, ⟨2, 0, false⟩, ⟨0, 0, false⟩], 1⟩

/-- Evaluates the model on concrete worlds. -/
macro "ev_compute" : tactic => `(tactic| simp +decide [run, step, exampleWorld, World.empty,
  interleave3, interleaveLoop, sinsert, Evidence.setOf, isOverlaped, setIntersection, World.evidence,
  World.reportedHash, Res.ofOption])

theorem exampleWorld_reachable : EvReachable 20000 exampleWorld :=
  ⟨[.new, .newOf [5, 3], .newOf [9, 2, 5, 2], .copy 0], by decide +kernel⟩

/-- C57, what holds: `extend` is defined; afterwards the base contains exactly the first `cap` ids
of the other base, or nothing if the two share their set (in particular when a base is extended by
itself); bases that do not share its set are untouched.  Missing: the base's own previous evidence
is lost (`C57_counterexample`). -/
theorem C57_partial (cap : Nat) (w : World) (hw : EvReachable cap w) (a b : Nat)
    (sa sb : List Nat) (ha : w.evidence a = some sa) (hb : w.evidence b = some sb) :
    ∃ w' r, step cap w (.extend a b) = .ok w' ∧ w'.evidence a = some r ∧
      (Shared w a b → r = []) ∧ (¬ Shared w a b → r = sb.take cap) ∧
      (∀ c, ¬ Shared w a c → w'.evidence c = w.evidence c) := by
  have hinv := evReachable_inv hw
  obtain ⟨o, ho, hso⟩ := evidence_iff.1 ha
  obtain ⟨p, hp, hsp⟩ := evidence_iff.1 hb
  have hlt : o.set < w.sets.length := hinv.ref o (List.mem_of_getElem? ho)
  have hother : ∀ c r, ¬ Shared w a c →
      World.evidence { w with sets := (w.sets.set o.set []).set o.set r } c = w.evidence c := by
    intro c r hns
    cases hc : w.bases[c]? with
    | none => simp [World.evidence, hc]
    | some q =>
      have hne : o.set ≠ q.set := fun he => hns ⟨o, q, ho, hc, he⟩
      simp [World.evidence, hc, List.getElem?_set_ne hne]
  have hself : ∀ r, World.evidence { w with sets := (w.sets.set o.set []).set o.set r } a
      = some r := by
    intro r
    simp [World.evidence, ho, hlt]
  by_cases hsh : o.set = p.set
  · have hz : interleave3 cap [] [] [] = .ok [] := by
      simp [interleave3, interleaveLoop]
    have hst : step cap w (.extend a b) =
        .ok { w with sets := (w.sets.set o.set []).set o.set [] } := by
      simp [step, ho, hp, ← hsh, hlt, hz]
    exact ⟨_, [], hst, hself _, fun _ => rfl, fun hns => absurd ⟨o, p, ho, hp, hsh⟩ hns,
      fun c hns => hother c _ hns⟩
  · have e := interleave3_nil_nil cap (hinv.sorted sb (List.mem_of_getElem? hsp))
    have hst : step cap w (.extend a b) =
        .ok { w with sets := (w.sets.set o.set []).set o.set (sb.take cap) } := by
      simp [step, ho, hp, hlt, List.getElem?_set_ne hsh, hsp, e]
    refine ⟨_, _, hst, hself _, ?_, fun _ => rfl, fun c hns => hother c _ hns⟩
    rintro ⟨o', p', h1, h2, h3⟩
    rw [ho] at h1; rw [hp] at h2; cases h1; cases h2; exact absurd h3 hsh

example : exampleWorld.evidence 1 = some [3, 5] ∧ exampleWorld.evidence 2 = some [2, 5, 9] := by
  decide

/-- C57 counterexample: extending {3,5} by {2,5,9} yields {2,5,9} (3 is lost), and extending a base
by itself, or by a copy of itself, empties it. -/
theorem C57_counterexample :
    (∃ w', step 20000 exampleWorld (.extend 1 2) = .ok w' ∧ w'.evidence 1 = some [2, 5, 9]) ∧
    (∃ w', step 20000 exampleWorld (.extend 1 1) = .ok w' ∧ w'.evidence 1 = some []) ∧
    (∃ w', step 20000 exampleWorld (.extend 0 3) = .ok w' ∧ w'.evidence 0 = some []) :=
  ⟨exists_ok _ (by ev_compute), exists_ok _ (by ev_compute), exists_ok _ (by ev_compute)⟩

/-- C58, what holds: interleaving is defined (the loop terminates) and leaves all existing bases
alone.  The new base consists of a fresh id, the first `n1` ids of the first and the first `n2` of
the second operand, where the ids are taken alternately (`n1 = n2` unless one operand ran out),
`n1 + n2` exceeds the limit by at most one, and everything is taken when it fits.  Missing: the
fresh id is in neither operand (`C58_counterexample`). -/
theorem C58_partial (cap : Nat) (w : World) (hw : EvReachable cap w) (a b : Nat)
    (sa sb : List Nat) (ha : w.evidence a = some sa) (hb : w.evidence b = some sb) :
    ∃ w' r n1 n2, step cap w (.interleave a b) = .ok w' ∧
      w'.evidence w.bases.length = some r ∧ n1 ≤ sa.length ∧ n2 ≤ sb.length ∧
      (∀ x, x ∈ r ↔ x = w.nextId ∨ x ∈ sa.take n1 ∨ x ∈ sb.take n2) ∧
      (n1 = n2 ∨ (n1 = sa.length ∧ n1 < n2) ∨ (n2 = sb.length ∧ n2 < n1)) ∧
      n1 + n2 ≤ cap + 1 ∧ min cap (sa.length + sb.length) ≤ n1 + n2 ∧
      (sa.length + sb.length ≤ cap → ∀ x, x ∈ r ↔ x = w.nextId ∨ x ∈ sa ∨ x ∈ sb) ∧
      (∀ c, c < w.bases.length → w'.evidence c = w.evidence c) := by
  have hinv := evReachable_inv hw
  obtain ⟨o, ho, hso⟩ := evidence_iff.1 ha
  obtain ⟨p, hp, hsp⟩ := evidence_iff.1 hb
  obtain ⟨r, n1, n2, e, h1, h2, hm, hf, hl, hu, -⟩ := interleave3_spec cap [w.nextId] sa sb
  have hst : step cap w (.interleave a b) =
      .ok { sets := w.sets ++ [r], nextId := (w.nextId + 1) % 2^64,
            bases := w.bases ++ [⟨w.sets.length, 0, false⟩] } := by
    simp [step, ho, hp, hso, hsp, e]
  refine ⟨_, r, n1, n2, hst, by simp [World.evidence], h1, h2, by simpa using hm, hf, hu, by omega,
    ?_, ?_⟩
  · intro hfit x
    have e1 : n1 = sa.length := by omega
    have e2 : n2 = sb.length := by omega
    rw [hm, e1, e2]; simp
  · intro c hc
    obtain ⟨q, hq⟩ : ∃ q, w.bases[c]? = some q := ⟨_, List.getElem?_eq_getElem hc⟩
    have hqs := hinv.ref q (List.mem_of_getElem? hq)
    simp [World.evidence, List.getElem?_append_left hc, hq, List.getElem?_append_left hqs]

/-- C58 counterexample: interleaving {3,5} and {2,5,9} gives {1,2,3,5,9}: the id 1 is in neither. -/
theorem C58_counterexample :
    ∃ w', step 20000 exampleWorld (.interleave 1 2) = .ok w' ∧
      w'.evidence 4 = some [1, 2, 3, 5, 9] :=
  exists_ok _ (by ev_compute)

/-- With the limit reached, the smallest ids of both are taken alternately, here one more than the
limit 3, plus the fresh id. -/
example : interleave3 3 [7] [3, 5, 8] [2, 5, 9] = .ok [2, 3, 5, 7] := by ev_compute

/-- C59: `is_overlaped` holds exactly when the two bases share an id, for all reachable bases. -/
theorem C59_overlap (cap : Nat) (w : World) (hw : EvReachable cap w) (a b : Nat)
    (sa sb : List Nat) (ha : w.evidence a = some sa) (hb : w.evidence b = some sb) :
    isOverlaped sa sb = true ↔ ∃ x, x ∈ sa ∧ x ∈ sb := by
  have hinv := evReachable_inv hw
  obtain ⟨o, ho, hso⟩ := evidence_iff.1 ha
  obtain ⟨p, hp, hsp⟩ := evidence_iff.1 hb
  have h1 := hinv.sorted sa (List.mem_of_getElem? hso)
  have h2 := hinv.sorted sb (List.mem_of_getElem? hsp)
  have hne : isOverlaped sa sb = true ↔ setIntersection sa sb ≠ [] := by
    simp [isOverlaped]
  rw [hne]
  constructor
  · intro h
    obtain ⟨x, hx⟩ := List.exists_mem_of_ne_nil _ h
    exact ⟨x, (mem_setIntersection h1 h2).1 hx⟩
  · rintro ⟨x, hx⟩ he
    have := (mem_setIntersection h1 h2).2 hx
    rw [he] at this; exact absurd this (by simp)

example : isOverlaped [3, 5] [2, 5, 9] = true ∧ isOverlaped [0] [2, 5, 9] = false := by ev_compute

/-- The invariant behind `C60_partial`: no two bases share a set and cached hashes are right. -/
structure HashInv (w : World) : Prop where
  inv : Inv w
  unshared : ∀ (i j : Nat) (o p : Base), w.bases[i]? = some o → w.bases[j]? = some p →
    o.set = p.set → i = j
  fresh : ∀ b ∈ w.bases, b.isHashed = true → ∀ s, w.sets[b.set]? = some s → b.hash = hashOf s

/-- Operations after which a cached hash stays right: no copies are made, and a base is extended
only while its hash is not cached. -/
def Gentle (w : World) : Op → Prop
  | .copy _ => False
  | .extend b _ => ∀ o, w.bases[b]? = some o → o.isHashed = false
  | _ => True

/-- A history of gentle operations. -/
inductive GentleRun (cap : Nat) : World → World → Prop
  | nil (w) : GentleRun cap w w
  | cons {w w1 w2} (o : Op) : Gentle w o → step cap w o = .ok w1 → GentleRun cap w1 w2 →
      GentleRun cap w w2

theorem hashInv_append {w : World} (h : HashInv w) (s : List Nat) (hs : s.Pairwise (· < ·))
    (n : Nat) :
    HashInv { sets := w.sets ++ [s], nextId := n, bases := w.bases ++ [⟨w.sets.length, 0, false⟩] } := by
  have hlt : ∀ (i : Nat) (o : Base), w.bases[i]? = some o → o.set < w.sets.length :=
    fun i o ho => h.inv.ref o (List.mem_of_getElem? ho)
  refine ⟨⟨?_, ?_⟩, ?_, ?_⟩
  · intro b hb
    simp only [List.mem_append, List.mem_singleton] at hb
    simp only [List.length_append, List.length_singleton]
    rcases hb with hb | rfl
    · have := h.inv.ref b hb; omega
    · simp
  · intro t ht
    simp only [List.mem_append, List.mem_singleton] at ht
    rcases ht with ht | rfl
    · exact h.inv.sorted t ht
    · exact hs
  · intro i j o p hi hj he
    rw [List.getElem?_append] at hi hj
    split at hi <;> split at hj
    · exact h.unshared i j o p hi hj he
    · have h1 := hlt i o hi
      have : p = ⟨w.sets.length, 0, false⟩ := by
        have := List.mem_of_getElem? hj; simpa using this
      subst this; simp only at he; omega
    · have h1 := hlt j p hj
      have : o = ⟨w.sets.length, 0, false⟩ := by
        have := List.mem_of_getElem? hi; simpa using this
      subst this; simp only at he; omega
    · have a1 := (List.getElem?_eq_some_iff.1 hi).1
      have a2 := (List.getElem?_eq_some_iff.1 hj).1
      simp only [List.length_singleton] at a1 a2
      omega
  · intro b hb hh t ht
    simp only [List.mem_append, List.mem_singleton] at hb
    rcases hb with hb | rfl
    · have := h.inv.ref b hb
      rw [List.getElem?_append_left this] at ht
      exact h.fresh b hb hh t ht
    · simp at hh

theorem gentle_step (cap : Nat) (w w' : World) (o : Op) (h : HashInv w) (hg : Gentle w o)
    (hs : step cap w o = .ok w') : HashInv w' := by
  have hinv' := step_inv cap w w' o h.inv hs
  cases o with
  | new =>
    simp only [step, Res.ok.injEq] at hs; subst hs
    exact hashInv_append h _ (by simp) _
  | newOf ids =>
    simp only [step, Res.ok.injEq] at hs; subst hs
    exact hashInv_append h _ (setOf_sorted ids) _
  | copy b => exact absurd hg (by simp [Gentle])
  | interleave b1 b2 =>
    simp only [step, Res.bind_eq_ok, ofOption_eq_ok, Res.ok.injEq] at hs
    obtain ⟨o, ho, p, hp, s1, hs1, s2, hs2, r, hr, rfl⟩ := hs
    obtain ⟨r', n1, n2, e, _, _, _, _, _, _, hsort⟩ := interleave3_spec cap [w.nextId] s1 s2
    rw [hr] at e; cases e
    exact hashInv_append h _ (hsort (by simp)) _
  | add b id =>
    simp only [step, Res.bind_eq_ok, ofOption_eq_ok, Res.ok.injEq] at hs
    obtain ⟨o, ho, s, hs', rfl⟩ := hs
    have hb : b < w.bases.length := (List.getElem?_eq_some_iff.1 ho).1
    have hget : ∀ (i : Nat) (q : Base), (w.bases.set b { o with isHashed := false })[i]? = some q →
        ∃ q', w.bases[i]? = some q' ∧ q.set = q'.set := by
      intro i q hq
      by_cases hib : b = i
      · subst hib; simp [hb] at hq; exact ⟨o, ho, by rw [← hq]⟩
      · rw [List.getElem?_set_ne hib] at hq; exact ⟨q, hq, rfl⟩
    refine ⟨hinv', ?_, ?_⟩
    · intro i j q1 q2 h1 h2 he
      obtain ⟨q1', e1, f1⟩ := hget i q1 h1
      obtain ⟨q2', e2, f2⟩ := hget j q2 h2
      exact h.unshared i j q1' q2' e1 e2 (by rw [← f1, ← f2, he])
    · intro q hq hh t ht
      obtain ⟨i, hi⟩ := List.mem_iff_getElem?.1 hq
      by_cases hib : b = i
      · subst hib; simp [hb] at hi; rw [← hi] at hh; simp at hh
      · simp only [] at hi
        rw [List.getElem?_set_ne hib] at hi
        have hne : o.set ≠ q.set := fun he => hib (h.unshared b i o q ho hi he)
        rw [List.getElem?_set_ne hne] at ht
        exact h.fresh q (List.mem_of_getElem? hi) hh t ht
  | extend b other =>
    simp only [step, Res.bind_eq_ok, ofOption_eq_ok, Res.ok.injEq] at hs
    obtain ⟨o, ho, p, hp, s0, hs0, s1, hs1, s2, hs2, r, hr, rfl⟩ := hs
    refine ⟨hinv', h.unshared, ?_⟩
    intro q hq hh t ht
    obtain ⟨i, hi⟩ := List.mem_iff_getElem?.1 hq
    by_cases hib : b = i
    · subst hib
      simp only [] at hi
      rw [hg q hi] at hh; simp at hh
    · have hne : o.set ≠ q.set := fun he => hib (h.unshared b i o q ho hi he)
      rw [List.getElem?_set_ne hne, List.getElem?_set_ne hne] at ht
      exact h.fresh q (List.mem_of_getElem? hi) hh t ht
  | hash b =>
    simp only [step, Res.bind_eq_ok, ofOption_eq_ok] at hs
    obtain ⟨o, ho, s, hs', hs⟩ := hs
    have hb : b < w.bases.length := (List.getElem?_eq_some_iff.1 ho).1
    split at hs
    · cases hs; exact h
    · cases hs
      have hget : ∀ (i : Nat) (q : Base),
          (w.bases.set b { o with hash := hashOf s, isHashed := true })[i]? = some q →
          ∃ q', w.bases[i]? = some q' ∧ q.set = q'.set := by
        intro i q hq
        by_cases hib : b = i
        · subst hib; simp [hb] at hq; exact ⟨o, ho, by rw [← hq]⟩
        · rw [List.getElem?_set_ne hib] at hq; exact ⟨q, hq, rfl⟩
      refine ⟨hinv', ?_, ?_⟩
      · intro i j q1 q2 h1 h2 he
        obtain ⟨q1', e1, f1⟩ := hget i q1 h1
        obtain ⟨q2', e2, f2⟩ := hget j q2 h2
        exact h.unshared i j q1' q2' e1 e2 (by rw [← f1, ← f2, he])
      · intro q hq hh t ht
        obtain ⟨i, hi⟩ := List.mem_iff_getElem?.1 hq
        by_cases hib : b = i
        · subst hib; simp [hb] at hi; subst hi
          simp only [] at ht ⊢
          rw [hs'] at ht; cases ht; rfl
        · simp only [] at hi
          rw [List.getElem?_set_ne hib] at hi
          exact h.fresh q (List.mem_of_getElem? hi) hh t ht

/-- C60, what holds: as long as no base is copied and no base is extended while its hash is cached,
the reported hash is the hash of the current contents.  Missing: `extend` on a hashed base and
`add` through a copy leave the cached hash stale (`C60_counterexample`). -/
theorem C60_partial (cap : Nat) (w : World) (h : GentleRun cap World.empty w) (b : Nat)
    (s : List Nat) (hs : w.evidence b = some s) : w.reportedHash b = some (hashOf s) := by
  have hinv : ∀ w1 w2, GentleRun cap w1 w2 → HashInv w1 → HashInv w2 := by
    intro w1 w2 hr
    induction hr with
    | nil => exact id
    | cons o hg hst _ ih => intro hi; exact ih (gentle_step cap _ _ o hi hg hst)
  have h0 : HashInv World.empty :=
    ⟨inv_empty, by simp [World.empty], by simp [World.empty]⟩
  have hw := hinv _ _ h h0
  obtain ⟨o, ho, hso⟩ := evidence_iff.1 hs
  simp only [World.reportedHash, ho, hso, Option.bind_eq_bind, Option.bind_some, Option.pure_def]
  split
  · next hh => rw [hw.fresh o (List.mem_of_getElem? ho) hh s hso]
  · rfl

example : ∃ w, GentleRun 20000 World.empty w ∧ w.evidence 0 = some [0, 4] ∧
    w.reportedHash 0 = some (hashOf [0, 4]) := by
  refine ⟨_, .cons .new trivial rfl (.cons (.hash 0) trivial rfl
    (.cons (.add 0 4) trivial rfl (.cons (.hash 0) trivial rfl (.nil _)))), ?_, ?_⟩ <;> decide

/-- C60 counterexample: the hash reported after `extend` is that of the old contents; and the hash
reported by a copy is not updated when evidence is added through the original. -/
theorem C60_counterexample :
    (∃ w, run 20000 World.empty [.newOf [1], .newOf [2], .hash 0, .extend 0 1] = .ok w ∧
      w.evidence 0 = some [2] ∧ w.reportedHash 0 ≠ some (hashOf [2])) ∧
    (∃ w, run 20000 World.empty [.newOf [1], .copy 0, .hash 1, .add 0 2] = .ok w ∧
      w.evidence 1 = some [1, 2] ∧ w.reportedHash 1 ≠ some (hashOf [1, 2])) :=
  ⟨exists_ok _ (by ev_compute), exists_ok _ (by ev_compute)⟩

end Cnars.Props
