import Verif.Props.Stamps

/-!
# C56: histories of any length
-/

namespace Cnars.Props
open Cnars Cnars.Stamp

/-- The ids of any number of sentences. -/
theorem createAll_ids (g : Globals) (cs : List Creation) (hg : g.inputId < 2^64) :
    (createAll g cs).1.length = cs.length ∧
    ∀ i c, cs[i]? = some c → ∃ s, (createAll g cs).1[i]? = some s ∧
      (Tensed c → s.evidentialBase = none) ∧
      (¬ Tensed c → s.evidentialBase = some [(g.inputId + i) % 2^64]) := by
  induction cs generalizing g with
  | nil => simp [createAll]
  | cons c cs ih =>
    obtain ⟨hc, h1, h2⟩ := create_spec g c
    have hid : (create g c).2.inputId = (g.inputId + 1) % 2^64 := by rw [hc]
    obtain ⟨il, ih⟩ := ih (create g c).2 (by omega)
    refine ⟨by simp [createAll, il], ?_⟩
    intro i c' hi
    cases i with
    | zero =>
      simp at hi; subst hi
      exact ⟨_, rfl, h1, fun hn => (h2 hn).trans (by rw [Nat.add_zero, Nat.mod_eq_of_lt hg])⟩
    | succ i =>
      obtain ⟨s, hs, a, b⟩ := ih i c' (by simpa using hi)
      refine ⟨s, by simpa [createAll] using hs, a, ?_⟩
      intro hn; rw [b hn, hid]; congr 2; omega

/-- C56, exactly, for histories of any length in one translation unit: two sentences entered without a tense mark have an id in
common if and only if the number of sentences from the one to the other is a multiple of 2^64.  Missing: sentences with a tense
mark, several translation units. -/
theorem C56_exact_partial (g : Globals) (hg : g.inputId < 2^64) (cs : List Creation) {i j : Nat} {ci cj : Creation}
    (hi : cs[i]? = some ci) (hj : cs[j]? = some cj) (ni : ¬ Tensed ci) (nj : ¬ Tensed cj) :
    ∃ (si sj : Stamp) (bi bj : List Nat), (createAll g cs).1[i]? = some si ∧ (createAll g cs).1[j]? = some sj ∧
      si.evidentialBase = some bi ∧ sj.evidentialBase = some bj ∧
      ((∃ x, x ∈ bi ∧ x ∈ bj) ↔ i % 2^64 = j % 2^64) := by
  obtain ⟨_, h⟩ := createAll_ids g cs hg
  obtain ⟨si, e1, _, b1⟩ := h i ci hi
  obtain ⟨sj, e2, _, b2⟩ := h j cj hj
  refine ⟨si, sj, _, _, e1, e2, b1 ni, b2 nj, ?_⟩
  simp only [List.mem_singleton]
  constructor
  · rintro ⟨x, rfl, h⟩; omega
  · intro h; exact ⟨_, rfl, by omega⟩

/-- An untensed and a constructed sentence, with a tensed one between them. -/
example : [Creation.parsed none, .parsed (some 5), .constructed][2]? = some .constructed ∧ ¬ Tensed .constructed ∧
    ¬ Tensed (.parsed none) := ⟨rfl, id, id⟩

/-- C56 is false without a limit: for every sentence there is a history in which the one 2^64 later has the same base. -/
theorem C56_wrap_counterexample (g : Globals) (hg : g.inputId < 2^64) (n : Nat) : ∃ (cs : List Creation) (s s' : Stamp),
    (createAll g cs).1[n]? = some s ∧ (createAll g cs).1[n + 2^64]? = some s' ∧ s.evidentialBase.isSome ∧
      s.evidentialBase = s'.evidentialBase := by
  obtain ⟨_, h⟩ := createAll_ids g (List.replicate (n + 2^64 + 1) .constructed) hg
  obtain ⟨s, e1, _, b1⟩ := h n .constructed (List.getElem?_replicate_of_lt (by omega))
  obtain ⟨s', e2, _, b2⟩ := h (n + 2^64) .constructed (List.getElem?_replicate_of_lt (by omega))
  refine ⟨_, s, s', e1, e2, by rw [b1 id]; rfl, ?_⟩
  have e : (g.inputId + n) % 2^64 = (g.inputId + (n + 2^64)) % 2^64 := by omega
  rw [b1 id, b2 id, e]

end Cnars.Props
