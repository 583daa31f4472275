import Verif.Parser.LexSure
import Verif.Parser.Kept

/-!
# Names that begin with `^`
-/

namespace Cnars.Parser
open Cnars Cnars.Props

/-! ## No word begins with `^` -/

mutual
/-- No token that makes a leaf begins with `^`. -/
def Gram.bare : Gram → Bool
  | .tok r e => e == .none || !(Nat.testBit r.heads (code 94))
  | .nt _ => true
  | .grp alts => Gram.bareAlts alts
  | .opt g | .star g | .plus g => Gram.bare g
/-- The same for sequences. -/
def Gram.bareAll : List Gram → Bool
  | [] => true
  | g :: gs => Gram.bare g && Gram.bareAll gs
/-- The same for alternatives. -/
def Gram.bareAlts : List (List Gram) → Bool
  | [] => true
  | b :: bs => Gram.bareAll b && Gram.bareAlts bs
end

theorem Gram.bareAlts_mem {alts : List (List Gram)} (h : Gram.bareAlts alts = true) {b : List Gram}
    (hb : b ∈ alts) : Gram.bareAll b = true := by
  induction alts with
  | nil => simp at hb
  | cons x xs ih =>
    rw [Gram.bareAlts, Bool.and_eq_true] at h
    rcases List.mem_cons.mp hb with rfl | hb
    · exact h.1
    · exact ih h.2 hb

theorem rules_bare (n : NT) : ((rules n).all fun r => Gram.bareAll r.1) = true := by
  cases n <;> decide +kernel

theorem rule_bare {n : NT} {body : List Gram} {e : Emit} (h : (body, e) ∈ rules n) :
    Gram.bareAll body = true := List.all_eq_true.mp (rules_bare n) _ h

/-- The text does not begin with `^`. -/
def NoCaret (s : List Char) : Prop := s.head? ≠ some '^'

theorem bare_token {r : Rx} {u : List WChar} (h : r.Matches u) (hr : Nat.testBit r.heads (code 94) = false) :
    NoCaret (u.map fun c => Char.ofNat c.toNat) := by
  intro hc
  cases u with
  | nil => simp at hc
  | cons c v =>
    have hm := Rx.heads_complete h
    simp only [List.map_cons, List.head?_cons, Option.some.injEq] at hc
    cases c with
    | negSucc n => cases hm
    | ofNat n =>
      have hn : n = 94 := by
        have h1 : (Char.ofNat n).toNat = 94 := by
          have : (Int.ofNat n).toNat = n := rfl
          rw [this] at hc
          rw [hc]; rfl
        unfold Char.ofNat at h1
        split at h1
        · simpa [Char.toNat, Char.ofNatAux] using h1
        · cases h1
      subst hn
      have hm : Nat.testBit r.heads (code 94) = true := hm
      rw [hr] at hm
      cases hm

mutual
theorem Derives.bare {g : Gram} {u : List WChar} {as : List Ast} (h : Derives g u as) (hg : g.bare = true) :
    ∀ s ∈ Ast.leafTextsAll as, NoCaret s := by
  match h with
  | .tok_plain _ => simp [Ast.leafTextsAll]
  | .tok_leaf he hm =>
    intro s hs
    simp only [Ast.leafTextsAll, Ast.leafTexts, List.append_nil, List.mem_singleton] at hs
    subst hs
    rw [Gram.bare, Bool.or_eq_true, Bool.not_eq_true'] at hg
    rcases hg with hg | hg
    · exact absurd (by simpa using hg) he
    · exact bare_token hm hg
  | .nt_plain hr h => exact h.bare (rule_bare hr)
  | .nt_node _ hr h =>
    intro s hs
    simp only [Ast.leafTextsAll, Ast.leafTexts, List.append_nil] at hs
    exact h.bare (rule_bare hr) s hs
  | .grp hb h => exact h.bare (Gram.bareAlts_mem (by rwa [Gram.bare] at hg) hb)
  | .opt_none => simp [Ast.leafTextsAll]
  | .opt_some h => exact h.bare (by rwa [Gram.bare] at hg)
  | .star_nil => simp [Ast.leafTextsAll]
  | .star_plus h => exact h.bare hg
  | .plus_one h => exact h.bare (by rwa [Gram.bare] at hg)
  | .plus_more h1 h2 =>
    intro s hs
    rw [Ast.leafTextsAll_append, List.mem_append] at hs
    rcases hs with hs | hs
    · exact h1.bare hg s hs
    · exact h2.bare (by rwa [Gram.bare] at hg) s hs
theorem DerivesAll.bare {gs : List Gram} {u : List WChar} {as : List Ast} (h : DerivesAll gs u as)
    (hg : Gram.bareAll gs = true) : ∀ s ∈ Ast.leafTextsAll as, NoCaret s := by
  match h with
  | .nil => simp [Ast.leafTextsAll]
  | .cons h1 h2 =>
    rw [Gram.bareAll, Bool.and_eq_true] at hg
    intro s hs
    rw [Ast.leafTextsAll_append, List.mem_append] at hs
    rcases hs with hs | hs
    · exact h1.bare hg.1 s hs
    · exact h2.bare hg.2 s hs
end

/-- No word of a line begins with `^`. -/
theorem mentions_bare {line : List WChar} {as : List Ast} (hn : IsNarsese line as) {ps : List Part}
    (hp : partAll as = some ps) : ∀ m ∈ Ast.mentionsAll as, NoCaret m.text := fun m hm =>
  DerivesAll.bare hn (by decide +kernel) _ (Ast.mentionsAll_leaf hp m hm)

/-! ## Operations are the atoms with such a name -/

/-- Operations are the atoms whose names begin with `^`. -/
def OpNames (A : List Named) : Prop := ∀ x ∈ A, x.isOp = true ↔ x.name.toList.head? = some '^'

theorem caret_head (s : String) : ("^" ++ s).toList.head? = some '^' := by
  rw [String.toList_append]; rfl

theorem opNames_lookup {w w' : World} {n : String} (h : w.lookup n = .ok w') : w'.atoms = w.atoms := by
  unfold World.lookup at h
  simp only at h
  split at h
  · cases h
  · split at h
    · cases h; rfl
    · cases h

theorem opNames_create {w w' : World} {n : String} {a : Word} (h : w.create n a = .ok w')
    (hn : n.toList.head? ≠ some '^') (ho : OpNames w.atoms) : OpNames w'.atoms := by
  unfold World.create at h
  split at h
  · rw [opNames_lookup h]; exact ho
  · cases h
    intro x hx
    rcases List.mem_append.mp hx with hx | hx
    · exact ho x hx
    · rw [List.mem_singleton.mp hx]
      simp [hn]

theorem opNames_operation {w w' : World} {n : String} {a : Word} (h : w.operation n a = .ok w')
    (ho : OpNames w.atoms) : OpNames w'.atoms := by
  unfold World.operation at h
  split at h
  · rw [opNames_lookup h]; exact ho
  · cases h
    intro x hx
    rcases List.mem_append.mp hx with hx | hx
    · exact ho x hx
    · rw [List.mem_singleton.mp hx]
      exact ⟨fun _ => caret_head n, fun _ => rfl⟩

theorem opNames_making {args : List Term} {res : Res Term} {r : Term} {e e' : Env}
    (h : makingTerm args res e = (.ok r, e')) : e'.world.atoms = e.world.atoms := by
  obtain ⟨t', e1, h1, h⟩ := Act.bind_ok h
  obtain ⟨u, e2, h2, h⟩ := Act.bind_ok h
  obtain ⟨rfl, rfl⟩ := Act.pure_ok h
  obtain ⟨_, rfl⟩ := Act.lift_ok h1
  exact (dropAll_atoms (onWorld_ok h2).1).1

mutual
theorem Syn.eval_opNames {M : Mach} : ∀ (t : Syn) {e e' : Env} {r : Term},
    t.eval M e = (.ok r, e') → (∀ m ∈ t.mentions, NoCaret m.text) → OpNames e.world.atoms →
    OpNames e'.world.atoms
  | .name s, e, e', r, h, hm, ho => opNames_create (named_ok h).2.2.2.1 (by
      rw [String.toList_ofList]; exact hm (.name s) (by simp [Syn.mentions])) ho
  | .op s, e, e', r, h, hm, ho => opNames_operation (named_ok h).2.2.2.1 ho
  | .interval s, e, e', r, h, hm, ho => by
    rw [Syn.eval] at h
    obtain ⟨x, e1, h1, h⟩ := Act.bind_ok h
    obtain ⟨n, e2, h2, h⟩ := Act.bind_ok h
    rwa [← (Act.pure_ok h).2, ← (Act.lift_ok h2).2, ← (Act.lift_ok h1).2]
  | .var k s, e, e', r, h, hm, ho => by
    rw [Syn.eval] at h
    obtain ⟨i, e1, h1, h⟩ := Act.bind_ok h
    rw [← (Act.pure_ok h).2]
    simp only [Action.number, Prod.mk.injEq] at h1
    rwa [← h1.2]
  | .stmt s c p, e, e', r, h, hm, ho => by
    rw [Syn.mentions] at hm
    obtain ⟨hm1, hm2⟩ := List.forall_mem_append.mp hm
    rw [Syn.eval] at h
    obtain ⟨s', e1, h1, h⟩ := Act.bind_ok h
    obtain ⟨p', e2, h2, h⟩ := Act.bind_ok h
    rw [opNames_making h]
    exact Syn.eval_opNames p h2 hm2 (Syn.eval_opNames s h1 hm1 ho)
  | .comp c ts, e, e', r, h, hm, ho => by
    rw [Syn.mentions] at hm
    rw [Syn.eval] at h
    obtain ⟨ts', e1, h1, h⟩ := Act.bind_ok h
    rw [opNames_making h]
    exact Syn.evalAll_opNames ts h1 hm ho
  | .call f ts, e, e', r, h, hm, ho => by
    rw [Syn.mentions] at hm
    obtain ⟨hm1, hm2⟩ := List.forall_mem_append.mp hm
    rw [Syn.eval] at h
    obtain ⟨f', e1, h1, h⟩ := Act.bind_ok h
    obtain ⟨ts', e2, h2, h⟩ := Act.bind_ok h
    rw [opNames_making h]
    exact Syn.evalAll_opNames ts h2 hm2 (Syn.eval_opNames f h1 hm1 ho)
  | .callName s ts, e, e', r, h, hm, ho => by
    rw [Syn.mentions] at hm
    rw [Syn.eval] at h
    obtain ⟨ts', e1, h1, h⟩ := Act.bind_ok h
    obtain ⟨f', e2, h2, h⟩ := Act.bind_ok h
    rw [opNames_making h]
    exact opNames_operation (named_ok h2).2.2.2.1
      (Syn.evalAll_opNames ts h1 (List.forall_mem_append.mp hm).1 ho)
/-- The same for lists. -/
theorem Syn.evalAll_opNames {M : Mach} : ∀ (ts : List Syn) {e e' : Env} {rs : List Term},
    Syn.evalAll M ts e = (.ok rs, e') → (∀ m ∈ Syn.mentionsAll ts, NoCaret m.text) →
    OpNames e.world.atoms → OpNames e'.world.atoms
  | [], e, e', rs, h, hm, ho => by
    rw [Syn.evalAll] at h
    rwa [← (Act.pure_ok h).2]
  | t :: ts, e, e', rs, h, hm, ho => by
    rw [Syn.mentionsAll] at hm
    obtain ⟨hm1, hm2⟩ := List.forall_mem_append.mp hm
    rw [Syn.evalAll] at h
    obtain ⟨r, e1, h1, h⟩ := Act.bind_ok h
    obtain ⟨us, e2, h2, h⟩ := Act.bind_ok h
    rw [← (Act.pure_ok h).2]
    exact Syn.evalAll_opNames ts h2 hm2 (Syn.eval_opNames t h1 hm1 ho)
end

end Cnars.Parser
