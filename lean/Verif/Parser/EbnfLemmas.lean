import Verif.Parser.Ebnf
import Verif.Parser.LR

/-!
# From parse trees to derivations

Every symbol of the generated tables stands for a piece of `narsese.par`.  `ruleOk` checks that a
production of the tables is a rule of that file, or an instance of one of the ways in which UniCC
expands groups, `?`, `*` and `+`; `valid_derives` turns a valid parse tree into a derivation.
-/

namespace Cnars.Parser

mutual
/-- Equality of right-hand sides, computable. -/
def Gram.same : Gram → Gram → Bool
  | .tok r e, .tok r' e' => decide (r = r') && decide (e = e')
  | .nt n, .nt n' => decide (n = n')
  | .grp a, .grp a' => Gram.sameAlts a a'
  | .opt g, .opt g' => Gram.same g g'
  | .star g, .star g' => Gram.same g g'
  | .plus g, .plus g' => Gram.same g g'
  | _, _ => false

def Gram.sameAll : List Gram → List Gram → Bool
  | [], [] => true
  | g :: gs, g' :: gs' => Gram.same g g' && Gram.sameAll gs gs'
  | _, _ => false

def Gram.sameAlts : List (List Gram) → List (List Gram) → Bool
  | [], [] => true
  | g :: gs, g' :: gs' => Gram.sameAll g g' && Gram.sameAlts gs gs'
  | _, _ => false
end

mutual
theorem Gram.same_eq : ∀ {a b : Gram}, Gram.same a b = true → a = b
  | .tok r e, b, h => by
    cases b <;> simp [Gram.same] at h
    rw [h.1, h.2]
  | .nt n, b, h => by
    cases b <;> simp [Gram.same] at h
    rw [h]
  | .grp a, b, h => by
    cases b <;> simp [Gram.same] at h
    rw [Gram.sameAlts_eq h]
  | .opt g, b, h => by
    cases b <;> simp [Gram.same] at h
    rw [Gram.same_eq h]
  | .star g, b, h => by
    cases b <;> simp [Gram.same] at h
    rw [Gram.same_eq h]
  | .plus g, b, h => by
    cases b <;> simp [Gram.same] at h
    rw [Gram.same_eq h]

theorem Gram.sameAll_eq : ∀ {a b : List Gram}, Gram.sameAll a b = true → a = b
  | [], b, h => by cases b <;> simp [Gram.sameAll] at h; rfl
  | g :: gs, b, h => by
    cases b <;> simp [Gram.sameAll] at h
    rw [Gram.same_eq h.1, Gram.sameAll_eq h.2]

theorem Gram.sameAlts_eq : ∀ {a b : List (List Gram)}, Gram.sameAlts a b = true → a = b
  | [], b, h => by cases b <;> simp [Gram.sameAlts] at h; rfl
  | g :: gs, b, h => by
    cases b <;> simp [Gram.sameAlts] at h
    rw [Gram.sameAll_eq h.1, Gram.sameAlts_eq h.2]
end

/-- Is `body` with the name `e` a production for `A`? -/
def Gram.produces (A : Gram) (body : List Gram) (e : Emit) : Bool :=
  match A with
  | .tok _ _ => false
  | .nt n => (rules n).any fun x => decide (x.2 = e) && Gram.sameAll x.1 body
  | .grp alts => decide (e = .none) && alts.any (fun x => Gram.sameAll x body)
  | .opt g => decide (e = .none) && (Gram.sameAll body [] || Gram.sameAll body [g])
  | .star g => decide (e = .none) && (Gram.sameAll body [] || Gram.sameAll body [.plus g])
  | .plus g => decide (e = .none) && (Gram.sameAll body [g] || Gram.sameAll body [.plus g, g])

theorem derivesAll_nil {u : List WChar} {a : List Ast} (h : DerivesAll [] u a) :
    u = [] ∧ a = [] := by
  cases h; exact ⟨rfl, rfl⟩

theorem derivesAll_one {g : Gram} {u : List WChar} {a : List Ast} (h : DerivesAll [g] u a) :
    Derives g u a := by
  cases h with
  | cons h1 h2 =>
    obtain ⟨rfl, rfl⟩ := derivesAll_nil h2
    simpa using h1

theorem produces_sound {A : Gram} {body : List Gram} {e : Emit}
    (h : A.produces body e = true) {u : List WChar} {a : List Ast} (hd : DerivesAll body u a) :
    Derives A u (wrapNodes e a) := by
  cases A with
  | tok _ _ => simp [Gram.produces] at h
  | nt n =>
    simp only [Gram.produces, List.any_eq_true, Bool.and_eq_true, decide_eq_true_eq] at h
    obtain ⟨⟨b, e'⟩, hm, rfl, hs⟩ := h
    have := Gram.sameAll_eq hs
    simp only at this
    subst this
    unfold wrapNodes
    split
    · rename_i he; simp only at he; subst he; exact .nt_plain hm hd
    · rename_i he; exact .nt_node he hm hd
  | grp alts =>
    simp only [Gram.produces, List.any_eq_true, Bool.and_eq_true, decide_eq_true_eq] at h
    obtain ⟨rfl, b, hm, hs⟩ := h
    have := Gram.sameAll_eq hs
    subst this
    simpa [wrapNodes] using Derives.grp hm hd
  | opt g =>
    simp only [Gram.produces, Bool.or_eq_true, Bool.and_eq_true, decide_eq_true_eq] at h
    obtain ⟨rfl, h | h⟩ := h <;> have := Gram.sameAll_eq h <;> subst this
    · obtain ⟨rfl, rfl⟩ := derivesAll_nil hd; simpa [wrapNodes] using Derives.opt_none
    · simpa [wrapNodes] using Derives.opt_some (derivesAll_one hd)
  | star g =>
    simp only [Gram.produces, Bool.or_eq_true, Bool.and_eq_true, decide_eq_true_eq] at h
    obtain ⟨rfl, h | h⟩ := h <;> have := Gram.sameAll_eq h <;> subst this
    · obtain ⟨rfl, rfl⟩ := derivesAll_nil hd; simpa [wrapNodes] using Derives.star_nil
    · simpa [wrapNodes] using Derives.star_plus (derivesAll_one hd)
  | plus g =>
    simp only [Gram.produces, Bool.or_eq_true, Bool.and_eq_true, decide_eq_true_eq] at h
    obtain ⟨rfl, h | h⟩ := h <;> have := Gram.sameAll_eq h <;> subst this
    · simpa [wrapNodes] using Derives.plus_one (derivesAll_one hd)
    · cases hd with
      | cons h1 h2 => simpa [wrapNodes] using Derives.plus_more h1 (derivesAll_one h2)

/-- The meaning of a symbol number. -/
def gramAt (G : List Gram) (s : Nat) : Gram := (G[s]?).getD (.grp [])

/-- A production of the tables is one of the grammar. -/
def ruleOk (T : Tables) (G : List Gram) (p : Nat) : Bool :=
  (gramAt G (lhsOf T p)).produces ((rhsOf T p).map (gramAt G)) (prodEmit T p)

mutual
theorem valid_derives {T : Tables} {G : List Gram} {tok : Nat → List WChar → Prop}
    (hp : ∀ p, p < T.prods.length → ruleOk T G p = true)
    (ht : ∀ s w, tok s w → Derives (gramAt G s) w (leafNodes (symEmit T s) w)) :
    ∀ {t : PTree}, t.Valid T tok → Derives (gramAt G (t.root T)) t.yield (t.ast T)
  | .leaf s w, h => by
    cases h with
    | leaf h => simpa [PTree.root, PTree.yield, PTree.ast] using ht s w h
  | .node p cs, h => by
    cases h with
    | node h1 h2 h3 =>
      have h4 := hp p h1
      unfold ruleOk at h4
      rw [h2] at h4
      simpa [PTree.root, PTree.yield, PTree.ast] using
        produces_sound h4 (by rw [List.map_map]; exact valids_derive hp ht h3)

theorem valids_derive {T : Tables} {G : List Gram} {tok : Nat → List WChar → Prop}
    (hp : ∀ p, p < T.prods.length → ruleOk T G p = true)
    (ht : ∀ s w, tok s w → Derives (gramAt G s) w (leafNodes (symEmit T s) w)) :
    ∀ {ts : List PTree}, (∀ t ∈ ts, t.Valid T tok) →
      DerivesAll (ts.map fun t => gramAt G (t.root T)) (PTree.yields ts) (PTree.asts T ts)
  | [], _ => by simpa [PTree.yields, PTree.asts] using DerivesAll.nil
  | t :: ts, h => by
    simp only [List.map_cons, PTree.yields, PTree.asts]
    exact .cons (valid_derives hp ht (h t (by simp)))
      (valids_derive hp ht (fun x hx => h x (by simp [hx])))
end

end Cnars.Parser
