import Verif.Props.Demo

/-!
# What main.cpp prints
-/

namespace Cnars.Props
open Cnars Cnars.Parser Cnars.Term

theorem same_both {a b : Str} (hab : a ≠ b) {tree : Tree}
    (h : Same (.paren ['&', '&'] [.leaf a, .leaf b]) tree) :
    tree = .paren ['&', '&'] [.leaf a, .leaf b] ∨ tree = .paren ['&', '&'] [.leaf b, .leaf a] := by
  have leafs : ∀ {us : List Tree}, List.Forall₂ Same [.leaf a, .leaf b] us → us = [.leaf a, .leaf b] := by
    intro us h
    cases h with
    | cons h1 h2 => cases h2 with
      | cons h2 h3 => cases h3; cases h1; cases h2; rfl
  generalize hh : (['&', '&'] : Str) = s at h
  generalize ht : Tree.paren s [.leaf a, .leaf b] = t at h
  cases h with
  | paren _ h =>
    cases ht
    rw [leafs h]
    exact .inl rfl
  | set _ h1 h2 h3 =>
    cases ht
    rename_i us' _ _
    rw [leafs h1] at h2 h3
    have ha : Tree.leaf a ∈ us' := (h2 _).1 (by simp)
    have hb : Tree.leaf b ∈ us' := (h2 _).1 (by simp)
    have hne : Tree.leaf a ≠ .leaf b := fun e => hab (by cases e; rfl)
    match us', h3 with
    | [], _ => simp at ha
    | [x], _ =>
      simp only [List.mem_singleton] at ha hb
      exact absurd (ha.trans hb.symm) hne
    | [x, y], _ =>
      simp only [List.mem_cons, List.not_mem_nil, or_false] at ha hb
      rcases ha with rfl | rfl <;> rcases hb with hb | hb
      · exact absurd hb.symm hne
      · subst hb; exact .inl rfl
      · subst hb; exact .inr rfl
      · exact absurd hb.symm hne
    | _ :: _ :: _ :: _, h3 => simp at h3
  | _ => cases ht

/-- `x` is one of `xs`, unless the hash of the term in the line, which was read in some state, clashes with the
key of an atom. -/
def Says (M : Mach) (l : Entry) (x : Str) (xs : List Str) : Prop :=
  ∃ (k : Task) (env env' : Env), evalTask M undefined l.tree env.clearNames = (.ok k, env') ∧
    (Print.NoClash env'.world.store.dict k.sentence.term → x ∈ xs)

theorem says_both {M : Mach} (hm : Machine M) {fix : Nat → ℚ → Str} (hf : Fixed fix) {a b : List Char}
    (hab : a ≠ b) (h : fair (both a b) = true) (hb : isBoth a b = true) {y : Str} (hy : Answers M fix (both a b) y) :
    ∃ x, y = frame x ∧ Says M (both a b) x
      [['(', '&', '&', ',', ' '] ++ a ++ [',', ' '] ++ b ++ [')'],
       ['(', '&', '&', ',', ' '] ++ b ++ [',', ' '] ++ a ++ [')']] := by
  have hacc : accepted? (parseText true 1000 freshBuf (bytes (bothLine a b)) 0) = true := by
    simp only [fair, Bool.and_eq_true] at h
    exact h.1.1.1.1.2
  obtain ⟨k, env, env', x, he, rfl, hx⟩ := answers_frame hm hf hacc (both_part hb) hy
  refine ⟨x, rfl, k, env, env', he, fun hk => ?_⟩
  obtain ⟨tree, rfl, ht⟩ := hx hk
  rcases same_both hab ht with rfl | rfl <;> simp [Tree.text, Tree.texts]

theorem same_robin {tree : Tree}
    (h : Same (.angle (.leaf ['r', 'o', 'b', 'i', 'n']) .inheritance (.leaf ['b', 'i', 'r', 'd'])) tree) :
    tree = .angle (.leaf ['r', 'o', 'b', 'i', 'n']) .inheritance (.leaf ['b', 'i', 'r', 'd']) := by
  cases h with
  | angle _ h1 h2 => cases h1; cases h2; rfl

theorem robin_accepted : accepted? (parseText true 1000 freshBuf
    (bytes ['<', 'r', 'o', 'b', 'i', 'n', '-', '-', '>', 'b', 'i', 'r', 'd', '>', '.']) 0) = true := by
  decide +kernel

theorem says_robin {M : Mach} (hm : Machine M) {fix : Nat → ℚ → Str} (hf : Fixed fix) {y : Str}
    (hy : Answers M fix robin y) :
    ∃ x, y = frame x ∧ Says M robin x
      [['<', 'r', 'o', 'b', 'i', 'n', ' ', '-', '-', '>', ' ', 'b', 'i', 'r', 'd', '>']] := by
  obtain ⟨k, env, env', x, he, rfl, hx⟩ := answers_frame hm hf robin_accepted robin_part hy
  refine ⟨x, rfl, k, env, env', he, fun hk => ?_⟩
  obtain ⟨tree, rfl, ht⟩ := hx hk
  rw [same_robin ht]
  decide +kernel

/-- C96: `main` prints the address of its first term, `go:`, and for each of its four lines the default budget, the
term, with the components of the conjunctions in either order, and the default truth value; on every machine
with an allocator for two names.

Missing from the full statement: clashes of the hash of a term with the key of an atom. -/
theorem C96_main_partial {M : Mach} (hm : Machine M) (hM : FreshBelow M 2) (h2 : M.erange 2 = false)
    {fix : Nat → ℚ → Str} (hf : Fixed fix) {bg : Fin 3 → ℚ → Str} {d : Nat} (hd : d < 3) {fuel : Nat}
    (hfuel : 366 ≤ fuel) (a : Word) (g : Stamp.Globals) :
    ∃ x1 x2 x3 x4 : Str,
      mainOut M fix bg true fuel d a (Prog.start g).ses = .ok
        [['<', 'T', 'e', 'r', 'm', ' ', 'a', 't', ' '] ++ Nat.toDigits 16 a.toNat ++ ['>'], ['g', 'o', ':'],
          frame x1, frame x2, frame x3, frame x4] ∧
      Says M robin x1 [['<', 'r', 'o', 'b', 'i', 'n', ' ', '-', '-', '>', ' ', 'b', 'i', 'r', 'd', '>']] ∧
      Says M (both ['A'] ['B']) x2
        [['(', '&', '&', ',', ' ', 'A', ',', ' ', 'B', ')'], ['(', '&', '&', ',', ' ', 'B', ',', ' ', 'A', ')']] ∧
      Says M (both ['A', '1'] ['B', '1']) x3
        [['(', '&', '&', ',', ' ', 'A', '1', ',', ' ', 'B', '1', ')'],
         ['(', '&', '&', ',', ' ', 'B', '1', ',', ' ', 'A', '1', ')']] ∧
      Says M (both ['A', '2'] ['B', '2']) x4
        [['(', '&', '&', ',', ' ', 'A', '2', ',', ' ', 'B', '2', ')'],
         ['(', '&', '&', ',', ' ', 'B', '2', ',', ' ', 'A', '2', ')']] := by
  have h1 : M.erange 1 = false := by
    have := hm.range 1000 (le_refl _)
    norm_num at this
    exact this
  have f0 : fair (both ['A'] ['B']) = true ∧ isBoth ['A'] ['B'] = true := by decide +kernel
  have f1 : fair (both ['A', '1'] ['B', '1']) = true ∧ isBoth ['A', '1'] ['B', '1'] = true := by decide +kernel
  have f2 : fair (both ['A', '2'] ['B', '2']) = true ∧ isBoth ['A', '2'] ['B', '2'] = true := by decide +kernel
  have hl : ∀ l ∈ mainEntries, l.Fair M 2 fuel := by
    intro l hl
    simp only [mainEntries, List.mem_cons, List.not_mem_nil, or_false] at hl
    rcases hl with rfl | rfl | rfl | rfl
    · exact robin_fair h1 h2 hfuel
    · exact both_fair h1 h2 hfuel f0.1 f0.2
    · exact both_fair h1 h2 hfuel f1.1 f1.2
    · exact both_fair h1 h2 hfuel f2.1 f2.2
  obtain ⟨texts, s, e, hans, _⟩ := C96_loop_partial (fix := fix) (bg := bg) hm hM hd (g := g) hl
  rw [mainEntries_texts] at e
  obtain ⟨y1, t1, k1, hans1, rfl⟩ := List.forall₂_cons_left_iff.mp hans
  obtain ⟨y2, t2, k2, hans2, rfl⟩ := List.forall₂_cons_left_iff.mp hans1
  obtain ⟨y3, t3, k3, hans3, rfl⟩ := List.forall₂_cons_left_iff.mp hans2
  obtain ⟨y4, t4, k4, hans4, rfl⟩ := List.forall₂_cons_left_iff.mp hans3
  cases hans4
  obtain ⟨x1, rfl, s1⟩ := says_robin hm hf k1
  obtain ⟨x2, rfl, s2⟩ := says_both hm hf (by decide) f0.1 f0.2 k2
  obtain ⟨x3, rfl, s3⟩ := says_both hm hf (by decide) f1.1 f1.2 k3
  obtain ⟨x4, rfl, s4⟩ := says_both hm hf (by decide) f2.1 f2.2 k4
  refine ⟨x1, x2, x3, x4, ?_, s1, s2, s3, s4⟩
  simp only [mainOut, Repr.term, Option.orElse, Res.ok_bind, e]
  rfl

/-- What is printed with the allocator of the examples. -/
example : (match mainOut roomy fixed (fun _ _ => []) true 366 0 0x5581 (Prog.start env0.globals).ses with
    | .ok l => l.map String.ofList
    | _ => []) =
    ["<Term at 5581>", "go:", "$0.80;0.80;0.50$ <robin --> bird>. %1.000;0.900%",
      "$0.80;0.80;0.50$ (&&, B, A). %1.000;0.900%", "$0.80;0.80;0.50$ (&&, B1, A1). %1.000;0.900%",
      "$0.80;0.80;0.50$ (&&, B2, A2). %1.000;0.900%"] := by decide +kernel

/-- C96 is false for all lines that are rejected: `main` would dereference a null pointer, whatever it has read
before. -/
theorem C96_rejected_counterexample {M : Mach} {fix : Nat → ℚ → Str} {bg : Fin 3 → ℚ → Str} {strict : Bool} {fuel d : Nat}
    {lines : List (List WChar)} {s s1 s2 : Session} {texts : List Str} {line : List WChar}
    (h : demo M fix bg strict fuel d lines s = .ok (texts, s1))
    (hr : parseTask M undefined strict fuel d s1 line = (.ok none, s2)) (more : List (List WChar)) :
    demo M fix bg strict fuel d (lines ++ line :: more) s = .ub := by
  induction lines generalizing s texts with
  | nil =>
    rw [demo, Res.ok.injEq, Prod.mk.injEq] at h
    obtain ⟨_, rfl⟩ := h
    rw [List.nil_append, demo, hr]
  | cons l lines ih =>
    rw [List.cons_append, demo]
    rw [demo] at h
    split at h <;> rename_i e <;> first | cases h | skip
    simp only [Res.bind_eq_ok] at h
    obtain ⟨x, h1, w, h2, ⟨y, s'⟩, h3, h4⟩ := h
    simp only [Res.pure_eq, Res.ok.injEq, Prod.mk.injEq] at h4
    obtain ⟨_, rfl⟩ := h4
    simp only [h1, h2, Res.ok_bind]
    rw [ih h3]
    rfl

/-- After `A.`, the line `A&.` is rejected. -/
example : (match demo roomy fixed (fun _ _ => []) true 1000 0 [bytes ['A', '.']] (Prog.start env0.globals).ses with
      | .ok (_, s) => (match parseTask roomy undefined true 1000 0 s (bytes ['A', '&', '.']) with
        | (.ok none, _) => true
        | _ => false)
      | _ => false) = true := by decide +kernel

end Cnars.Props
