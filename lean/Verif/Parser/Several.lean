import Verif.Parser.Session

/-!
# Several parser objects

`NARSESEPARSER::parser` is `static` in a header (NarseseParser.h:31), so every translation unit that includes it
(NarseseParser.cpp, Narsese.cpp, main.cpp, the tests) has a parser of its own.  They share the dictionaries of
`INTERPRETER::interpreter` (Interpreter.cpp:9); the semantic actions, and so the counter of inputs, are those of
NarseseParser.cpp for all of them.
-/

namespace Cnars.Parser
open Cnars

/-- The parsers of a program, and what they share.  Simplified: the names of variables are members of each parser; as every
`parse_task` clears them (NarseseParser.h:18-20), they are kept with what is shared. -/
structure Fleet where
  buf : Nat → Buf
  ast : Nat → Member
  env : Env

/-- When the program starts: all of them are new. -/
def Fleet.fresh (env : Env) : Fleet := ⟨fun _ => freshBuf, fun _ => .uninit, env⟩

/-- A call `parser->parse_task(text)` in the translation unit `who`, whose parser has the value `delay` in
`error_delay`. -/
structure TaskCall where
  who : Nat
  delay : Nat
  text : List WChar

/-- One call; an exception is caught by the program. -/
def Fleet.call (M : Mach) (bad : Act Val) (strict : Bool) (fuel : Nat) (F : Fleet) (c : TaskCall) :
    Res (Except String (Option Task) × Fleet) :=
  match parseTask M bad strict fuel c.delay ⟨F.buf c.who, F.ast c.who, F.env⟩ c.text with
  | (.ok t, s) => .ok (.ok t, ⟨Function.update F.buf c.who s.buf, Function.update F.ast c.who s.ast, s.env⟩)
  | (.throw e, s) => .ok (.error e, ⟨Function.update F.buf c.who s.buf, Function.update F.ast c.who s.ast, s.env⟩)
  | (.ub, _) => .ub
  | (.outOfFuel, _) => .outOfFuel

/-- All calls of a program: what each gave, and the end. -/
def Fleet.calls (M : Mach) (bad : Act Val) (strict : Bool) (fuel : Nat) :
    Fleet → List TaskCall → Res (List (Except String (Option Task)) × Fleet)
  | F, [] => .ok ([], F)
  | F, c :: cs => do
    let (o, G) ← F.call M bad strict fuel c
    let (os, H) ← G.calls M bad strict fuel cs
    .ok (o :: os, H)

variable {M : Mach} {bad : Act Val} {strict strict' : Bool} {fuel fuel' : Nat}

/-- The result of `parse_task` that the program sees as `o`. -/
def given : Except String (Option Task) → Res (Option Task)
  | .ok t => .ok t
  | .error e => .throw e

/-- A call that returns or throws has parsed its line. -/
theorem Fleet.call_parsed {F G : Fleet} {c : TaskCall} {o : Except String (Option Task)}
    (hF : ∀ i, Reached (F.buf i)) (hd : c.delay < 3) (h : F.call M bad strict fuel c = .ok (o, G)) :
    ∃ r, parseText strict fuel (F.buf c.who) c.text c.delay = .ok r ∧ (∀ i, Reached (G.buf i)) ∧
      (∀ i, i ≠ c.who → G.ast i = F.ast i) ∧ ((∃ t, o = .ok t) → G.ast c.who = .null) ∧
      (match F.ast c.who |>.after r.ast with
        | .uninit => False
        | .null => o = .ok none ∧ G.env = F.env.clearNames
        | .tree a =>
          match evalTask M bad a F.env.clearNames with
          | (.ok t, env') => o = .ok (some t) ∧ G.env = env'
          | (.throw e, env') => o = .error e ∧ G.env = env'
          | _ => False) := by
  obtain ⟨x, s, hp, hr, hG, hx, hn⟩ : ∃ (x : Res (Option Task)) (s : Session),
      parseTask M bad strict fuel c.delay ⟨F.buf c.who, F.ast c.who, F.env⟩ c.text = (x, s) ∧
      (∃ r, parseText strict fuel (F.buf c.who) c.text c.delay = .ok r ∧ s.buf = r.scan.buf) ∧
      G = ⟨Function.update F.buf c.who s.buf, Function.update F.ast c.who s.ast, s.env⟩ ∧
      x = given o ∧ ((∃ t, o = .ok t) → s.ast = .null) := by
    unfold Fleet.call at h
    split at h
    · rename_i t s hp
      simp only [Res.ok.injEq, Prod.mk.injEq] at h
      obtain ⟨h1, h2⟩ := h
      have := parseTask_ok hp
      exact ⟨_, s, hp, this.2, h2.symm, by rw [← h1]; rfl, fun _ => this.1⟩
    · rename_i e s hp
      simp only [Res.ok.injEq, Prod.mk.injEq] at h
      obtain ⟨h1, h2⟩ := h
      exact ⟨_, s, hp, parseTask_throw (hF _).empty hd hp, h2.symm, by rw [← h1]; rfl, fun ⟨t, ht⟩ => by rw [← h1] at ht; cases ht⟩
    · cases h
    · cases h
  obtain ⟨r, hr, hb⟩ := hr
  refine ⟨r, hr, ?_, ?_, ?_, ?_⟩
  · exact fun i => by
      rw [hG]
      by_cases e : i = c.who
      · subst e
        simpa [hb] using Reached.next (hF c.who) hd hr
      · simpa [Function.update_of_ne e] using hF i
  · intro i hi
    rw [hG]
    simp [Function.update_of_ne hi]
  · intro ho
    rw [hG]
    simpa using hn ho
  · unfold parseTask at hp
    rw [hr] at hp
    simp only at hp
    cases hm : (F.ast c.who).after r.ast with
    | uninit =>
      simp only [hm, Prod.mk.injEq] at hp
      rw [hx] at hp
      cases o <;> simp [given] at hp
    | null =>
      simp only [hm, Prod.mk.injEq] at hp
      rw [hx] at hp
      rw [hG, ← hp.2]
      cases o with
      | ok t => simp [given] at hp; simp [hp.1]
      | error e => simp [given] at hp
    | tree a =>
      simp only [hm] at hp
      cases he : evalTask M bad a F.env.clearNames with
      | mk y env' =>
        rw [he] at hp
        cases y with
        | ok t =>
          simp only [Prod.mk.injEq] at hp
          rw [hx] at hp
          simp only
          rw [hG, ← hp.2]
          cases o with
          | ok t => simp [given] at hp; simp [he, hp.1]
          | error e => simp [given] at hp
        | throw e =>
          simp only [Prod.mk.injEq] at hp
          rw [hx] at hp
          simp only
          rw [hG, ← hp.2]
          cases o with
          | ok t => simp [given] at hp
          | error e => simp [given] at hp; simp [he, hp.1]
        | ub =>
          simp only [Prod.mk.injEq] at hp
          rw [hx] at hp
          cases o <;> simp [given] at hp
        | outOfFuel =>
          simp only [Prod.mk.injEq] at hp
          rw [hx] at hp
          cases o <;> simp [given] at hp

/-- Two calls for the same line by different parsers. -/
theorem Fleet.call_same {F F' G G' : Fleet} {c c' : TaskCall} {o o' : Except String (Option Task)}
    (hF : ∀ i, Reached (F.buf i)) (hF' : ∀ i, Reached (F'.buf i)) (hd : c.delay < 3) (hd' : c'.delay < 3)
    (ht : c.text = c'.text) (hw : F.env.world = F'.env.world) (hg : F.env.globals = F'.env.globals)
    (h : F.call M bad strict fuel c = .ok (o, G)) (h' : F'.call M bad strict' fuel' c' = .ok (o', G'))
    (ha : (∃ fuel r, parseText false fuel freshBuf c.text 0 = .ok r ∧ r.ast ≠ none) ∨
      F.ast c.who = .null ∧ F'.ast c'.who = .null) : o = o' ∧ G.env = G'.env := by
  obtain ⟨r, h1, -, -, -, h2⟩ := Fleet.call_parsed hF hd h
  obtain ⟨r', h1', -, -, -, h2'⟩ := Fleet.call_parsed hF' hd' h'
  have e : r.ast = r'.ast := parseText_indep (hF _).empty (hF' _).empty hd hd' h1 (ht ▸ h1')
  have en : F.env.clearNames = F'.env.clearNames := by
    unfold Env.clearNames
    rw [hw, hg]
  have em : (F.ast c.who).after r.ast = (F'.ast c'.who).after r'.ast := by
    rcases ha with ⟨_, r0, h0, hne⟩ | ⟨a1, a2⟩
    · have e0 : r0.ast = r.ast := parseText_indep Reached.fresh.empty (hF _).empty (by decide) hd h0 h1
      rw [← e]
      cases hr : r.ast with
      | none => exact absurd (e0.trans hr) hne
      | some a => rfl
    · rw [a1, a2, e]
  rw [← em, ← en] at h2'
  revert h2 h2'
  split
  · exact fun h => h.elim
  · rintro ⟨rfl, h4⟩ ⟨rfl, h5⟩; exact ⟨rfl, h4.trans h5.symm⟩
  · split
    · rintro ⟨rfl, h4⟩ ⟨rfl, h5⟩; exact ⟨rfl, h4.trans h5.symm⟩
    · rintro ⟨rfl, h4⟩ ⟨rfl, h5⟩; exact ⟨rfl, h4.trans h5.symm⟩
    · exact fun h => h.elim

/-- What one parser gives for a line, another gives too, if it parses the line within its limits. -/
theorem Fleet.call_other {F F' G : Fleet} {c c' : TaskCall} {o : Except String (Option Task)}
    (hF : ∀ i, Reached (F.buf i)) (hF' : ∀ i, Reached (F'.buf i)) (hd : c.delay < 3) (hd' : c'.delay < 3)
    (ht : c.text = c'.text) (hw : F.env.world = F'.env.world) (hg : F.env.globals = F'.env.globals)
    (h : F.call M bad strict fuel c = .ok (o, G)) {r' : Parsed}
    (h1' : parseText strict' fuel' (F'.buf c'.who) c'.text c'.delay = .ok r')
    (ha : (∃ fuel r, parseText false fuel freshBuf c.text 0 = .ok r ∧ r.ast ≠ none) ∨
      F.ast c.who = .null ∧ F'.ast c'.who = .null) :
    ∃ G', F'.call M bad strict' fuel' c' = .ok (o, G') := by
  obtain ⟨r, h1, -, -, -, h2⟩ := Fleet.call_parsed hF hd h
  have e : r.ast = r'.ast := parseText_indep (hF _).empty (hF' _).empty hd hd' h1 (ht ▸ h1')
  have en : F.env.clearNames = F'.env.clearNames := by
    unfold Env.clearNames
    rw [hw, hg]
  have em : (F.ast c.who).after r.ast = (F'.ast c'.who).after r'.ast := by
    rcases ha with ⟨_, r0, h0, hne⟩ | ⟨a1, a2⟩
    · have e0 : r0.ast = r.ast := parseText_indep Reached.fresh.empty (hF _).empty (by decide) hd h0 h1
      rw [← e]
      cases hr : r.ast with
      | none => exact absurd (e0.trans hr) hne
      | some a => rfl
    · rw [a1, a2, e]
  rw [em, en] at h2
  unfold Fleet.call parseTask
  simp only [h1']
  cases hm : (F'.ast c'.who).after r'.ast with
  | uninit => rw [hm] at h2; exact h2.elim
  | null => rw [hm] at h2; exact ⟨_, by rw [h2.1]⟩
  | tree a =>
    rw [hm] at h2
    simp only at h2 ⊢
    cases hx : evalTask M bad a F'.env.clearNames with
    | mk y env' =>
      rw [hx] at h2
      cases y with
      | ok t => exact ⟨_, by rw [h2.1]⟩
      | throw e => exact ⟨_, by rw [h2.1]⟩
      | ub => exact h2.elim
      | outOfFuel => exact h2.elim

end Cnars.Parser
