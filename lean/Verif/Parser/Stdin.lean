import Verif.Parser.Session

/-!
# Reading from the standard input

`Parser::parse_input` (Parser.cpp:49-63) up to the syntax tree: as `parse_string`, but the characters come from `getchar`
(narsese.h:213-216), and what is not read stays there.
-/

namespace Cnars.Parser

/-- `char_fetcher.switch_stdin_mode(); this->parse();` (Parser.cpp:51-52).  `input` is what `getchar` will return, then
`EOF` for ever (`fetch`); what remains of it is in the result. -/
def parseInput (strict : Bool) (fuel : Nat) (b : Buf) (input : List WChar) (d : Nat) : Res Parsed :=
  parse narsese strict fuel ⟨b, input, false⟩ d

/-- `n` calls of `parse_input`: the syntax trees (`none` if the call rejects) and what is left of the input.  Simplified:
without the semantic actions, `error_delay` the same in all calls. -/
def parseInputs (strict : Bool) (fuel d : Nat) : Nat → Buf → List WChar → Res (List (Option (List Ast)) × List WChar)
  | 0, _, input => .ok ([], input)
  | n + 1, b, input => do
    let r ← parseInput strict fuel b input d
    let (as, left) ← parseInputs strict fuel d n r.scan.buf r.scan.input
    .ok (r.ast :: as, left)

/-- `parse_input` (Parser.cpp:49-63) of a `NarseseParser`: as `parse_task`, but the names of variables are not cleared
(NarseseParser.h:18-20), and with what is left of the input.  If the driver does not return, the input is left as it was. -/
def readTask (M : Mach) (bad : Act Val) (strict : Bool) (fuel d : Nat) (s : Session) (input : List WChar) :
    Res (Option Task) × Session × List WChar :=
  match parseInput strict fuel s.buf input d with
  | .ok r =>
    let m := s.ast.after r.ast
    match m with
    | .uninit => (.ub, ⟨r.scan.buf, m, s.env⟩, r.scan.input)
    | .null => (.ok none, ⟨r.scan.buf, m, s.env⟩, r.scan.input)
    | .tree a =>
      match evalTask M bad a s.env with
      | (.ok t, env') => (.ok (some t), ⟨r.scan.buf, .null, env'⟩, r.scan.input)
      | (.throw e, env') => (.throw e, ⟨r.scan.buf, m, env'⟩, r.scan.input)
      | (.ub, env') => (.ub, ⟨r.scan.buf, m, env'⟩, r.scan.input)
      | (.outOfFuel, env') => (.outOfFuel, ⟨r.scan.buf, m, env'⟩, r.scan.input)
  | .throw e => (.throw e, s, input)
  | .ub => (.ub, s, input)
  | .outOfFuel => (.outOfFuel, s, input)

/-- `n` calls of `parse_input` of a `NarseseParser`, with nothing in between.  Simplified: `error_delay` the same in all
calls; tasks are kept. -/
def readTasks (M : Mach) (bad : Act Val) (strict : Bool) (fuel d : Nat) :
    Nat → Session → List WChar → Res (List (Option Task) × Session × List WChar)
  | 0, s, input => .ok ([], s, input)
  | n + 1, s, input =>
    match readTask M bad strict fuel d s input with
    | (.ok t, s1, left) => do
      let (ts, s2, left2) ← readTasks M bad strict fuel d n s1 left
      .ok (t :: ts, s2, left2)
    | (.throw e, _) => .throw e
    | (.ub, _) => .ub
    | (.outOfFuel, _) => .outOfFuel

/-! ## What the functions of the parser do to the source of characters -/

/-- Stays true while characters are fetched. -/
structure Stable (P : Scan → Prop) : Prop where
  buf : ∀ {s : Scan} (b : Buf), P s → P { s with buf := b }
  next : ∀ {s : Scan} (b : Buf), P s → s.isEof = false → (fetch s.input).1 ≠ eofChar →
    P ⟨b, (fetch s.input).2, false⟩
  last : ∀ {s : Scan} (b : Buf), P s → s.isEof = false → (fetch s.input).1 = eofChar →
    P ⟨b, (fetch s.input).2, true⟩

section
variable {P : Scan → Prop} (hP : Stable P) {T : Tables} {strict : Bool}
include hP

theorem Stable.fillTo : ∀ {n : Nat} {s s' : Scan} {e : Bool}, P s → fillTo strict n s = .ok (e, s') → P s'
  | 0, s, s', e, hs, h => by
    unfold Parser.fillTo at h
    simp only [Res.ok.injEq, Prod.mk.injEq] at h
    rw [← h.2]; exact hs
  | n + 1, s, s', e, hs, h => by
    unfold Parser.fillTo at h
    dsimp only at h
    cases he : s.isEof with
    | true =>
      simp only [he, if_true, Res.ok.injEq, Prod.mk.injEq] at h
      rw [← h.2]
      have := hP.buf s.buf.grow hs
      rwa [he] at this
    | false =>
      simp only [he, Bool.false_eq_true, if_false, Res.bind_eq_ok] at h
      obtain ⟨_, _, h⟩ := h
      split at h
      · rename_i hc
        simp only [Res.ok.injEq, Prod.mk.injEq] at h
        rw [← h.2]
        exact hP.last _ hs he hc
      · rename_i hc
        simp only [Res.bind_eq_ok] at h
        obtain ⟨_, _, h⟩ := h
        exact Stable.fillTo (hP.next _ hs he hc) h

theorem Stable.getInput {o : Nat} {s s' : Scan} {c : WChar} (hs : P s) (h : getInput strict o s = .ok (c, s')) : P s' := by
  unfold Parser.getInput at h
  simp only [Res.bind_eq_ok] at h
  obtain ⟨⟨e, s1⟩, h1, h⟩ := h
  have := hP.fillTo hs h1
  simp only at h
  split at h
  · simp only [Res.ok.injEq, Prod.mk.injEq] at h
    rw [← h.2]; exact this
  · split at h
    · simp only [Res.ok.injEq, Prod.mk.injEq] at h
      rw [← h.2]; exact this
    · cases h

theorem Stable.clearInput {n : Nat} {s s' : Scan} (hs : P s) (h : clearInput strict n s = .ok s') : P s' := by
  unfold Parser.clearInput at h
  split at h
  · simp only [Res.ok.injEq] at h
    rw [← h]; exact hs
  · split at h
    · simp only [Res.ok.injEq] at h
      rw [← h]; exact hP.buf _ hs
    · split at h
      · cases h
      · simp only [Res.bind_eq_ok, Res.ok.injEq] at h
        obtain ⟨_, _, h⟩ := h
        rw [← h]; exact hP.buf _ hs

theorem Stable.lexLoop {m : Machine} : ∀ {fuel state len : Nat} {next : WChar} {best r : Option (Nat × Nat)} {s s' : Scan},
    P s → lexLoop T strict m fuel state len next best s = .ok (r, s') → P s'
  | 0, _, _, _, _, _, _, _, _, h => by unfold Parser.lexLoop at h; cases h
  | fuel + 1, state, len, next, best, r, s, s', hs, h => by
    unfold Parser.lexLoop at h
    simp only [Res.bind_eq_ok] at h
    obtain ⟨⟨row, _⟩, _, h⟩ := h
    simp only at h
    split at h
    · simp only [Res.ok.injEq, Prod.mk.injEq] at h
      rw [← h.2]; exact hs
    · simp only [Res.bind_eq_ok] at h
      obtain ⟨⟨_, a⟩, _, h⟩ := h
      simp only at h
      obtain ⟨stop, _, h⟩ := h
      split at h
      · simp only [Res.ok.injEq, Prod.mk.injEq] at h
        rw [← h.2]; exact hs
      · simp only [Res.bind_eq_ok] at h
        obtain ⟨⟨c, s1⟩, h1, h⟩ := h
        have := hP.getInput hs h1
        simp only at h
        split at h
        · simp only [Res.ok.injEq, Prod.mk.injEq] at h
          rw [← h.2]; exact this
        · exact Stable.lexLoop this h

theorem Stable.getSym {q n : Nat} {x : Option Nat} {s s' : Scan} (hs : P s) (h : getSym T strict q s = .ok (x, n, s')) :
    P s' := by
  unfold Parser.getSym at h
  simp only [Res.bind_eq_ok] at h
  obtain ⟨sel, _, ⟨c, s1⟩, h1, h⟩ := h
  have h2 := hP.getInput hs h1
  simp only at h
  split at h
  · simp only [Res.ok.injEq, Prod.mk.injEq] at h
    rw [← h.2.2]; exact h2
  · split at h
    · simp only [Res.ok.injEq, Prod.mk.injEq] at h
      rw [← h.2.2]; exact h2
    · simp only [Res.bind_eq_ok] at h
      obtain ⟨m, _, ⟨r, s2⟩, h3, h⟩ := h
      have h4 := hP.lexLoop h2 h3
      simp only at h
      split at h <;> simp only [Res.ok.injEq, Prod.mk.injEq] at h <;> rw [← h.2.2] <;> exact h4

theorem Stable.skipSym {q : Nat} : ∀ {fuel n : Nat} {x : Option Nat} {s s' : Scan}, P s →
    skipSym T strict q fuel s = .ok (x, n, s') → P s'
  | 0, _, _, _, _, _, h => by unfold Parser.skipSym at h; cases h
  | fuel + 1, n, x, s, s', hs, h => by
    unfold Parser.skipSym at h
    simp only [Res.bind_eq_ok] at h
    obtain ⟨⟨y, m, s1⟩, h1, h⟩ := h
    have h2 := hP.getSym hs h1
    simp only at h
    split at h
    · simp only [Res.ok.injEq, Prod.mk.injEq] at h
      rw [← h.2.2]; exact h2
    · simp only [Res.bind_eq_ok] at h
      obtain ⟨s2, h3, h⟩ := h
      exact Stable.skipSym (hP.clearInput h2 h3) h

theorem Stable.nextSym {q n : Nat} {x : Option Nat} {s : St} {s' : Scan} (hs : P s.scan)
    (h : nextSym T strict q s = .ok (x, n, s')) : P s' := by
  unfold Parser.nextSym at h
  split at h
  · exact hP.skipSym hs h
  · exact hP.getSym hs h

theorem Stable.dropSym {x n : Nat} {s s' : Scan} (hs : P s) (h : dropSym strict x n s = .ok s') : P s' := by
  unfold Parser.dropSym at h
  split at h
  · simp only [Res.ok.injEq] at h
    rw [← h]; exact hs
  · exact hP.clearInput hs h

/-- What is there after a step. -/
def Out.scan : Out → Scan
  | .go s => s.scan
  | .accept _ s => s
  | .reject _ s => s

theorem Stable.actStep {q n : Nat} {x : Option Nat} {s : St} {sc : Scan} {o : Out} (hs : P sc)
    (h : actStep T strict q s x n sc = .ok o) : P o.scan := by
  unfold Parser.actStep at h
  simp only [Res.bind_eq_ok] at h
  obtain ⟨a, _, h⟩ := h
  split at h
  · split at h
    · cases h
    · simp only [Res.ok.injEq] at h
      rw [← h]; exact hs
  · split at h
    · split at h
      · unfold Parser.shiftStep at h
        simp only [Res.bind_eq_ok, Res.ok.injEq] at h
        obtain ⟨_, _, _, _, _, _, _, _, sc', h1, h⟩ := h
        rw [← h]; exact hP.dropSym hs h1
      · cases h
    · simp only [Res.ok.injEq] at h
      rw [← h]; exact hs

theorem Stable.readStep {s : St} {o : Out} (hs : P s.scan) (h : readStep T strict s = .ok o) : P o.scan := by
  unfold Parser.readStep at h
  split at h
  · cases h
  · simp only [Res.bind_eq_ok] at h
    obtain ⟨q, _, ⟨x, n, sc⟩, h1, h⟩ := h
    exact hP.actStep (hP.nextSym hs h1) h

theorem Stable.reduceStep {s : St} {o : Out} (hs : P s.scan) (h : reduceStep T strict s = .ok o) : P o.scan := by
  unfold Parser.reduceStep at h
  simp only [Res.bind_eq_ok] at h
  obtain ⟨p, _, ⟨acc, st⟩, _, h⟩ := h
  simp only at h
  split at h
  · cases h
  · split at h
    · simp only [Res.bind_eq_ok, Res.ok.injEq] at h
      obtain ⟨sc, h1, h⟩ := h
      rw [← h]; exact hP.clearInput hs h1
    · simp only [Res.bind_eq_ok, Res.ok.injEq] at h
      obtain ⟨_, _, _, _, _, _, h⟩ := h
      rw [← h]; exact hs

theorem Stable.step {s : St} {o : Out} (hs : P s.scan) (h : step T strict s = .ok o) : P o.scan := by
  unfold Parser.step at h
  split at h
  · exact hP.reduceStep hs h
  · exact hP.readStep hs h

theorem Stable.run : ∀ {fuel : Nat} {s : St} {r : Parsed}, P s.scan → run T strict fuel s = .ok r → P r.scan
  | 0, _, _, _, h => by unfold Parser.run at h; cases h
  | fuel + 1, s, r, hs, h => by
    unfold Parser.run at h
    simp only [Res.bind_eq_ok] at h
    obtain ⟨o, h1, h⟩ := h
    have := hP.step hs h1
    cases o with
    | go s' => exact Stable.run this h
    | accept a sc => simp only [Res.ok.injEq] at h; rw [← h]; exact this
    | reject n sc => simp only [Res.ok.injEq] at h; rw [← h]; exact this

theorem Stable.parse {fuel d : Nat} {sc : Scan} {r : Parsed} (hs : P { sc with isEof := false })
    (h : parse T strict fuel sc d = .ok r) : P r.scan := by
  unfold Parser.parse at h
  simp only [Res.bind_eq_ok, Res.ok.injEq] at h
  obtain ⟨r1, h1, s1, h2, h⟩ := h
  rw [← h]
  exact hP.clearInput (hP.run (s := initSt sc d) hs h1) h2
end

/-- What is not read of the current line, and `rest` after it. -/
def Remains (line rest : List WChar) (s : Scan) : Prop :=
  s.isEof = true ∧ s.input = rest ∨ s.isEof = false ∧ ∃ v, v <:+ line ∧ s.input = v ++ eofChar :: rest

theorem left_stable {line : List WChar} (rest : List WChar) (hl : eofChar ∉ line) : Stable (Remains line rest) where
  buf b h := h
  next b h he hc := by
    rcases h with h | ⟨_, v, h1, h2⟩
    · simp [he] at h
    · refine .inr ⟨rfl, ?_⟩
      rw [h2] at hc ⊢
      cases v with
      | nil => exact absurd rfl hc
      | cons c v => exact ⟨v, (List.suffix_cons c v).trans h1, rfl⟩
  last b h he hc := by
    rcases h with h | ⟨_, v, h1, h2⟩
    · simp [he] at h
    · refine .inl ⟨rfl, ?_⟩
      rw [h2] at hc ⊢
      cases v with
      | nil => rfl
      | cons c v =>
        have : c = eofChar := hc
        exact absurd (h1.subset (by rw [this]; exact List.mem_cons_self)) hl

theorem eof_stable : Stable (fun s => s.isEof = true) where
  buf _ h := h
  next _ h he _ := by simp [h] at he
  last _ _ _ _ := rfl

/-! ## An accepted line is read to its end -/

/-- The end of the input is found by reading it. -/
theorem getSym_end {T : Tables} {strict : Bool} {q n : Nat} {x : Option Nat} {s s' : Scan} {l : List WChar}
    (hs : ScanIs s l []) (h : getSym T strict q s = .ok (x, n, s')) : s'.isEof = true := by
  have hl : l = [] ∧ pending s = [] := by simpa using hs.eq.symm
  have hz : s.buf.size = 0 := by rw [hs.buf.1, hl.1]; rfl
  unfold getSym at h
  simp only [Res.bind_eq_ok] at h
  obtain ⟨sel, _, ⟨c, s1⟩, h1, h⟩ := h
  have h2 : c = eofChar ∧ s1.isEof = true := by
    unfold getInput at h1
    rw [hz] at h1
    simp only [Res.bind_eq_ok, Nat.sub_zero, Nat.zero_add] at h1
    obtain ⟨⟨e, s2⟩, h2, h1⟩ := h1
    have h3 : e = true ∧ s2.isEof = true := by
      unfold fillTo at h2
      dsimp only at h2
      cases he : s.isEof with
      | true =>
        simp only [he, if_true, Res.ok.injEq, Prod.mk.injEq] at h2
        rw [← h2.1, ← h2.2]; exact ⟨rfl, rfl⟩
      | false =>
        simp only [he, Bool.false_eq_true, if_false, Res.bind_eq_ok] at h2
        obtain ⟨_, _, h2⟩ := h2
        have hc : (fetch s.input).1 = eofChar := by
          have hp := hl.2
          rcases hs.ends with h4 | h4
          · simp [he] at h4
          · unfold pending at hp
            simp only [he, Bool.false_eq_true, if_false] at hp
            cases hi : s.input with
            | nil => rw [hi] at h4; simp at h4
            | cons c cs =>
              rw [hi] at hp
              by_cases hc : c = eofChar
              · exact hc
              · rw [List.takeWhile_cons, if_pos (by simpa using hc)] at hp
                cases hp
        rw [if_pos hc] at h2
        simp only [Res.ok.injEq, Prod.mk.injEq] at h2
        rw [← h2.1, ← h2.2]; exact ⟨rfl, rfl⟩
    simp only [h3.1, if_true, Res.ok.injEq, Prod.mk.injEq] at h1
    rw [← h1.1, ← h1.2]; exact ⟨rfl, h3.2⟩
  simp only [h2.1, if_true, Res.ok.injEq, Prod.mk.injEq] at h
  rw [← h.2.2]; exact h2.2

theorem readStep_end {T : Tables} {strict : Bool} {s : St} {o : Out} {l : List WChar} (hd : s.errorDelay < 3)
    (hs : ScanIs s.scan l []) (h : readStep T strict s = .ok o) : o.scan.isEof = true := by
  unfold readStep at h
  split at h
  · cases h
  · simp only [Res.bind_eq_ok] at h
    obtain ⟨q, _, ⟨x, n, sc⟩, h1, h⟩ := h
    unfold nextSym at h1
    rw [if_neg (by omega)] at h1
    exact eof_stable.actStep (getSym_end hs h1) h

/-- A step that finds the end of the input. -/
theorem pstep_eof {T : Tables} {C : Cert} (hT : TablesOk T C) {c c' : PC} (h : pstep T c = some (.go c'))
    (he : PTree.hasEofs (c'.st.map (·.2)) = true) :
    PTree.hasEofs (c.st.map (·.2)) = true ∨ c.red = none ∧ c.text = [] := by
  unfold pstep at h
  split at h
  · rename_i p hred
    left
    unfold predStep at h
    dsimp only at h
    split at h
    · simp at h
    · split at h
      · simp at h
      · split at h
        · simp at h
        · split at h
          · simp at h
          · simp at h
            subst h
            simp only [List.map_cons, PTree.hasEofs, PTree.hasEof, PTree.hasEofs_reverse] at he
            rw [← PTree.hasEofs_append, List.map_drop, List.take_append_drop] at he
            exact he
  · rename_i hred
    unfold preadStep at h
    split at h
    · simp at h
    · rename_i q hq
      dsimp only at h
      split at h
      · simp at h
      · split at h
        · split at h
          · simp at h
          · rename_i x hx
            simp at h
            subst h
            simp only [List.map_cons, PTree.hasEofs, PTree.hasEof, Bool.or_eq_true, beq_iff_eq] at he
            rcases he with he | he
            · right
              refine ⟨hred, ?_⟩
              obtain ⟨_, h2 | h2⟩ := lexPure_tok hT hx
              · exact h2.2.1
              · exact absurd he h2.1
            · exact .inl he
        · simp at h
          subst h
          exact .inl he

theorem run_end {T : Tables} {C : Cert} {S : List Nat} (hT : TablesOk T C) (hS : EofOk T S) :
    ∀ {fuel : Nat} {s : St} {c : PC} {l : List WChar} {r : Parsed}, Sim T C s c l →
      (PTree.hasEofs (c.st.map (·.2)) = true → s.scan.isEof = true) → run T false fuel s = .ok r → r.ast ≠ none →
      r.scan.isEof = true
  | 0, _, _, _, _, _, _, h, _ => by unfold run at h; cases h
  | fuel + 1, s, c, l, r, hsim, hK, h, ha => by
    unfold run at h
    simp only [Res.bind_eq_ok] at h
    obtain ⟨o, h1, h⟩ := h
    obtain ⟨o', h2, h3, _⟩ := step_sim hT hS hsim
    rw [h1] at h2
    simp only [Res.ok.injEq] at h2
    subst h2
    generalize hp : pstep T c = po at *
    cases h3 with
    | @go s' c' l' h' =>
      refine run_end hT hS h' (fun he => ?_) h ha
      rcases pstep_eof hT hp he with h4 | ⟨h4, h5⟩
      · exact eof_stable.step (hK h4) h1
      · have hact : ¬ s.act % 2 = 1 := by
          intro hact
          have := hsim.red
          rw [h4, follow, if_pos hact] at this
          cases this
        unfold step at h1
        rw [if_neg hact] at h1
        have hsc := hsim.scan
        rw [h5] at hsc
        exact readStep_end hsim.delay hsc h1
    | @accept t scan hv hroot hs =>
      simp only [Res.ok.injEq] at h
      rw [← h]
      have ht : t.hasEof = true := hasEof_of_root hT hS hv (by rw [hroot]; exact hS.goal)
      rw [(pstep_accept hp).2] at ht
      exact eof_stable.step (hK ht) h1
    | @reject len q scan l text hs hl hq hlen hact =>
      simp only [Res.ok.injEq] at h
      rw [← h] at ha
      exact absurd rfl ha

theorem parse_end {b : Buf} (hb : BufIs b []) {text : List WChar} {fuel d : Nat} (hd : d < 3) {r : Parsed}
    (h : parseText false fuel b text d = .ok r) (ha : r.ast ≠ none) : r.scan.isEof = true := by
  unfold parseText parse at h
  simp only [Res.bind_eq_ok, Res.ok.injEq] at h
  obtain ⟨r1, h1, s1, h2, h⟩ := h
  rw [← h] at ha ⊢
  have hs : Sim narsese narseseCert (initSt ⟨b, fill text, false⟩ d) (PC.init (firstLine text)) [] :=
    sim_init hd (fill_is hb text)
  exact eof_stable.clearInput (run_end narsese_ok narsese_eof hs (by simp [PC.init, PTree.hasEofs]) h1 ha) h2

theorem fill_line {u : List WChar} (h0 : 0 ∉ u) (h1 : eofChar ∉ u) : fill u = u ++ [eofChar] := by
  unfold fill
  have : u.takeWhile (fun c => decide (c ≠ 0)) = u :=
    takeWhile_all (fun c hc => decide_eq_true (fun h => h0 (h ▸ hc)))
  dsimp only
  rw [this, if_neg]
  intro h
  exact h1 (List.mem_of_getLast? h)

theorem firstLine_line {u : List WChar} (h0 : 0 ∉ u) (h1 : 10 ∉ u) : firstLine u = u := by
  have e0 : u.takeWhile (fun c => decide (c ≠ 0)) = u := takeWhile_all (fun c hc => decide_eq_true (fun h => h0 (h ▸ hc)))
  have e1 : u.takeWhile (fun c => decide (c ≠ 10)) = u := takeWhile_all (fun c hc => decide_eq_true (fun h => h1 (h ▸ hc)))
  unfold firstLine
  rw [e0, e1]

/-- One call, and the same line given to `parse_string`, with or without the limits of memory. -/
theorem parseInput_rel {f strict strict' : Bool} (hf : Flags f strict strict') (fuel d : Nat) (b : Buf)
    {u : List WChar} (h0 : 0 ∉ u) (h1 : eofChar ∉ u) (rest : List WChar) :
    Res.Rel f ParsedRel (parseInput strict fuel b (u ++ eofChar :: rest) d) (parseText strict' fuel b u d) := by
  unfold parseInput parseText
  rw [fill_line h0 h1]
  exact parse_rel hf fuel d ⟨rfl, .inr ⟨u, rest, [], rfl, rfl⟩⟩

theorem rel_of_ok {α β : Type _} {u : Bool} {R : α → β → Prop} {a : α} {y : Res β} (h : Res.Rel u R (.ok a) y) :
    ∃ b, y = .ok b ∧ R a b := by
  cases y with
  | ok b => exact ⟨b, rfl, h⟩
  | throw m => simp [Res.Rel] at h
  | ub => simp [Res.Rel] at h
  | outOfFuel => simp [Res.Rel] at h

theorem rel_to_ok {α β : Type _} {R : α → β → Prop} {b : β} {x : Res α} (h : Res.Rel false R x (.ok b)) :
    ∃ a, x = .ok a ∧ R a b := by
  cases x with
  | ok a => exact ⟨a, rfl, h⟩
  | throw m => simp [Res.Rel] at h
  | ub => simp [Res.Rel] at h
  | outOfFuel => simp [Res.Rel] at h

theorem parseInput_left {strict : Bool} {fuel d : Nat} {b : Buf} {u rest : List WChar} (h1 : eofChar ∉ u) {r : Parsed}
    (h : parseInput strict fuel b (u ++ eofChar :: rest) d = .ok r) : Remains u rest r.scan :=
  (left_stable rest h1).parse (sc := ⟨b, u ++ eofChar :: rest, false⟩) (.inr ⟨rfl, u, List.suffix_refl u, rfl⟩) h

theorem parseInput_rest {strict : Bool} {fuel d : Nat} {b : Buf} (hb : BufIs b []) (hd : d < 3) {u rest : List WChar}
    (h0 : 0 ∉ u) (h1 : eofChar ∉ u) {r : Parsed} (h : parseInput strict fuel b (u ++ eofChar :: rest) d = .ok r)
    (ha : r.ast ≠ none) : r.scan.input = rest := by
  have hf : Flags true strict false := by cases strict <;> simp [Flags]
  obtain ⟨r', h2, h3, _, h4⟩ := rel_of_ok (h ▸ parseInput_rel hf fuel d b h0 h1 rest)
  have := parse_end hb hd h2 (h3 ▸ ha)
  rw [← h4.2.1] at this
  rcases parseInput_left h1 h with h5 | h5
  · exact h5.2
  · rw [this] at h5; cases h5.1

end Cnars.Parser
