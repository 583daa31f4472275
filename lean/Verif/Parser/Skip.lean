import Verif.Parser.Eager

/-!
# What can be accepted when characters are skipped

With 3 in `error_delay` characters are skipped until the lexer finds a symbol (narsese.cpp:826-832).  The value changes at the
next shift, so that what is skipped lies at one place.  Helper lemmas.
-/

namespace Cnars.Parser
open Cnars

theorem skipSym_is {T : Tables} (hT : LexTablesOk T) {q : Nat} (hq : q < T.dfaSelect.length) :
    ∀ (fuel : Nat) {s : Scan} {l text : List WChar} {r : Option Nat × Nat × Scan}, ScanIs s l text →
      skipSym T false q fuel s = .ok r →
      ∃ k s' l', ScanIs s' l' (text.drop k) ∧ getSym T false q s' = .ok r
  | 0, _, _, _, _, _, h => by cases h
  | fuel + 1, s, l, text, r, hs, h => by
    obtain ⟨s1, l1, hg, hs1, _, hcap, _⟩ := getSym_is hT hq hs
    rw [skipSym, hg false] at h
    simp only [Res.ok_bind] at h
    split at h
    · rename_i x hx
      cases h
      exact ⟨0, s, l, by simpa using hs, by rw [hg false, hx]⟩
    · cases hc : clearInput false 1 s1 with
      | ok s2 =>
        rw [hc] at h
        simp only [Res.ok_bind] at h
        have hl : 1 ≤ l1.length := by
          rcases Nat.lt_or_ge l1.length 1 with h1 | h1
          · have hsz : s1.buf.size < 1 := by rw [hs1.buf.1]; exact h1
            simp [clearInput, hcap, hsz] at hc
          · exact h1
        obtain ⟨s3, h3, h4, _⟩ := clearInput_is hs1 (by omega : 0 < 1) hl
        rw [hc] at h3
        cases h3
        obtain ⟨k, s', l', h5, h6⟩ := skipSym_is hT hq fuel h4 h
        exact ⟨1 + k, s', l', by rw [← List.drop_drop]; exact h5, h6⟩
      | throw m => rw [hc] at h; cases h
      | ub => rw [hc] at h; cases h
      | outOfFuel => rw [hc] at h; cases h

/-- `z` is `x` without a piece. -/
def Without (x z : List WChar) : Prop := ∃ pre junk post, x = pre ++ junk ++ post ∧ z = pre ++ post

/-- What has happened to the text `x`: nothing yet, or something skipped just before the rest, or somewhere. -/
def Skipped (x : List WChar) (d : Nat) (c : PC) : Prop :=
  (3 < d ∧ x = c.read ++ c.text) ∨ (d = 3 ∧ ∃ junk, x = c.read ++ junk ++ c.text) ∨ (d < 3 ∧ Without x (c.read ++ c.text))

theorem Skipped.without {x : List WChar} {d : Nat} {c : PC} (h : Skipped x d c) : Without x (c.read ++ c.text) := by
  rcases h with ⟨_, h⟩ | ⟨_, junk, h⟩ | ⟨_, h⟩
  · exact ⟨[], [], c.read ++ c.text, by simpa using h, by simp⟩
  · exact ⟨c.read, junk, c.text, h, rfl⟩
  · exact h

/-- The value is counted down where a symbol is shifted, and only there. -/
theorem step_delay {T : Tables} {strict : Bool} {s s' : St} (h : step T strict s = .ok (.go s')) :
    (s'.errorDelay = s.errorDelay ∧ (s.act % 2 = 1 ∨ s'.stack = s.stack)) ∨ s'.errorDelay = s.errorDelay - 1 := by
  unfold step at h
  split at h
  · rename_i ha
    left
    refine ⟨?_, .inl ha⟩
    unfold reduceStep at h
    obtain ⟨p, _, h⟩ := Res.bind_eq_ok.mp h
    obtain ⟨⟨acc, st⟩, _, h⟩ := Res.bind_eq_ok.mp h
    simp only at h
    split at h
    · cases h
    · split at h
      · obtain ⟨c, _, h⟩ := Res.bind_eq_ok.mp h
        cases h
      · obtain ⟨q, _, h⟩ := Res.bind_eq_ok.mp h
        obtain ⟨row, _, h⟩ := Res.bind_eq_ok.mp h
        obtain ⟨st', _, h⟩ := Res.bind_eq_ok.mp h
        cases h
        rfl
  · unfold readStep at h
    split at h
    · cases h
    · obtain ⟨q, _, h⟩ := Res.bind_eq_ok.mp h
      obtain ⟨⟨sym, len, scan⟩, _, h⟩ := Res.bind_eq_ok.mp h
      unfold actStep at h
      obtain ⟨a, _, h⟩ := Res.bind_eq_ok.mp h
      cases a with
      | none =>
        simp only at h
        split at h <;> cases h
      | some a =>
        obtain ⟨act, idx⟩ := a
        simp only at h
        split at h
        · cases sym with
          | none => cases h
          | some x =>
            right
            simp only at h
            unfold shiftStep at h
            obtain ⟨_, _, h⟩ := Res.bind_eq_ok.mp h
            obtain ⟨_, _, h⟩ := Res.bind_eq_ok.mp h
            obtain ⟨_, _, h⟩ := Res.bind_eq_ok.mp h
            obtain ⟨_, _, h⟩ := Res.bind_eq_ok.mp h
            obtain ⟨_, _, h⟩ := Res.bind_eq_ok.mp h
            cases h
            rfl
        · cases h
          exact .inl ⟨rfl, .inr rfl⟩

/-- Where nothing is shifted the text stays. -/
theorem pstep_text {T : Tables} {c c' : PC} (h : pstep T c = some (.go c'))
    (hc : c.red ≠ none ∨ c'.st.length = c.st.length) : c'.text = c.text := by
  unfold pstep at h
  split at h
  · unfold predStep at h
    dsimp only at h
    split at h
    · cases h
    · split at h
      · cases h
      · split at h
        · cases h
        · split at h
          · cases h
          · cases h; rfl
  · rename_i hred
    rcases hc with hc | hc
    · exact absurd hred hc
    · unfold preadStep at h
      split at h
      · cases h
      · dsimp only at h
        split at h
        · cases h
        · split at h
          · split at h
            · cases h
            · cases h; simp at hc
          · cases h; rfl

theorem Sim.length {T : Tables} {C : Cert} {s : St} {c : PC} {l : List WChar} (h : Sim T C s c l) :
    s.stack.length = c.st.length + 1 := by
  have := congrArg List.length h.states
  simpa using this

theorem Sim.zero {T : Tables} {C : Cert} {s : St} {c : PC} {l : List WChar} (h : Sim T C s c l) :
    Sim T C { s with errorDelay := 0 } c l :=
  ⟨h.chain, h.states, h.scan, h.red, h.ready, h.top, h.len, by simp, h.eof⟩

theorem actStep_scan (T : Tables) (strict : Bool) (q : Nat) (s : St) (sc : Scan) (n : Nat) (sym : Option Nat) (len : Nat)
    (scan : Scan) : actStep T strict q { s with scan := sc, len := n } sym len scan = actStep T strict q s sym len scan := by
  unfold actStep shiftStep
  rfl

/-- One round, whatever the value is, is one round with the value 0, possibly after some characters have been dropped. -/
theorem skip_step {T : Tables} {C : Cert} (hT : TablesOk T C) {s : St} {c : PC} {l : List WChar} {x : List WChar}
    (h : Sim T C { s with errorDelay := 0 } c l) (hx : Skipped x s.errorDelay c) {o : Out} (ho : step T false s = .ok o) :
    ∃ s1 c1 l1 o1, Sim T C s1 c1 l1 ∧ s1.stack = s.stack ∧ s1.act = s.act ∧ Skipped x s.errorDelay c1 ∧
      step T false s1 = .ok o1 ∧ OutLike 0 s.errorDelay o1 o ∧ ∃ k, c1 = { c with text := c.text.drop k } := by
  have back : ∀ {y : Res Out}, Res.Rel false (OutLike 0 s.errorDelay) y (step T false s) →
      ∃ o1, y = .ok o1 ∧ OutLike 0 s.errorDelay o1 o := by
    intro y hy
    rw [ho] at hy
    cases y with
    | ok o1 => exact ⟨o1, rfl, hy⟩
    | throw m => simp [Res.Rel] at hy
    | ub => simp [Res.Rel] at hy
    | outOfFuel => simp [Res.Rel] at hy
  by_cases hd : s.errorDelay = 3 ∧ ¬ s.act % 2 = 1
  · obtain ⟨hd, ha⟩ := hd
    have hred : c.red = none := by rw [h.red, follow, if_neg ha]
    obtain ⟨q, hq⟩ := h.top hred
    have htop : topState s.stack = some q := by
      have := topState_eq h.states
      rw [hq] at this
      exact this
    have hql : q < T.actions.length := h.chain.state_lt hT htop
    cases hstk : s.stack with
    | nil => rw [hstk] at htop; simp [topState] at htop
    | cons e es =>
      have hes : e.state = some q := by rw [hstk, topState_cons] at htop; exact htop
      have hstep : ∀ s' : St, s'.stack = e :: es → s'.act = s.act → step T false s' = (nextSym T false q s' >>= fun r =>
          actStep T false q s' r.1 r.2.1 r.2.2) := by
        intro s' h1 h2
        unfold step
        rw [h2, if_neg ha]
        unfold readStep
        rw [h1]
        simp only [hes, Res.ofOption_some, Res.ok_bind]
      have ho' := ho
      rw [hstep s hstk rfl] at ho'
      obtain ⟨r, hr, hact⟩ := Res.bind_eq_ok.mp ho'
      unfold nextSym at hr
      rw [if_pos hd] at hr
      obtain ⟨k, sc, l', h5, h6⟩ := skipSym_is hT.lex (by rw [hT.nsel]; exact hql) _ h.scan hr
      let s1 : St := { s with scan := sc, errorDelay := 0, len := 0 }
      have hs1 : step T false s1 = actStep T false q s1 r.1 r.2.1 r.2.2 := by
        rw [hstep s1 hstk rfl]
        unfold nextSym
        rw [if_neg (by simp [s1])]
        have : getSym T false q s1.scan = .ok r := h6
        rw [this, Res.ok_bind]
      have hlike := actStep_like T false q s1 3 r.1 r.2.1 r.2.2
      have e1 : ({ s1 with errorDelay := 3 } : St) = { s with scan := sc, len := 0 } := by
        cases s; simp only [s1] at *; subst hd; rfl
      rw [e1, actStep_scan, hact, ← hs1] at hlike
      have hlike : Res.Rel false (OutLike 0 s.errorDelay) (step T false s1) (step T false s) := by
        rw [ho, hd]; exact hlike
      obtain ⟨o1, h7, h8⟩ := back hlike
      refine ⟨s1, { c with text := c.text.drop k }, l', o1, ?_, hstk, rfl, ?_, h7, h8, k, rfl⟩
      · refine ⟨h.chain, h.states, h5, h.red, h.ready, h.top, Nat.zero_le _, by simp [s1], ?_⟩
        intro he
        have := h.eof he
        simp [this]
      · rcases hx with ⟨hx, _⟩ | ⟨_, junk, hx⟩ | ⟨hx, _⟩
        · omega
        · refine .inr (.inl ⟨hd, junk ++ c.text.take k, ?_⟩)
          have : ({ c with text := c.text.drop k } : PC).read = c.read := rfl
          rw [this, hx, List.append_assoc, List.append_assoc, List.append_assoc, List.take_append_drop]
        · omega
  · have hlike : Res.Rel false (OutLike 0 s.errorDelay) (step T false { s with errorDelay := 0 }) (step T false s) := by
      by_cases hd3 : s.errorDelay = 3
      · have ha : s.act % 2 = 1 := by
          by_cases ha : s.act % 2 = 1
          · exact ha
          · exact absurd ⟨hd3, ha⟩ hd
        have := reduceStep_like T false { s with errorDelay := 0 } s.errorDelay
        unfold step
        rw [if_pos ha, if_pos ha]
        exact this
      · exact step_like T false { s with errorDelay := 0 } s.errorDelay (by simp) hd3
    obtain ⟨o1, h7, h8⟩ := back hlike
    exact ⟨_, c, l, o1, h, rfl, rfl, hx, h7, h8, 0, rfl⟩

/-- What is accepted is a tree of the text without a piece. -/
theorem skip_run {T : Tables} {C : Cert} {S : List Nat} (hT : TablesOk T C) (hS : EofOk T S) (x : List WChar) :
    ∀ (fuel : Nat) (s : St) (c : PC) (l : List WChar), Sim T C { s with errorDelay := 0 } c l → Skipped x s.errorDelay c →
      ∀ r a, run T false fuel s = .ok r → r.ast = some a →
        ∃ t : PTree, t.Valid T (LexTok T) ∧ t.root T = goalSym ∧ t.ast T = a ∧ Without x t.yield
  | 0, _, _, _, _, _, _, _, h, _ => by cases h
  | fuel + 1, s, c, l, hsim, hx, r, a, h, ha => by
    rw [run] at h
    obtain ⟨o, ho, h⟩ := Res.bind_eq_ok.mp h
    obtain ⟨s1, c1, l1, o1, h1, h2, h3, h4, h5, h6, _⟩ := skip_step hT hsim hx ho
    obtain ⟨o', h7, h8, _⟩ := step_sim hT hS h1
    rw [h5] at h7
    cases h7
    generalize hp : pstep T c1 = po at h8
    cases h8 with
    | @go s3 c2 l2 h9 =>
      cases o with
      | go s2 =>
        obtain ⟨e, _⟩ := h6
        refine skip_run hT hS x fuel s2 c2 l2 (e ▸ h9.zero) ?_ r a h ha
        obtain ⟨h10, _⟩ := pstep_go hp
        have hlen : s3.stack = s2.stack := by have := congrArg St.stack e; exact this
        rcases step_delay ho with ⟨h11, h12⟩ | h11
        · have htext : c2.text = c1.text := by
            refine pstep_text hp ?_
            rcases h12 with h12 | h12
            · left
              rw [h1.red, follow, if_pos (h3 ▸ h12)]
              simp
            · right
              have g1 := h9.length
              have g2 := h1.length
              rw [hlen, h12] at g1
              rw [h2] at g2
              omega
          have hread : c2.read = c1.read := by
            rw [htext] at h10
            exact List.append_cancel_right h10
          rw [h11]
          unfold Skipped
          rw [hread, htext]
          exact h4
        · rw [h11]
          unfold Skipped
          rw [h10]
          rcases h4 with ⟨g1, g2⟩ | ⟨g1, g2⟩ | ⟨g1, g2⟩
          · by_cases g3 : s.errorDelay = 4
            · refine .inr (.inl ⟨by omega, [], ?_⟩)
              rw [g2, List.append_nil, h10]
            · exact .inl ⟨by omega, g2⟩
          · exact .inr (.inr ⟨by omega, Skipped.without (.inr (.inl ⟨g1, g2⟩))⟩)
          · exact .inr (.inr ⟨by omega, g2⟩)
      | accept => exact h6.elim
      | reject => exact h6.elim
    | @accept t scan hv hroot hs =>
      cases o with
      | accept a' sc =>
        obtain ⟨e, _⟩ := h6
        subst e
        cases h
        simp only [Option.some.injEq] at ha
        obtain ⟨g3, g4⟩ := pstep_accept hp
        have ht : t.hasEof = true := hasEof_of_root hT hS hv (by rw [hroot]; exact hS.goal)
        rw [g4] at ht
        have := h1.eof ht
        refine ⟨t, hv, hroot, ha, ?_⟩
        have w := h4.without
        rw [this, List.append_nil, ← g3] at w
        exact w
      | go => exact h6.elim
      | reject => exact h6.elim
    | @reject len q scan l text hs hl hq hlen hact =>
      cases o with
      | reject a' sc =>
        cases h
        cases ha
      | go => exact h6.elim
      | accept => exact h6.elim

/-- Whatever is in `error_delay`: what is accepted is a line of Narsese with at most one piece put in. -/
theorem parseText_without {b : Buf} (hb : BufIs b []) {text : List WChar} {strict : Bool} {fuel d : Nat} {r : Parsed}
    {a : List Ast} (h : parseText strict fuel b text d = .ok r) (ha : r.ast = some a) :
    ∃ z, Without (firstLine text) z ∧ IsNarsese z a := by
  obtain ⟨r', h1, h2, _⟩ := parseText_false h
  unfold parseText parse at h1
  obtain ⟨r0, h3, h4⟩ := Res.bind_eq_ok.mp h1
  obtain ⟨sc, _, h4⟩ := Res.bind_eq_ok.mp h4
  cases h4
  have hsim : Sim narsese narseseCert (initSt ⟨b, fill text, false⟩ 0) (PC.init (firstLine text)) [] :=
    sim_init (by omega) (fill_is hb text)
  have hx : Skipped (firstLine text) d (PC.init (firstLine text)) := by
    have e : (PC.init (firstLine text)).read ++ (PC.init (firstLine text)).text = firstLine text := by
      simp [PC.read, PC.init, PTree.yields]
    unfold Skipped
    rw [e]
    by_cases h1 : 3 < d
    · exact .inl ⟨h1, rfl⟩
    · by_cases h2 : d = 3
      · exact .inr (.inl ⟨h2, [], by rw [List.append_nil, e]⟩)
      · exact .inr (.inr ⟨by omega, [], [], firstLine text, by simp, by simp⟩)
  obtain ⟨t, hv, hr, ht, hw⟩ := skip_run narsese_ok narsese_eof (firstLine text) fuel (initSt ⟨b, fill text, false⟩ d)
    (PC.init (firstLine text)) [] hsim hx r0 a h3 (by rw [← ha, ← h2])
  exact ⟨t.yield, hw, ht ▸ narsese_tree hv hr⟩

end Cnars.Parser
