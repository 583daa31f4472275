import Verif.Parser.Skip

/-!
# Every call ends, whatever `error_delay` is

And it leaves an empty buffer.  Helper lemmas.
-/

namespace Cnars.Parser
open Cnars

/-- `getSym_is`, with the fact that a character has been read if there is one. -/
theorem getSym_reads {T : Tables} (hT : LexTablesOk T) {q : Nat} (hq : q < T.dfaSelect.length)
    {s : Scan} {l text : List WChar} (hs : ScanIs s l text) (hne : text ≠ []) :
    ∃ s' l', getSym T false q s = .ok ((lexPure T q text).1, (lexPure T q text).2, s') ∧ ScanIs s' l' text ∧ 0 < l'.length := by
  obtain ⟨sel, hsel⟩ : ∃ x, T.dfaSelect[q]? = some x := ⟨_, List.getElem?_eq_getElem hq⟩
  obtain ⟨s1, l1, hg, hs1, hl1, hl1', hl1'', hcap⟩ := getInput_is hs 0
  cases text with
  | nil => exact absurd rfl hne
  | cons c cs =>
    have hne : c ≠ eofChar := by
      intro h
      apply eof_notMem hs
      rw [← h]; simp
    have hlt : 0 < l1.length := hl1'' (by simp)
    cases sel with
    | none =>
      refine ⟨s1, l1, ?_, hs1, hlt⟩
      simp [getSym, hsel, hg, lexPure, hne]
    | some k =>
      have hk : k < T.dfas.length := hT.2 k (List.mem_of_getElem? hsel)
      obtain ⟨m, hm⟩ : ∃ x, T.dfas[k]? = some x := ⟨_, List.getElem?_eq_getElem hk⟩
      have hmok := hT.1 m (List.mem_of_getElem? hm)
      have havail : cs.length < s1.avail + 1 := by
        have h1 := congrArg List.length hs1.eq
        have h2 : (pending s1).length =
            if s1.isEof then 0 else (s1.input.takeWhile (fun c => c ≠ eofChar)).length := by
          unfold pending
          split <;> simp
        have h3 := hs1.buf.1
        unfold Scan.avail
        rw [← h2]
        simp only [List.length_cons, List.length_append] at h1
        omega
      obtain ⟨s2, l2, h1, h2, h3, _, _⟩ := lexLoop_is hmok cs c (s1.avail + 1) 0 0 none s1 l1
        (c :: cs) hs1 rfl havail hmok.1 hlt (by simp)
      refine ⟨s2, l2, ?_, h2, by omega⟩
      simp only [getSym, hsel, hg, lexPure, hm, h1, Res.ofOption_some, Res.ok_bind,
        List.getElem?_cons_zero, Option.getD_some, hne, if_false]
      cases scanM m 0 (c :: cs) 0 none with
      | none => rfl
      | some x => rfl

theorem skipSym_total {T : Tables} (hT : LexTablesOk T) {q : Nat} (hq : q < T.dfaSelect.length) :
    ∀ (fuel : Nat) {s : Scan} {l text : List WChar}, ScanIs s l text → text.length < fuel →
      ∃ r, skipSym T false q fuel s = .ok r
  | 0, _, _, _, _, h => by omega
  | fuel + 1, s, l, text, hs, hf => by
    by_cases hne : text = []
    · subst hne
      obtain ⟨s1, l1, hg, _⟩ := getSym_is hT hq hs
      refine ⟨(some 0, 0, s1), ?_⟩
      rw [skipSym, hg false]
      rfl
    · obtain ⟨s1, l1, hg, hs1, hl⟩ := getSym_reads hT hq hs hne
      rw [skipSym, hg]
      simp only [Res.ok_bind]
      split
      · exact ⟨_, rfl⟩
      · obtain ⟨s3, h3, h4, _⟩ := clearInput_is hs1 (by omega : 0 < 1) hl
        rw [h3]
        simp only [Res.ok_bind]
        refine skipSym_total hT hq fuel h4 ?_
        have : 0 < text.length := List.length_pos_iff.mpr hne
        simp only [List.length_drop]
        omega

theorem scanIs_avail {s : Scan} {l text : List WChar} (h : ScanIs s l text) : text.length ≤ s.avail := by
  have h1 := congrArg List.length h.eq
  have h2 : (pending s).length =
      if s.isEof then 0 else (s.input.takeWhile (fun c => c ≠ eofChar)).length := by
    unfold pending
    split <;> simp
  have h3 := h.buf.1
  unfold Scan.avail
  rw [← h2]
  simp only [List.length_append] at h1
  omega

theorem skip_ok {T : Tables} {C : Cert} {S : List Nat} (hT : TablesOk T C) (hS : EofOk T S) {s : St} {c : PC}
    {l : List WChar} (h : Sim T C { s with errorDelay := 0 } c l) : ∃ o, step T false s = .ok o := by
  obtain ⟨o0, h0, _⟩ := step_sim hT hS h
  have back : ∀ {x : Res Out}, Res.Rel false (OutLike 0 s.errorDelay) (step T false { s with errorDelay := 0 }) x →
      ∃ o, x = .ok o := by
    intro x hx
    rw [h0] at hx
    cases x with
    | ok o => exact ⟨o, rfl⟩
    | throw m => simp [Res.Rel] at hx
    | ub => simp [Res.Rel] at hx
    | outOfFuel => simp [Res.Rel] at hx
  by_cases ha : s.act % 2 = 1
  · have := reduceStep_like T false { s with errorDelay := 0 } s.errorDelay
    apply back
    unfold step
    rw [if_pos ha, if_pos ha]
    exact this
  · by_cases hd : s.errorDelay = 3
    · have hred : c.red = none := by rw [h.red, follow, if_neg ha]
      obtain ⟨q, hq⟩ := h.top hred
      have htop : topState s.stack = some q := by
        have := topState_eq h.states
        rw [hq] at this
        exact this
      have hql : q < T.actions.length := h.chain.state_lt hT htop
      have hav : c.text.length ≤ s.scan.avail := scanIs_avail h.scan
      have hscan : ScanIs s.scan l c.text := h.scan
      obtain ⟨r, hr⟩ := skipSym_total hT.lex (by rw [hT.nsel]; exact hql) (s.scan.avail + 2) hscan (by omega)
      obtain ⟨k, sc, l', h5, h6⟩ := skipSym_is hT.lex (by rw [hT.nsel]; exact hql) _ hscan hr
      cases hstk : s.stack with
      | nil => rw [hstk] at htop; simp [topState] at htop
      | cons e es =>
        have hes : e.state = some q := by rw [hstk, topState_cons] at htop; exact htop
        let s1 : St := { s with scan := sc, errorDelay := 0, len := 0 }
        have hsim : Sim T C s1 { c with text := c.text.drop k } l' := by
          refine ⟨h.chain, h.states, h5, h.red, h.ready, h.top, Nat.zero_le _, by simp [s1], ?_⟩
          intro he
          have := h.eof he
          simp [this]
        obtain ⟨o1, h1, _⟩ := step_sim hT hS hsim
        have hs1 : step T false s1 = actStep T false q s1 r.1 r.2.1 r.2.2 := by
          unfold step
          rw [if_neg (show ¬ s1.act % 2 = 1 from ha)]
          unfold readStep
          have : s1.stack = e :: es := hstk
          rw [this]
          simp only [hes, Res.ofOption_some, Res.ok_bind]
          unfold nextSym
          rw [if_neg (by simp [s1])]
          have : getSym T false q s1.scan = .ok r := h6
          rw [this, Res.ok_bind]
        have hs : step T false s = actStep T false q s r.1 r.2.1 r.2.2 := by
          unfold step
          rw [if_neg ha]
          unfold readStep
          rw [hstk]
          simp only [hes, Res.ofOption_some, Res.ok_bind]
          unfold nextSym
          rw [if_pos hd, hr, Res.ok_bind]
        have hlike := actStep_like T false q s1 3 r.1 r.2.1 r.2.2
        have e1 : ({ s1 with errorDelay := 3 } : St) = { s with scan := sc, len := 0 } := by
          cases s; simp only [s1] at *; subst hd; rfl
        rw [e1, actStep_scan, ← hs1, h1] at hlike
        rw [hs]
        cases hx : actStep T false q s r.1 r.2.1 r.2.2 with
        | ok o => exact ⟨o, rfl⟩
        | throw m => rw [hx] at hlike; simp [Res.Rel] at hlike
        | ub => rw [hx] at hlike; simp [Res.Rel] at hlike
        | outOfFuel => rw [hx] at hlike; simp [Res.Rel] at hlike
    · exact back (step_like T false { s with errorDelay := 0 } s.errorDelay (by simp) hd)

theorem skipped_self (c : PC) (d : Nat) : Skipped (c.read ++ c.text) d c := by
  by_cases h1 : 3 < d
  · exact .inl ⟨h1, rfl⟩
  · by_cases h2 : d = 3
    · exact .inr (.inl ⟨h2, [], by rw [List.append_nil]⟩)
    · exact .inr (.inr ⟨by omega, [], [], c.read ++ c.text, by simp, by simp⟩)

theorem skip_runs {T : Tables} {C : Cert} {K : Cost} {S : List Nat} (hT : TablesOk T C) (hK : CostOk T K) (hS : EofOk T S)
    (hR : RejectOk T) :
    ∀ (fuel : Nat) (s : St) (c : PC) (l : List WChar), Sim T C { s with errorDelay := 0 } c l →
      24 * (c.read ++ c.text).length + 6 ≤ c.pot + fuel →
      ∃ r, run T false fuel s = .ok r ∧ r.len = 0 ∧ ∃ l' text', ScanIs r.scan l' text'
  | 0, s, c, l, h, hf => by
    exfalso
    have h1 := (chain_size hT hK h.chain).1
    have h2 : (PTree.yields (c.st.map (·.2)).reverse).length ≤ (c.read ++ c.text).length := by
      simp only [PC.read, List.length_append]
      omega
    simp only [PC.pot] at hf
    split at hf <;> omega
  | fuel + 1, s, c, l, h, hf => by
    obtain ⟨o, ho⟩ := skip_ok hT hS h
    obtain ⟨s1, c1, l1, o1, h1, h2, h3, h4, h5, h6, k, hk⟩ := skip_step hT h (skipped_self c _) ho
    obtain ⟨o', h7, h8, _⟩ := step_sim hT hS h1
    rw [h5] at h7
    cases h7
    have hpot : c1.pot = c.pot := by rw [hk]; rfl
    have hle : (c1.read ++ c1.text).length ≤ (c.read ++ c.text).length := by
      have : c1.read = c.read := by rw [hk]; rfl
      rw [this, hk]
      simp only [List.length_append, List.length_drop]
      omega
    rw [run, ho, Res.ok_bind]
    generalize hp : pstep T c1 = po at h8
    cases h8 with
    | @go s3 c2 l2 h9 =>
      cases o with
      | go s2 =>
        obtain ⟨e, _⟩ := h6
        obtain ⟨h10, h11⟩ := pstep_go hp
        exact skip_runs hT hK hS hR fuel s2 c2 l2 (e ▸ h9.zero) (by rw [h10]; omega)
      | accept => exact h6.elim
      | reject => exact h6.elim
    | @accept t scan hv hroot hs =>
      cases o with
      | accept a' sc =>
        obtain ⟨_, e⟩ := h6
        subst e
        exact ⟨_, rfl, rfl, _, _, hs⟩
      | go => exact h6.elim
      | reject => exact h6.elim
    | @reject len q scan l text hs hl hq hlen hact =>
      cases o with
      | reject len' sc =>
        obtain ⟨e1, e⟩ := h6
        subst e e1
        rw [reject_len hT hR hq hact] at hlen
        exact ⟨_, rfl, hlen, _, _, hs⟩
      | go => exact h6.elim
      | accept => exact h6.elim

/-- Every call ends, and leaves an empty buffer. -/
theorem parseText_ends {b : Buf} (hb : BufIs b []) (text : List WChar) (d : Nat) {fuel : Nat}
    (hf : 24 * (firstLine text).length + 6 ≤ fuel) :
    ∃ r, parseText false fuel b text d = .ok r ∧ BufIs r.scan.buf [] := by
  have hsim : Sim narsese narseseCert (initSt ⟨b, fill text, false⟩ 0) (PC.init (firstLine text)) [] :=
    sim_init (by omega) (fill_is hb text)
  obtain ⟨r, h1, h2, l, tx, h3⟩ := skip_runs narsese_ok narsese_cost narsese_eof narsese_reject fuel
    (initSt ⟨b, fill text, false⟩ d) (PC.init (firstLine text)) [] hsim
    (by simp [PC.read, PC.pot, PC.init, PTree.yields, PTree.sizes]; omega)
  obtain ⟨s', h4, h5, _⟩ := clearInput_zero h3
  refine ⟨{ r with scan := s' }, ?_, h5.buf⟩
  unfold parseText parse
  rw [h1, Res.ok_bind, h2, h4, Res.ok_bind]

/-- The buffers that can be there before a call, whatever `error_delay` was in the calls before. -/
inductive ReachedAny : Buf → Prop where
  | fresh : ReachedAny freshBuf
  | next {b : Buf} {text : List WChar} {strict : Bool} {fuel d : Nat} {r : Parsed} : ReachedAny b →
      parseText strict fuel b text d = .ok r → ReachedAny r.scan.buf

theorem ReachedAny.empty {b : Buf} (h : ReachedAny b) : BufIs b [] := by
  induction h with
  | fresh => exact Reached.fresh.empty
  | @next b text strict fuel d r _ hp ih =>
    obtain ⟨r', h1, _, _, h4⟩ := parseText_false (parseText_mono (k := 24 * (firstLine text).length + 6) hp)
    obtain ⟨r2, h5, h6⟩ := parseText_ends ih text d (fuel := fuel + (24 * (firstLine text).length + 6)) (by omega)
    rw [h5] at h1
    cases h1
    rw [← h4]
    exact h6

theorem Reached.any {b : Buf} (h : Reached b) : ReachedAny b := by
  induction h with
  | fresh => exact .fresh
  | next _ _ hp ih => exact .next ih hp

end Cnars.Parser
