import Verif.Parser.BufLemmas

/-!
# The lexer

`lex` in terms of the text that is still to be read: it returns the longest prefix that leads to an
accepting state.  Helper lemmas.
-/

namespace Cnars.Parser

/-- All targets of a machine exist, the symbols it accepts exist, are not `&eof` and are greedy. -/
def MachineOk (T : Tables) (m : Machine) : Prop :=
  0 < m.length ∧ ∀ st ∈ m, (∀ x ∈ st.1, x.2.2 < m.length) ∧
    (0 < st.2 → st.2 ≠ 1 ∧ ∃ info, T.symbols[st.2 - 1]? = some info ∧ info.greedy = true)

/-- Running the machine over a text, remembering the last accepting state. -/
def scanM (m : Machine) : Nat → List WChar → Nat → Option (Nat × Nat) → Option (Nat × Nat)
  | _, [], _, best => best
  | state, c :: cs, len, best =>
    match m[state]? with
    | none => best
    | some (row, _) =>
      match transition row c with
      | none => best
      | some t =>
        match m[t]? with
        | none => best
        | some (_, a) => scanM m t cs (len + 1) (accepted a len best)

/-- The state a machine reaches. -/
def dfaRun (m : Machine) : Nat → List WChar → Option Nat
  | state, [] => some state
  | state, c :: cs =>
    match m[state]? with
    | none => none
    | some (row, _) => match transition row c with
      | none => none
      | some t => dfaRun m t cs

theorem dfaRun_append (m : Machine) : ∀ (u v : List WChar) (q : Nat),
    dfaRun m q (u ++ v) = (dfaRun m q u).bind (fun t => dfaRun m t v)
  | [], v, q => by simp [dfaRun]
  | c :: u, v, q => by
    simp only [List.cons_append, dfaRun]
    cases m[q]? with
    | none => rfl
    | some r =>
      simp only
      cases transition r.1 c with
      | none => rfl
      | some t => exact dfaRun_append m u v t

/-- The machine accepts the text as symbol `sym`. -/
def Accepts (m : Machine) (sym : Nat) (w : List WChar) : Prop :=
  ∃ t row, dfaRun m 0 w = some t ∧ m[t]? = some (row, sym + 1)

theorem transition_mem {row : List (Nat × Nat × Nat)} {c : WChar} {t : Nat}
    (h : transition row c = some t) : ∃ lo hi, (lo, hi, t) ∈ row ∧ inRange c lo hi = true := by
  induction row with
  | nil => simp [transition] at h
  | cons x r ih =>
    obtain ⟨lo, hi, u⟩ := x
    simp only [transition] at h
    split at h
    · rename_i hr; simp at h; subst h; exact ⟨lo, hi, by simp, hr⟩
    · obtain ⟨lo', hi', h1, h2⟩ := ih h; exact ⟨lo', hi', by simp [h1], h2⟩

theorem stopsNow_ok {T : Tables} {m : Machine} (hm : MachineOk T m) {t : Nat} {row a}
    (h : m[t]? = some (row, a)) : stopsNow T a = .ok false := by
  have hmem : (row, a) ∈ m := List.mem_of_getElem? h
  obtain ⟨_, h2⟩ := hm.2 _ hmem
  unfold stopsNow
  split
  · rename_i ha
    obtain ⟨h3, info, h4, h5⟩ := h2 ha
    simp only at h3 h4
    unfold stopsAt
    rw [if_neg (by omega), h4]
    simp [h5]
  · rfl

theorem eof_notMem {s : Scan} {l text : List WChar} (h : ScanIs s l text) : eofChar ∉ text := by
  rw [h.eq]
  intro hm
  rcases List.mem_append.mp hm with hm | hm
  · exact h.nonl hm
  · unfold pending at hm
    split at hm
    · simp at hm
    · revert hm
      generalize s.input = xs
      intro hm
      induction xs with
      | nil => simp at hm
      | cons x t ih =>
        rw [List.takeWhile_cons] at hm
        split at hm
        · rename_i hx
          rcases List.mem_cons.mp hm with h' | h'
          · subst h'; simp at hx
          · exact ih h'
        · simp at hm

theorem accepted_le {a len n : Nat} {best : Option (Nat × Nat)} {sym k : Nat}
    (hb : ∀ x y, best = some (x, y) → y ≤ len) (hn : len + 1 ≤ n)
    (h : accepted a len best = some (sym, k)) : k ≤ n := by
  unfold accepted at h
  split at h
  · simp at h; omega
  · have := hb _ _ h; omega

theorem lexLoop_is {T : Tables} {m : Machine} (hm : MachineOk T m) :
    ∀ (cs : List WChar) (c : WChar) (fuel state len : Nat) (best : Option (Nat × Nat)) (s : Scan)
      (l text : List WChar), ScanIs s l text → text.drop len = c :: cs → cs.length < fuel →
      state < m.length → len < l.length → (∀ x y, best = some (x, y) → y ≤ len) →
      ∃ s' l', (∀ strict, lexLoop T strict m fuel state len c best s
          = .ok (scanM m state (c :: cs) len best, s')) ∧ ScanIs s' l' text ∧
        l.length ≤ l'.length ∧
        (∀ x y, scanM m state (c :: cs) len best = some (x, y) → y ≤ l'.length) ∧
        (∀ B, l.length ≤ B →
          (∀ n, n < (c :: cs).length → dfaRun m state ((c :: cs).take n) ≠ none → len + n + 1 ≤ B) →
          l'.length ≤ B)
  | cs, c, 0, _, _, _, _, _, _, _, _, hf, _, _, _ => by omega
  | cs, c, fuel + 1, state, len, best, s, l, text, hs, hd, hf, hst, hlen, hb => by
    obtain ⟨⟨row, a0⟩, hrow⟩ : ∃ x, m[state]? = some x := ⟨_, List.getElem?_eq_getElem hst⟩
    cases ht : transition row c with
    | none =>
      refine ⟨s, l, ?_, hs, Nat.le_refl _, ?_, fun B hB _ => hB⟩
      · intro strict; simp [lexLoop, hrow, scanM, ht]
      · intro x y h
        simp [scanM, hrow, ht] at h
        have := hb _ _ h; omega
    | some t =>
      have htl : t < m.length := by
        obtain ⟨lo, hi, h1, _⟩ := transition_mem ht
        exact (hm.2 _ (List.mem_of_getElem? hrow)).1 _ h1
      obtain ⟨⟨row', a⟩, ha⟩ : ∃ x, m[t]? = some x := ⟨_, List.getElem?_eq_getElem htl⟩
      obtain ⟨s1, l1, hg, hs1, hl1, hl1', hl1'', _⟩ := getInput_is hs (len + 1)
      have hb1 : ∀ x y, accepted a len best = some (x, y) → y ≤ len + 1 :=
        fun x y h => accepted_le hb (Nat.le_refl _) h
      have hstop := stopsNow_ok hm ha
      cases cs with
      | nil =>
        have hnone : text[len + 1]? = none := by
          rw [List.getElem?_eq_none_iff]
          have := congrArg List.length hd
          simp at this; omega
        have hl1t : l1.length ≤ text.length := by rw [hs1.eq]; simp
        have htl : text.length ≤ len + 1 := by rw [List.getElem?_eq_none_iff] at hnone; exact hnone
        refine ⟨s1, l1, ?_, hs1, hl1, ?_, fun B hB _ => by omega⟩
        · intro strict
          simp [lexLoop, hrow, scanM, ht, ha, hstop, hg, hnone]
        · intro x y h
          simp [scanM, hrow, ht, ha] at h
          have := hb1 _ _ h; omega
      | cons c' cs' =>
        have hd' : text.drop (len + 1) = c' :: cs' := by
          rw [← List.tail_drop, hd]; rfl
        have hsome : text[len + 1]? = some c' := by
          have : (text.drop (len + 1))[0]? = some c' := by rw [hd']; rfl
          simpa using this
        have hne : c' ≠ eofChar := by
          intro h
          apply eof_notMem hs
          rw [← h]
          exact List.mem_of_getElem? hsome
        have hlt : len + 1 < text.length := by
          have := congrArg List.length hd'
          simp at this; omega
        obtain ⟨s2, l2, h1, h2, h3, h4, h5⟩ := lexLoop_is hm cs' c' fuel t (len + 1)
          (accepted a len best) s1 l1 text hs1 hd' (by simp at hf; omega) htl (hl1'' hlt) hb1
        refine ⟨s2, l2, ?_, h2, by omega, ?_, ?_⟩
        · intro strict
          have h1' := h1 strict
          simp only [lexLoop, hrow, scanM, ht, ha, hstop, hg, hsome, Res.ofOption_some, Res.ok_bind,
            Option.getD_some, hne, if_false, Bool.false_eq_true] at h1' ⊢
          exact h1'
        · intro x y h
          apply h4 x y
          simpa only [scanM, hrow, ht, ha] using h
        · intro B hB hn
          apply h5 B
          · have := hn 1 (by simp) (by simp [dfaRun, hrow, ht])
            omega
          · intro n hn1 hn2
            have := hn (n + 1) (by simp at hn1 ⊢; omega)
              (by rw [List.take_succ_cons]; simp only [dfaRun, hrow, ht]; exact hn2)
            omega

/-- What `get_sym` computes, on the text. -/
def lexPure (T : Tables) (q : Nat) (text : List WChar) : Option Nat × Nat :=
  match text with
  | [] => (some 0, 0)
  | c :: cs =>
    match T.dfaSelect[q]? with
    | some (some k) =>
      match T.dfas[k]? with
      | some m =>
        match scanM m 0 (c :: cs) 0 none with
        | some (sym, len) => (some sym, len)
        | none => (none, 0)
      | none => (none, 0)
    | _ => (none, 0)

/-- The lexer part of the tables is well formed. -/
def LexTablesOk (T : Tables) : Prop :=
  (∀ m ∈ T.dfas, MachineOk T m) ∧ (∀ k, some k ∈ T.dfaSelect → k < T.dfas.length)

/-- From the beginning of the text the machines look at no more than 127 characters. -/
def Spare (T : Tables) (text : List WChar) : Prop :=
  ∀ m ∈ T.dfas, ∀ n, n < text.length → dfaRun m 0 (text.take n) ≠ none → n + 1 ≤ 127

theorem getSym_is {T : Tables} (hT : LexTablesOk T) {q : Nat} (hq : q < T.dfaSelect.length)
    {s : Scan} {l text : List WChar} (hs : ScanIs s l text) :
    ∃ s' l', (∀ strict, getSym T strict q s
        = .ok ((lexPure T q text).1, (lexPure T q text).2, s')) ∧ ScanIs s' l' text ∧
      (lexPure T q text).2 ≤ l'.length ∧ s'.buf.cap ≠ 0 ∧
      (l.length ≤ 127 → Spare T text → l'.length ≤ 127) := by
  obtain ⟨sel, hsel⟩ : ∃ x, T.dfaSelect[q]? = some x := ⟨_, List.getElem?_eq_getElem hq⟩
  obtain ⟨s1, l1, hg, hs1, hl1, hl1', hl1'', hcap⟩ := getInput_is hs 0
  cases text with
  | nil =>
    refine ⟨s1, l1, ?_, hs1, by simp [lexPure], hcap, fun _ _ => by omega⟩
    intro strict
    simp [getSym, hsel, hg, lexPure]
  | cons c cs =>
    have hne : c ≠ eofChar := by
      intro h
      apply eof_notMem hs
      rw [← h]; simp
    cases sel with
    | none =>
      refine ⟨s1, l1, ?_, hs1, by simp [lexPure, hsel], hcap, fun _ _ => by omega⟩
      intro strict
      simp [getSym, hsel, hg, lexPure, hne]
    | some k =>
      have hk : k < T.dfas.length := hT.2 k (List.mem_of_getElem? hsel)
      obtain ⟨m, hm⟩ : ∃ x, T.dfas[k]? = some x := ⟨_, List.getElem?_eq_getElem hk⟩
      have hmok := hT.1 m (List.mem_of_getElem? hm)
      have havail : cs.length < s1.avail + 1 := by
        have h1 := congrArg List.length hs1.eq
        have h2 : (pending s1).length =
            if s1.isEof then 0 else (s1.input.takeWhile (fun c => c ≠ eofChar)).length := by
          unfold pending
          split <;> simp
        have h3 := hs1.buf.1
        unfold Scan.avail
        rw [← h2]
        simp only [List.length_cons, List.length_append] at h1
        omega
      have hlt : 0 < l1.length := hl1'' (by simp)
      obtain ⟨s2, l2, h1, h2, h3, h4, h5⟩ := lexLoop_is hmok cs c (s1.avail + 1) 0 0 none s1 l1
        (c :: cs) hs1 rfl havail hmok.1 hlt (by simp)
      have hcap2 : s2.buf.cap ≠ 0 := by
        rcases h2.buf.2 with ⟨_, h0⟩ | ⟨_, _, _, hcap⟩
        · rw [h0] at h3; simp only [List.length_nil] at h3; omega
        · have := capOk_size hcap; omega
      refine ⟨s2, l2, ?_, h2, ?_, hcap2, fun hl hsp => h5 127 (by omega) fun n h6 h7 => by
        have := hsp m (List.mem_of_getElem? hm) n h6 h7
        omega⟩
      · intro strict
        simp only [getSym, hsel, hg, lexPure, hm, h1, Res.ofOption_some, Res.ok_bind,
          List.getElem?_cons_zero, Option.getD_some, hne, if_false]
        cases scanM m 0 (c :: cs) 0 none with
        | none => rfl
        | some x => rfl
      · simp only [lexPure, hsel, hm]
        cases hsc : scanM m 0 (c :: cs) 0 none with
        | none => simp
        | some x => exact h4 x.1 x.2 hsc

/-- The symbol found is accepted by the machine of the parser state, and is not empty. -/
theorem scanM_accepts {m : Machine} (w : List WChar) :
    ∀ (cs : List WChar) (state len : Nat) (best : Option (Nat × Nat)),
      dfaRun m 0 (w.take len) = some state → w.drop len = cs →
      (∀ x y, best = some (x, y) → 0 < y ∧ y ≤ w.length ∧ Accepts m x (w.take y)) →
      ∀ x y, scanM m state cs len best = some (x, y) →
        0 < y ∧ y ≤ w.length ∧ Accepts m x (w.take y)
  | [], state, len, best, _, _, hb, x, y, h => hb x y (by simpa [scanM] using h)
  | c :: cs, state, len, best, hr, hd, hb, x, y, h => by
    cases hm : m[state]? with
    | none => exact hb x y (by simpa [scanM, hm] using h)
    | some r =>
      obtain ⟨row, a0⟩ := r
      cases ht : transition row c with
      | none => exact hb x y (by simpa [scanM, hm, ht] using h)
      | some t =>
        cases hm' : m[t]? with
        | none => exact hb x y (by simpa [scanM, hm, ht, hm'] using h)
        | some r' =>
          obtain ⟨row', a⟩ := r'
          have hlt : len < w.length := by
            have := congrArg List.length hd; simp at this; omega
          have htake : w.take (len + 1) = w.take len ++ [c] := by
            rw [List.take_add_one]
            have : w[len]? = some c := by
              have h0 : (w.drop len)[0]? = some c := by rw [hd]; rfl
              simpa using h0
            simp [this]
          have hrun : dfaRun m 0 (w.take (len + 1)) = some t := by
            rw [htake, dfaRun_append, hr]
            simp [dfaRun, hm, ht]
          refine scanM_accepts w cs t (len + 1) (accepted a len best) hrun ?_ ?_ x y ?_
          · rw [← List.tail_drop, hd]; rfl
          · intro x y h
            unfold accepted at h
            split at h
            · rename_i ha
              simp at h
              obtain ⟨rfl, rfl⟩ := h
              refine ⟨by omega, by omega, t, row', hrun, ?_⟩
              rw [hm', Nat.sub_add_cancel ha]
            · exact hb x y h
          · simpa only [scanM, hm, ht, hm'] using h

theorem lexPure_accepts {T : Tables} {q : Nat} {text : List WChar} {sym : Nat} (hne : text ≠ [])
    (h : (lexPure T q text).1 = some sym) :
    ∃ k m, T.dfaSelect[q]? = some (some k) ∧ T.dfas[k]? = some m ∧ 0 < (lexPure T q text).2 ∧
      (lexPure T q text).2 ≤ text.length ∧ Accepts m sym (text.take (lexPure T q text).2) := by
  cases text with
  | nil => exact absurd rfl hne
  | cons c cs =>
    cases hs : T.dfaSelect[q]? with
    | none => simp [lexPure, hs] at h
    | some sel =>
      cases sel with
      | none => simp [lexPure, hs] at h
      | some k =>
        cases hm : T.dfas[k]? with
        | none => simp [lexPure, hs, hm] at h
        | some m =>
          cases hsc : scanM m 0 (c :: cs) 0 none with
          | none => simp [lexPure, hs, hm, hsc] at h
          | some r =>
            obtain ⟨x, y⟩ := r
            simp only [lexPure, hs, hm, hsc] at h ⊢
            simp at h; subst h
            have := scanM_accepts (c :: cs) (c :: cs) 0 0 none (by simp [dfaRun]) rfl (by simp) x y hsc
            exact ⟨k, m, rfl, hm, this⟩

end Cnars.Parser
