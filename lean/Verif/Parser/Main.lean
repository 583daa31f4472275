import Verif.Parser.DriverLemmas
import Verif.Parser.HeightChecks
import Verif.Parser.EbnfChecks

/-!
# Parsing a line

`Parser::parse_string` up to the syntax tree (Parser.cpp:28-37), the buffers a parser can have between
two calls, and what one call does.
-/

namespace Cnars.Parser

/-- `char_fetcher.fill(input); this->parse();` (Parser.cpp:30-33).  `b` is the input buffer left by
the previous call, `d` the value of `error_delay`. -/
def parseText (strict : Bool) (fuel : Nat) (b : Buf) (text : List WChar) (d : Nat) : Res Parsed :=
  parse narsese strict fuel ⟨b, fill text, false⟩ d

/-- What `parse_string` reads of a text: everything before the first NUL and the first newline. -/
def firstLine (text : List WChar) : List WChar :=
  (text.takeWhile (fun c => c ≠ 0)).takeWhile (fun c => c ≠ 10)

/-- `buf = NULL` (Parser.cpp:10). -/
def freshBuf : Buf := { cells := [], cap := 0, size := 0 }

/-- The buffers a parser can have before a call of `parse_string`. -/
inductive Reached : Buf → Prop where
  | fresh : Reached freshBuf
  | next {strict : Bool} {fuel : Nat} {b : Buf} {text : List WChar} {d : Nat} {r : Parsed} :
      Reached b → d < 3 → parseText strict fuel b text d = .ok r → Reached r.scan.buf

theorem takeWhile_all {p : WChar → Bool} : ∀ {l : List WChar}, (∀ c ∈ l, p c = true) →
    l.takeWhile p = l
  | [], _ => rfl
  | c :: cs, h => by
    rw [List.takeWhile_cons, if_pos (h c (by simp)), takeWhile_all (fun x hx => h x (by simp [hx]))]

theorem mem_takeWhile_of {p : WChar → Bool} : ∀ {l : List WChar} {c : WChar},
    c ∈ l.takeWhile p → p c = true
  | [], _, h => by simp at h
  | x :: xs, c, h => by
    rw [List.takeWhile_cons] at h
    split at h
    · rename_i hx
      rcases List.mem_cons.mp h with h | h
      · exact h ▸ hx
      · exact mem_takeWhile_of h
    · simp at h

theorem parseText_mono {strict : Bool} {fuel k : Nat} {b : Buf} {text : List WChar} {d : Nat}
    {r : Parsed} (h : parseText strict fuel b text d = .ok r) :
    parseText strict (fuel + k) b text d = .ok r := parse_mono h

theorem parseText_false {strict : Bool} {fuel : Nat} {b : Buf} {text : List WChar} {d : Nat}
    {r : Parsed} (h : parseText strict fuel b text d = .ok r) :
    ∃ r', parseText false fuel b text d = .ok r' ∧ r'.ast = r.ast ∧ r'.len = r.len ∧
      r'.scan.buf = r.scan.buf := by
  cases strict with
  | false => exact ⟨r, h, rfl, rfl, rfl⟩
  | true =>
    unfold parseText at h ⊢
    rcases strict_cases (T := narsese) fuel ⟨b, fill text, false⟩ d with h' | h'
    · rw [h'] at h; simp at h
    · rw [h] at h'
      cases h2 : parse narsese false fuel ⟨b, fill text, false⟩ d with
      | ok r' => rw [h2] at h'; exact ⟨r', rfl, h'.1.symm, h'.2.1.symm, h'.2.2.symm⟩
      | throw m => rw [h2] at h'; simp [Res.Rel] at h'
      | ub => rw [h2] at h'; simp [Res.Rel] at h'
      | outOfFuel => rw [h2] at h'; simp [Res.Rel] at h'

/-- One call, with unlimited memory. -/
theorem parseText_spec {b : Buf} (hb : BufIs b []) (text : List WChar) {d : Nat} (hd : d < 3)
    {fuel : Nat} (hf : 24 * (firstLine text).length + 6 ≤ fuel) :
    ∃ scan', BufIs scan'.buf [] ∧
      ((∃ t, prun narsese fuel (PC.init (firstLine text)) = some (.accept t) ∧
          t.Valid narsese (LexTok narsese) ∧ t.root narsese = goalSym ∧ t.yield = firstLine text ∧
          parseText false fuel b text d = .ok ⟨some (t.ast narsese), 0, scan'⟩) ∨
        (prun narsese fuel (PC.init (firstLine text)) = some .reject ∧
          parseText false fuel b text d = .ok ⟨none, 0, scan'⟩)) := by
  obtain ⟨s', _, h2, h3⟩ := parse_sim narsese_ok narsese_cost narsese_eof narsese_reject hd
    (scan := ⟨b, fill text, false⟩) (text := firstLine text) (fill_is hb text) fuel hf
  exact ⟨s', h2, h3⟩

/-- Whatever the fuel: one call that ends. -/
theorem parseText_ok {b : Buf} (hb : BufIs b []) {text : List WChar} {d : Nat} (hd : d < 3)
    {strict : Bool} {fuel : Nat} {r : Parsed} (h : parseText strict fuel b text d = .ok r) :
    BufIs r.scan.buf [] ∧
      ∀ a, r.ast = some a → ∃ t : PTree, t.Valid narsese (LexTok narsese) ∧
        t.root narsese = goalSym ∧ t.yield = firstLine text ∧ t.ast narsese = a := by
  obtain ⟨r', h1, h2, h3, h4⟩ := parseText_false
    (parseText_mono (k := 24 * (firstLine text).length + 6) h)
  obtain ⟨s', h5, h6⟩ := parseText_spec hb text hd (fuel := fuel +
    (24 * (firstLine text).length + 6)) (by omega)
  rcases h6 with ⟨t, _, hv, hr, hy, h6⟩ | ⟨_, h6⟩
  · rw [h6] at h1
    simp only [Res.ok.injEq] at h1
    subst h1
    refine ⟨by rw [← h4]; exact h5, fun a ha => ⟨t, hv, hr, hy, ?_⟩⟩
    rw [← h2] at ha
    simpa using ha
  · rw [h6] at h1
    simp only [Res.ok.injEq] at h1
    subst h1
    refine ⟨by rw [← h4]; exact h5, fun a ha => ?_⟩
    rw [← h2] at ha
    simp at ha

/-- Between two calls the buffer is empty. -/
theorem Reached.empty {b : Buf} (h : Reached b) : BufIs b [] := by
  induction h with
  | fresh => exact ⟨rfl, Or.inl ⟨rfl, rfl⟩⟩
  | next _ hd hp ih => exact (parseText_ok ih hd hp).1

theorem init_chars {text : List WChar} (hc : ∀ c ∈ firstLine text, c ≤ 127) :
    Chars (PC.init (firstLine text)).text := by
  intro c hm
  refine ⟨hc c hm, ?_⟩
  have := (List.takeWhile_sublist _).subset hm
  simpa using mem_takeWhile_of this

/-- With a low stack and short tokens: with the memory the code has, one call ends as with unlimited
memory, except that the error message may be undefined. -/
theorem parseText_low {b : Buf} (hb : BufIs b []) {text : List WChar} {d : Nat} (hd : d < 3)
    (hc : ∀ c ∈ firstLine text, c ≤ 127) (hsp : ∀ k, Spare narsese ((firstLine text).drop k))
    {fuel : Nat} (hlow : Low narsese fuel (PC.init (firstLine text))) :
    parseText true fuel b text d = parseText false fuel b text d ∨
      (parseText true fuel b text d = .ub ∧
        prun narsese fuel (PC.init (firstLine text)) = some .reject) := by
  have hs : Sim narsese narseseCert (initSt ⟨b, fill text, false⟩ d) (PC.init (firstLine text)) [] :=
    sim_init hd (fill_is hb text)
  have hch := init_chars hc
  rcases run_strict narsese_ok narsese_eof fuel _ _ _ hs hch (by simp) hsp
    (Nat.le_refl _) hlow with h | ⟨h, h'⟩
  · left
    unfold parseText parse
    rw [h]
    cases hr : run narsese false fuel (initSt ⟨b, fill text, false⟩ d) with
    | ok r =>
      simp only [Res.ok_bind]
      have hlen : r.len = 0 := by
        have hp : parseText false fuel b text d = (do
            let scan ← clearInput false r.len r.scan
            .ok { r with scan := scan }) := by
          unfold parseText parse; rw [hr]; rfl
        have hm : run narsese false (fuel + (24 * (firstLine text).length + 6))
            (initSt ⟨b, fill text, false⟩ d) = .ok r := run_mono hr
        obtain ⟨s', _, h6⟩ := parseText_spec hb text hd
          (fuel := fuel + (24 * (firstLine text).length + 6)) (by omega)
        have h7 : ∀ x, parseText false (fuel + (24 * (firstLine text).length + 6)) b text d =
            .ok x → x.len = r.len := by
          intro x hx
          unfold parseText parse at hx
          rw [hm] at hx
          simp only [Res.ok_bind, Res.bind_eq_ok] at hx
          obtain ⟨_, _, hx⟩ := hx
          simp only [Res.ok.injEq] at hx
          rw [← hx]
        rcases h6 with ⟨_, _, _, _, _, h6⟩ | ⟨_, h6⟩ <;> exact (h7 _ h6).symm
      rw [hlen]
      rfl
    | throw m => rfl
    | ub => rfl
    | outOfFuel => rfl
  · right
    refine ⟨?_, h'⟩
    unfold parseText parse
    rw [h]
    rfl

/-- A short line: with the memory the code has, one call ends as with unlimited memory, except that
the error message may be undefined. -/
theorem parseText_short {b : Buf} (hb : BufIs b []) {text : List WChar} {d : Nat} (hd : d < 3)
    (hc : ∀ c ∈ firstLine text, c ≤ 127) (hl : (firstLine text).length ≤ 121) (fuel : Nat) :
    parseText true fuel b text d = parseText false fuel b text d ∨
      (parseText true fuel b text d = .ub ∧
        prun narsese fuel (PC.init (firstLine text)) = some .reject) := by
  have hs : Sim narsese narseseCert (initSt ⟨b, fill text, false⟩ d) (PC.init (firstLine text)) [] :=
    sim_init hd (fill_is hb text)
  exact parseText_low hb hd hc (spare_of_short (by omega))
    (low_short narsese_ok narsese_cost narsese_flat narsese_eof (firstLine text) hl fuel
      _ _ _ hs (by simp [PC.read, PC.init, PTree.yields]))

/-- Without a run out of memory the stack stays within its first allocation. -/
theorem parseText_defined {b : Buf} (hb : BufIs b []) {text : List WChar} {d : Nat} (hd : d < 3)
    (hc : ∀ c ∈ firstLine text, c ≤ 127) (hsp : ∀ k, Spare narsese ((firstLine text).drop k))
    {fuel : Nat} (h : parseText true fuel b text d ≠ .ub) :
    Low narsese fuel (PC.init (firstLine text)) := by
  refine strict_low narsese_ok narsese_eof fuel (initSt ⟨b, fill text, false⟩ d)
    (PC.init (firstLine text)) [] (sim_init hd (fill_is hb text)) (init_chars hc) (by simp) hsp rfl
    (by simp [initSt, mallocStep]) ?_
  intro hu
  apply h
  unfold parseText parse
  rw [hu]
  rfl

theorem prun_mono {T : Tables} : ∀ {n k : Nat} {c : PC} {o : POut}, prun T n c = some o →
    prun T (n + k) c = some o
  | 0, _, _, _, h => by simp [prun] at h
  | n + 1, k, c, o, h => by
    rw [Nat.add_right_comm]
    unfold prun at h ⊢
    cases hp : pstep T c with
    | none => rw [hp] at h; simp at h
    | some x =>
      rw [hp] at h
      cases x with
      | go c' => exact prun_mono h
      | accept t => exact h
      | reject => exact h

theorem run_less {T : Tables} {b : Bool} : ∀ {fuel k : Nat} {s : St} {r : Parsed},
    run T b (fuel + k) s = .ok r → run T b fuel s = .ok r ∨ run T b fuel s = .outOfFuel
  | 0, _, _, _, _ => Or.inr rfl
  | fuel + 1, k, s, r, h => by
    rw [Nat.add_right_comm] at h
    unfold run at h ⊢
    simp only [Res.bind_eq_ok] at h
    obtain ⟨o, ho, h⟩ := h
    rw [ho]
    simp only [Res.ok_bind]
    cases o with
    | go s' => exact run_less h
    | accept a sc => exact Or.inl h
    | reject l sc => exact Or.inl h

theorem parseText_false_ne_ub {b : Buf} (hb : BufIs b []) {text : List WChar} {d : Nat}
    (hd : d < 3) (fuel : Nat) : parseText false fuel b text d ≠ .ub := by
  obtain ⟨s', _, h6⟩ := parseText_spec hb text hd
    (fuel := fuel + (24 * (firstLine text).length + 6)) (by omega)
  have h7 : ∃ x, parseText false (fuel + (24 * (firstLine text).length + 6)) b text d = .ok x := by
    rcases h6 with ⟨_, _, _, _, _, h6⟩ | ⟨_, h6⟩ <;> exact ⟨_, h6⟩
  obtain ⟨x, hx⟩ := h7
  unfold parseText parse at hx ⊢
  simp only [Res.bind_eq_ok] at hx
  obtain ⟨r, h1, y, h2, h3⟩ := hx
  rcases run_less h1 with h4 | h4
  · rw [h4]
    simp [h2]
  · rw [h4]
    simp

/-- The syntax tree depends on the text only. -/
theorem parseText_indep {b b' : Buf} (hb : BufIs b []) (hb' : BufIs b' []) {text : List WChar}
    {d d' : Nat} (hd : d < 3) (hd' : d' < 3) {strict strict' : Bool} {fuel fuel' : Nat}
    {r r' : Parsed} (h : parseText strict fuel b text d = .ok r)
    (h' : parseText strict' fuel' b' text d' = .ok r') : r.ast = r'.ast := by
  obtain ⟨x, h1, h2, _⟩ := parseText_false
    (parseText_mono (k := fuel' + (24 * (firstLine text).length + 6)) h)
  obtain ⟨x', h1', h2', _⟩ := parseText_false
    (parseText_mono (k := fuel + (24 * (firstLine text).length + 6)) h')
  rw [← h2, ← h2']
  rw [show fuel' + (fuel + (24 * (firstLine text).length + 6)) =
    fuel + (fuel' + (24 * (firstLine text).length + 6)) by omega] at h1'
  obtain ⟨s, _, h3⟩ := parseText_spec hb text hd
    (fuel := fuel + (fuel' + (24 * (firstLine text).length + 6))) (by omega)
  obtain ⟨s', _, h3'⟩ := parseText_spec hb' text hd'
    (fuel := fuel + (fuel' + (24 * (firstLine text).length + 6))) (by omega)
  rw [h1] at h3
  rw [h1'] at h3'
  rcases h3 with ⟨t, hp, _, _, _, h3⟩ | ⟨hp, h3⟩ <;>
    rcases h3' with ⟨t', hp', _, _, _, h3'⟩ | ⟨hp', h3'⟩ <;>
    simp only [Res.ok.injEq] at h3 h3' <;> subst h3 h3' <;> rw [hp] at hp' <;> simp_all

/-! ## What derivations look like -/

theorem rx_nonneg {r : Rx} {u : List WChar} (h : r.Matches u) : ∀ c ∈ u, 0 ≤ c := by
  induction h with
  | eps => simp
  | cls => simp
  | seq _ _ ih1 ih2 =>
    intro c hc
    rcases List.mem_append.mp hc with hc | hc
    · exact ih1 c hc
    · exact ih2 c hc
  | altL _ ih => exact ih
  | altR _ ih => exact ih
  | starNil => simp
  | starCons _ _ ih1 ih2 =>
    intro c hc
    rcases List.mem_append.mp hc with hc | hc
    · exact ih1 c hc
    · exact ih2 c hc

theorem derivesAll_nonneg {gs : List Gram} {u : List WChar} {a : List Ast}
    (h : DerivesAll gs u a) : ∀ c ∈ u, 0 ≤ c := by
  refine DerivesAll.rec (motive_1 := fun _ u _ _ => ∀ c ∈ u, 0 ≤ c)
    (motive_2 := fun _ u _ _ => ∀ c ∈ u, 0 ≤ c) ?_ ?_ ?_ ?_ ?_ ?_ ?_ ?_ ?_ ?_ ?_ ?_ ?_ h
  · intro r u h; exact rx_nonneg h
  · intro r e u _ h; exact rx_nonneg h
  · intros; simp_all
  · intros; simp_all
  · intros; simp_all
  · simp
  · intros; simp_all
  · simp
  · intros; simp_all
  · intros; simp_all
  · intro g u v a b _ _ h1 h2 c hc
    rcases List.mem_append.mp hc with hc | hc
    · exact h1 c hc
    · exact h2 c hc
  · simp
  · intro g gs u v a b _ _ h1 h2 c hc
    rcases List.mem_append.mp hc with hc | hc
    · exact h1 c hc
    · exact h2 c hc

/-! ## The first line -/

theorem firstLine_idem (text : List WChar) : firstLine (firstLine text) = firstLine text := by
  have h : ∀ c ∈ firstLine text, c ≠ 0 ∧ c ≠ 10 := by
    intro c hc
    unfold firstLine at hc
    refine ⟨?_, by simpa using mem_takeWhile_of hc⟩
    have := (List.takeWhile_sublist _).subset hc
    simpa using mem_takeWhile_of this
  have h1 : (firstLine text).takeWhile (fun c => c ≠ 0) = firstLine text :=
    takeWhile_all (fun c hc => by simpa using (h c hc).1)
  have h2 : (firstLine text).takeWhile (fun c => c ≠ 10) = firstLine text :=
    takeWhile_all (fun c hc => by simpa using (h c hc).2)
  rw [firstLine, h1, h2]

theorem split_newline : ∀ (t : List WChar), t = t.takeWhile (fun c => c ≠ eofChar) ∨
    ∃ r, t = t.takeWhile (fun c => c ≠ eofChar) ++ eofChar :: r
  | [] => Or.inl rfl
  | c :: cs => by
    by_cases hc : c = eofChar
    · exact Or.inr ⟨cs, by simp [hc]⟩
    · rw [List.takeWhile_cons, if_pos (by simpa using hc)]
      rcases split_newline cs with h | ⟨r, h⟩
      · exact Or.inl (by rw [← h])
      · exact Or.inr ⟨r, by rw [List.cons_append, ← h]⟩

theorem fill_firstLine (text : List WChar) :
    ∃ r, fill text = firstLine text ++ eofChar :: r := by
  unfold fill firstLine
  dsimp only
  rcases split_newline (text.takeWhile (fun c => c ≠ 0)) with h | ⟨r, h⟩
  · have hn : (text.takeWhile (fun c => c ≠ 0)).getLast? ≠ some eofChar := by
      intro hl
      have := List.mem_of_getLast? hl
      rw [h] at this
      simpa using mem_takeWhile_of this
    rw [if_neg hn]
    exact ⟨[], congrArg (· ++ [eofChar]) h⟩
  · generalize text.takeWhile (fun c => c ≠ 0) = t at h
    split
    · exact ⟨r, h⟩
    · refine ⟨r ++ [eofChar], ?_⟩
      have := congrArg (· ++ [eofChar]) h
      simp only [List.append_assoc, List.cons_append] at this
      exact this

end Cnars.Parser
