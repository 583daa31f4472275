import Verif.Parser.Driver

/-!
# The input buffer

What `get_input` and `clear_input` do in terms of the text that is still to be read.
Helper lemmas; the property theorems are in `Props/Parsing.lean`.
-/

namespace Cnars.Parser

/-- The allocated size is enough for the characters present and the terminator. -/
def CapOk (cap size : Nat) : Prop := 128 * ((size - 1) / 128) + 129 ≤ cap

/-- The buffer holds the characters `l`. -/
def BufIs (b : Buf) (l : List WChar) : Prop :=
  b.size = l.length ∧
    ((b.cap = 0 ∧ l = []) ∨
      (∃ c tail, b.cells = l.map some ++ some c :: tail ∧ CapOk b.cap b.size))

/-- The characters still to be fetched. -/
def pending (s : Scan) : List WChar :=
  if s.isEof then [] else s.input.takeWhile (fun c => c ≠ eofChar)

/-- The scanner is about to read `text` (and then meets the end of the input), `l` of it being
buffered. -/
structure ScanIs (s : Scan) (l text : List WChar) : Prop where
  buf : BufIs s.buf l
  eq : text = l ++ pending s
  nonl : eofChar ∉ l
  nonul : (0 : WChar) ∉ l
  ends : s.isEof = true ∨ eofChar ∈ s.input
  innul : (0 : WChar) ∉ s.input

theorem setCell_mid (l : List WChar) (c v : WChar) (tail : List Cell) :
    setCell (l.map some ++ some c :: tail) l.length v = l.map some ++ some v :: tail := by
  induction l with
  | nil => rfl
  | cons x l ih => simp [setCell, ih]

theorem setCell_succ (l : List WChar) (c v : WChar) (tail : List Cell) :
    setCell (l.map some ++ some c :: tail) (l.length + 1) v
      = l.map some ++ some c :: some v :: tail.tail := by
  induction l with
  | nil => cases tail <;> simp [setCell]
  | cons x l ih => simpa [setCell] using ih

theorem capOk_mono {cap m n : Nat} (h : CapOk cap n) (hm : m ≤ n) : CapOk cap m := by
  unfold CapOk at *
  have : (m - 1) / 128 ≤ (n - 1) / 128 := Nat.div_le_div_right (by omega)
  omega

theorem capOk_size {cap n : Nat} (h : CapOk cap n) : n < cap := by
  unfold CapOk at h; omega

/-- After the (re)allocation two more cells fit. -/
theorem grow_is {b : Buf} {l : List WChar} (h : BufIs b l) (h0 : (0 : WChar) ∉ l) :
    ∃ c tail, b.grow.cells = l.map some ++ some c :: tail ∧ b.grow.size = l.length ∧
      CapOk b.grow.cap b.grow.size ∧ CapOk b.grow.cap (l.length + 1) := by
  obtain ⟨hs, h⟩ := h
  unfold Buf.grow
  rcases h with ⟨hc, hl⟩ | ⟨c, tail, hc, hcap⟩
  · subst hl
    rw [if_pos hc]
    exact ⟨0, [], rfl, rfl, by simp [CapOk, mallocStep], by simp [CapOk, mallocStep]⟩
  · have hlt := capOk_size hcap
    rw [if_neg (by omega)]
    split
    · rename_i hh
      refine ⟨c, (tail.take (mallocStep)), ?_, hs, ?_, ?_⟩
      · simp only [hc, hs]
        rw [List.take_append]
        rw [List.take_of_length_le (by simp [mallocStep]; omega), List.length_map,
          Nat.add_assoc, Nat.add_sub_cancel_left]
        rfl
      · simp only [CapOk, mallocStep, hs]; omega
      · simp only [CapOk, mallocStep]; omega
    · rename_i hh
      refine ⟨c, tail, hc, hs, hcap, ?_⟩
      unfold CapOk at hcap ⊢
      cases l with
      | nil => simp at hs ⊢; simp [hs] at hcap; omega
      | cons x l =>
        have : x ≠ 0 := by intro hx; subst hx; simp at h0
        have h1 : b.cells.head? ≠ some (some 0) := by rw [hc]; simpa using this
        have h2 : ¬ b.size % mallocStep = 0 := fun h2 => hh ⟨h1, h2⟩
        simp only [mallocStep] at h2
        rw [← hs]; omega

theorem checkCell_ok {strict : Bool} {b : Buf} {i : Nat} (h : i < b.cap) :
    checkCell strict b i = .ok () := by
  unfold checkCell; rw [if_neg]; omega

theorem fillTo_is : ∀ (n : Nat) (s : Scan) (l text : List WChar), ScanIs s l text →
    ∃ eof s' l', (∀ strict, fillTo strict n s = .ok (eof, s')) ∧ ScanIs s' l' text ∧
      (eof = true → l' = text ∧ text.length < l.length + n) ∧
      (eof = false → l'.length = l.length + n) ∧ l.length ≤ l'.length ∧
      (0 < n → s'.buf.cap ≠ 0)
  | 0, s, l, text, h => ⟨false, s, l, fun _ => rfl, h, by simp, by simp, Nat.le_refl _, by simp⟩
  | n + 1, s, l, text, h => by
    obtain ⟨c, tail, hc, hs, hcap, hcap1⟩ := grow_is h.buf h.nonul
    have h2 := capOk_size hcap1
    by_cases he : s.isEof = true
    · refine ⟨true, { s with buf := s.buf.grow }, l, ?_, ?_, ?_, by simp, Nat.le_refl _,
        fun _ => by show s.buf.grow.cap ≠ 0; omega⟩
      · intro strict; simp [fillTo, he]
      · exact ⟨⟨hs, Or.inr ⟨c, tail, hc, hcap⟩⟩, h.eq, h.nonl, h.nonul, h.ends, h.innul⟩
      · intro _
        have := h.eq
        simp [pending, he] at this
        subst this; simp
    · simp only [Bool.not_eq_true] at he
      have hin : eofChar ∈ s.input := by
        rcases h.ends with h' | h'
        · rw [he] at h'; simp at h'
        · exact h'
      obtain ⟨x, xs, hx⟩ : ∃ x xs, s.input = x :: xs := by
        cases hi : s.input with
        | nil => rw [hi] at hin; simp at hin
        | cons x xs => exact ⟨x, xs, rfl⟩
      have hx0 : x ≠ 0 := by
        intro h0; apply h.innul; rw [hx, h0]; simp
      by_cases hxe : x = eofChar
      · refine ⟨true, { buf := { s.buf.grow with cells := setCell s.buf.grow.cells s.buf.grow.size x }
                        input := xs, isEof := true }, l, ?_, ?_, ?_, by simp, Nat.le_refl _,
          fun _ => by show s.buf.grow.cap ≠ 0; omega⟩
        · intro strict
          simp only [fillTo, he, hx, fetch]
          rw [checkCell_ok (by omega)]
          simp [hxe]
        · refine ⟨⟨hs, Or.inr ⟨x, tail, ?_, hcap⟩⟩, ?_, h.nonl, h.nonul, Or.inl rfl, ?_⟩
          · simp only [hc, hs]; exact setCell_mid l c x tail
          · have := h.eq
            simp [pending, he, hx, hxe] at this
            simp [pending, this]
          · intro h0; apply h.innul; rw [hx]; simp [h0]
        · intro _
          have := h.eq
          simp [pending, he, hx, hxe] at this
          subst this; simp
      · -- one more character
        let b1 : Buf := { s.buf.grow with cells := setCell s.buf.grow.cells s.buf.grow.size x }
        let s2 : Scan :=
          { buf := { b1 with cells := setCell b1.cells (b1.size + 1) 0, size := b1.size + 1 }
            input := xs, isEof := false }
        have hb1 : b1.cells = l.map some ++ some x :: tail := by
          show setCell _ _ _ = _
          rw [hc, hs]; exact setCell_mid l c x tail
        have hs2 : ScanIs s2 (l ++ [x]) text := by
          refine ⟨⟨?_, Or.inr ⟨0, tail.tail, ?_, ?_⟩⟩, ?_, ?_, ?_, Or.inr ?_, ?_⟩
          · show s.buf.grow.size + 1 = _; simp [hs]
          · show setCell b1.cells (s.buf.grow.size + 1) 0 = _
            rw [hb1, hs, setCell_succ]; simp
          · show CapOk s.buf.grow.cap (s.buf.grow.size + 1)
            rw [hs]; exact hcap1
          · have := h.eq
            simp only [pending, he, hx] at this
            rw [this]
            simp [pending, s2, hxe]
          · simp only [List.mem_append, List.mem_singleton]
            rintro (h' | h')
            · exact h.nonl h'
            · exact hxe h'.symm
          · simp only [List.mem_append, List.mem_singleton]
            rintro (h' | h')
            · exact h.nonul h'
            · exact hx0 h'.symm
          · rw [hx] at hin
            rcases List.mem_cons.mp hin with h' | h'
            · exact absurd h'.symm hxe
            · exact h'
          · intro h0; apply h.innul; rw [hx]; exact List.mem_cons_of_mem _ h0
        obtain ⟨eof, s', l', hr, hi, h3, h4, h5, h6⟩ := fillTo_is n s2 (l ++ [x]) text hs2
        refine ⟨eof, s', l', ?_, hi, ?_, ?_, ?_, ?_⟩
        · intro strict
          simp only [fillTo, he, hx, fetch]
          rw [checkCell_ok (by omega)]
          simp only [Res.ok_bind, hxe, if_false]
          rw [checkCell_ok (by simp only []; omega)]
          simpa using hr strict
        · intro h'
          have := h3 h'
          simp at this ⊢; exact ⟨this.1, by omega⟩
        · intro h'
          have := h4 h'
          simp at this ⊢; omega
        · simp at h5; omega
        · intro _
          by_cases hn : 0 < n
          · exact h6 hn
          · have hn0 : n = 0 := by omega
            subst hn0
            have := hr true
            simp only [fillTo, Res.ok.injEq, Prod.mk.injEq] at this
            rw [← this.2]
            show s.buf.grow.cap ≠ 0; omega

/-- `get_input(offset)` returns character number `offset` of the text, or `eof`. -/
theorem getInput_is {s : Scan} {l text : List WChar} (h : ScanIs s l text) (off : Nat) :
    ∃ s' l', (∀ strict, getInput strict off s = .ok ((text[off]?).getD eofChar, s')) ∧
      ScanIs s' l' text ∧ l.length ≤ l'.length ∧ l'.length ≤ max l.length (off + 1) ∧
      (off < text.length → off < l'.length) ∧ s'.buf.cap ≠ 0 := by
  obtain ⟨eof, s', l', hr, hi, h3, h4, h5, h6⟩ := fillTo_is (off + 1 - s.buf.size) s l text h
  have hsz : s.buf.size = l.length := h.buf.1
  have hle : l.length ≤ text.length := by rw [h.eq]; simp
  refine ⟨s', l', ?_, hi, h5, ?_, ?_, ?_⟩
  · intro strict
    unfold getInput
    rw [hr strict]
    cases eof with
    | true =>
      obtain ⟨_, h'⟩ := h3 rfl
      have : text[off]? = none := by
        rw [List.getElem?_eq_none_iff]; omega
      simp [this]
    | false =>
      have h' := h4 rfl
      have hlt : off < l'.length := by omega
      have : text[off]? = l'[off]? := by
        rw [hi.eq, List.getElem?_append_left hlt]
      have hcell : s'.buf.cells[off]? = some l'[off]? := by
        rcases hi.buf.2 with ⟨_, h0⟩ | ⟨c, tail, hc, _⟩
        · rw [h0] at hlt; simp at hlt
        · rw [hc, List.getElem?_append_left (by simpa using hlt)]
          simp [hlt]
      rw [this]
      simp [hcell, hlt]
  · cases eof with
    | true =>
      obtain ⟨h', h''⟩ := h3 rfl
      rw [h']; omega
    | false =>
      have h' := h4 rfl
      omega
  · intro hlt
    cases eof with
    | true => rw [(h3 rfl).1]; exact hlt
    | false => have h' := h4 rfl; omega
  · by_cases hn : 0 < off + 1 - s.buf.size
    · exact h6 hn
    · intro hz
      rcases hi.buf.2 with ⟨_, h0⟩ | ⟨c, tail, hc, hcap⟩
      · rw [h0] at h5; simp at h5; rw [h5] at hsz; simp at hsz; omega
      · have := capOk_size hcap; omega

theorem cellsTake_append : ∀ (l : List Cell) (n : Nat) (r : List Cell), l.length ≤ n →
    ∃ t, cellsTake n (l ++ r) = l ++ t
  | [], n, r, _ => ⟨_, rfl⟩
  | c :: l, 0, r, h => by simp at h
  | c :: l, n + 1, r, h => by
    obtain ⟨t, ht⟩ := cellsTake_append l n r (by simpa using h)
    exact ⟨t, by simp [cellsTake, ht]⟩

/-- `clear_input` with `len > 0` drops the first `len` characters; the only possible misbehaviour is
the read of the cell after the terminator. -/
theorem clearInput_is {s : Scan} {l text : List WChar} (h : ScanIs s l text) {len : Nat}
    (h0 : 0 < len) (hl : len ≤ l.length) :
    ∃ s', clearInput false len s = .ok s' ∧ ScanIs s' (l.drop len) (text.drop len) ∧
      (clearInput true len s = if s.buf.cap ≤ l.length + 1 then .ub else .ok s') := by
  have hsz : s.buf.size = l.length := h.buf.1
  obtain ⟨c, tail, hc, hcap⟩ : ∃ c tail, s.buf.cells = l.map some ++ some c :: tail ∧
      CapOk s.buf.cap s.buf.size := by
    rcases h.buf.2 with ⟨_, h'⟩ | h'
    · rw [h'] at hl; simp at hl; omega
    · exact h'
  have hcap0 : ¬ s.buf.cap = 0 := by have := capOk_size hcap; omega
  let s' : Scan := { s with buf := { s.buf with
            cells := cellsTake (s.buf.size - len + 2) (s.buf.cells.drop len)
              ++ s.buf.cells.drop (s.buf.size - len + 2)
            size := s.buf.size - len } }
  refine ⟨s', ?_, ?_, ?_⟩
  · unfold clearInput
    rw [if_neg hcap0, if_neg (by omega), if_neg (by omega)]
    simp [checkCell, s']
  · have hdrop : s.buf.cells.drop len = (l.drop len).map some ++ some c :: tail := by
      rw [hc, List.drop_append_of_le_length (by simpa using hl)]; simp
    obtain ⟨t, ht⟩ := cellsTake_append ((l.drop len).map some ++ [some c]) (s.buf.size - len + 2)
      tail (by simp; omega)
    refine ⟨⟨?_, Or.inr ⟨c, t ++ s.buf.cells.drop (s.buf.size - len + 2), ?_, ?_⟩⟩, ?_, ?_, ?_,
      h.ends, h.innul⟩
    · show s.buf.size - len = _; simp [hsz]
    · show cellsTake _ _ ++ _ = _
      rw [hdrop]
      simp only [List.append_assoc, List.cons_append, List.nil_append] at ht
      rw [ht]; simp
    · exact capOk_mono hcap (by show s.buf.size - len ≤ _; omega)
    · rw [h.eq, List.drop_append_of_le_length hl]
      rfl
    · intro hm; exact h.nonl (List.mem_of_mem_drop hm)
    · intro hm; exact h.nonul (List.mem_of_mem_drop hm)
  · unfold clearInput
    rw [if_neg hcap0, if_neg (by omega), if_neg (by omega)]
    by_cases hb : s.buf.cap ≤ l.length + 1
    · rw [if_pos hb]
      simp [checkCell, hsz, hb]
    · rw [if_neg hb]
      simp [checkCell, hsz, hb, s']

/-- `clear_input` with `len = 0` forgets the buffered characters. -/
theorem clearInput_zero {s : Scan} {l text : List WChar} (h : ScanIs s l text) :
    ∃ s', (∀ strict, clearInput strict 0 s = .ok s') ∧ ScanIs s' [] (pending s) ∧
      s'.buf.size = 0 ∧ s'.input = s.input ∧ s'.isEof = s.isEof ∧ s'.buf.cap = s.buf.cap := by
  have hsz : s.buf.size = l.length := h.buf.1
  rcases h.buf.2 with ⟨hz, h'⟩ | ⟨c, tail, hc, hcap⟩
  · refine ⟨s, ?_, ?_, ?_, rfl, rfl, rfl⟩
    · intro strict; simp [clearInput, hz]
    · subst h'
      exact ⟨h.buf, by simp, by simp, by simp, h.ends, h.innul⟩
    · rw [hsz, h']; rfl
  · have hcap0 : ¬ s.buf.cap = 0 := by have := capOk_size hcap; omega
    refine ⟨{ s with buf := { s.buf with cells := setCell s.buf.cells 0 0, size := 0 } }, ?_, ?_, rfl, rfl, rfl, rfl⟩
    · intro strict; simp [clearInput, hcap0]
    · refine ⟨⟨rfl, Or.inr ?_⟩, by simp [pending], by simp, by simp, h.ends, h.innul⟩
      cases l with
      | nil =>
        refine ⟨0, tail, ?_, ?_⟩
        · show setCell s.buf.cells 0 0 = _
          rw [hc]; rfl
        · exact capOk_mono hcap (by simp)
      | cons x l =>
        refine ⟨0, l.map some ++ some c :: tail, ?_, ?_⟩
        · show setCell s.buf.cells 0 0 = _
          rw [hc]; rfl
        · exact capOk_mono hcap (by simp)

/-- A new or cleared parser that has been given a text. -/
theorem fill_is {b : Buf} (hb : BufIs b []) (text : List WChar) :
    ScanIs ⟨b, fill text, false⟩ [] ((text.takeWhile (fun c => c ≠ 0)).takeWhile
      (fun c => c ≠ eofChar)) := by
  have hmem : eofChar ∈ fill text := by
    unfold fill
    dsimp only
    split
    · rename_i h; exact List.mem_of_getLast? h
    · simp
  have hne : (0 : WChar) ∉ text.takeWhile (fun c => c ≠ 0) := by
    induction text with
    | nil => simp
    | cons x t ih =>
      rw [List.takeWhile_cons]
      split
      · rename_i hx
        intro h
        rcases List.mem_cons.mp h with h | h
        · subst h; simp at hx
        · exact ih (by unfold fill; dsimp only; split <;> simp_all [List.mem_of_getLast?]) h
      · simp
  refine ⟨hb, ?_, by simp, by simp, Or.inr hmem, ?_⟩
  · simp only [pending, Bool.false_eq_true, if_false, List.nil_append]
    unfold fill
    dsimp only
    split
    · rfl
    · generalize text.takeWhile (fun c => c ≠ 0) = t
      induction t with
      | nil => simp
      | cons x t ih => 
        simp only [List.cons_append, List.takeWhile_cons]
        split
        · rw [ih]
        · rfl
  · show (0 : WChar) ∉ fill text
    unfold fill
    dsimp only
    split
    · exact hne
    · intro h
      rcases List.mem_append.mp h with h | h
      · exact hne h
      · simp [eofChar] at h

end Cnars.Parser
