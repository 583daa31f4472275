import Verif.Parser.LexSure
import Verif.Parser.ItemChecks
import Verif.Parser.EbnfChecks

/-!
# The lexer finds the tokens of a derivation

In every state of the parser: if the next token can be shifted there, the longest match is that token,
whatever may follow it; if something is to be reduced before the token, the lexer finds the token or
nothing the state has an entry for.  Texts with a tab are excluded: the names of atoms may contain
tabs, which are also blanks.  Whole finite tables, evaluated by the kernel.
-/

namespace Cnars.Parser

/-- The first characters of the tokens. -/
def headTable : List Nat :=
  [0, 576460752303423488, 137438953472, 521057374310548820963125420690728026111,
   288230376151711744, 288230376151711744, 17179869184, 288230376151711744, 288230376151711744,
   288230376151711744, 34359738368, 68719476736, 140737488355328, 4951760157141521099596496896,
   35184372088832, 10633823966279326983230456482242756608, 2475880078570760549798248448,
   85070591730234615865843651857942052864, 35184372088832, 274877906944,
   21267647932558653966460912964485513216, 274877906944, 274877906944, 274877906944,
   21267647932558653966460912964485513216, 4398046511104, 42535295865117307932921825928971026432,
   9903520314283042199192993792, 8796093022208, 914793674309632, 351843720888320, 914793674309632,
   19807040628566084398385987584, 1152921504606846976, 287667426198290432, 351843720888320,
   1152921504606846976, 1152921504606846976, 2305843009213693952, 2305843009213693952,
   2305843009213693952, 2305843009213693952, 10633823966279326983230456482242756608,
   35184372088832, 10633823966279326983230456482242756608, 1152921504606846976, 35184372088832,
   17592186044416, 2199023255552, 1099511627776, 4611686018427387904, 1152921504606846976,
   18446744073709551616, 8589934592, 9223372036854775808, 70368744177664, 914793674309632,
   287984085547089920, 4294967808]

theorem headTable_eq : tokTable.map Rx.heads = headTable := by decide +kernel

/-- The expression of a token. -/
def tokRx (s : Nat) : Rx := (tokTable[s]?).getD .eps

/-- The expression of a token without tabs: a blank is a space. -/
def plainRx (s : Nat) : Rx := if s = 58 then .cls [(32, 32)] else tokRx s

/-- The first characters of a token. -/
def tokHeads (s : Nat) : Nat := (headTable[s]?).getD 0

/-- All characters. -/
def allChars : Nat := 2 ^ 129 - 1

/-- Without the tab. -/
def noTab (m : Nat) : Nat := m &&& (allChars ^^^ 2 ^ 9)

/-- The first characters of a set of tokens. -/
def stopMask (L : Nat) : Nat :=
  noTab ((List.range 59).foldl (fun m s => if L.testBit s then m ||| tokHeads s else m) 0)

/-- The machine of a state. -/
def machineOf (q : Nat) : Option Machine :=
  match narsese.dfaSelect[q]? with
  | some (some k) => narsese.dfas[k]?
  | _ => none

/-- The check for a token before which something is reduced. -/
def awaitOk (q s : Nat) : Bool :=
  match findRow ((narsese.actions[q]?).getD []) s with
  | some _ =>
    match machineOf q with
    | none => false
    | some m => sureOk m s (plainRx s) allChars
  | none => ((narsese.actions[q]?).getD []).all (fun x => Nat.beq x.1 0 ||
      Nat.beq (noTab (tokHeads s) &&& tokHeads x.1) 0) || (Nat.beq q 47 && Nat.beq s 18)

/-- The check for an item. -/
def lexItemOk (q : Nat) (it : LItem) : Bool :=
  (match (rhsOf narsese it.1)[it.2.2.1]? with
    | none => true
    | some s => Nat.beq s 0 || Nat.ble 59 s ||
      match machineOf q with
      | none => false
      | some m => sureOk m s (plainRx s)
          (stopMask (narseseItems.firsts ((rhsOf narsese it.1).drop (it.2.2.1 + 1)) it.2.2.2))) &&
  (!Nat.beq it.2.2.1 (rhsOf narsese it.1).length ||
    (List.range 59).all fun s => !it.2.2.2.testBit s || Nat.beq s 0 || awaitOk q s)

theorem narsese_lexItems : ((List.range 176).all fun q => (narseseItems.at_ q).all (lexItemOk q))
    = true := by
  decide +kernel

theorem allChars_bit (n : Nat) : allChars.testBit (code n) = true := by
  unfold allChars
  rw [Nat.testBit_two_pow_sub_one]
  have : code n ≤ 128 := Nat.min_le_right _ _
  simp only [decide_eq_true_eq]; omega

theorem noTab_bit {m n : Nat} (hn : n ≠ 9) (h : m.testBit (code n) = true) :
    (noTab m).testBit (code n) = true := by
  unfold noTab
  have h9 : code n ≠ 9 := by unfold code; omega
  rw [Nat.testBit_and, h, Nat.testBit_xor, allChars_bit, Nat.testBit_two_pow]
  simp; omega

theorem inMask_noTab {m : Nat} {c : WChar} (hc : c ≠ 9) (h : inMask m c) : inMask (noTab m) c := by
  cases c with
  | negSucc n => cases h
  | ofNat n => exact noTab_bit (by rintro rfl; exact hc rfl) h

theorem stopMask_bit {L s : Nat} (hs : s < 59) (hL : L.testBit s = true) {c : WChar} (hc : c ≠ 9)
    (h : inMask (tokHeads s) c) : inMask (stopMask L) c := by
  apply inMask_noTab hc
  cases c with
  | negSucc n => cases h
  | ofNat n =>
    have h : (tokHeads s).testBit (code n) = true := h
    show Nat.testBit _ (code n) = true
    have key : ∀ (l : List Nat) (m : Nat), (m.testBit (code n) = true ∨ s ∈ l) →
        (l.foldl (fun m s => if L.testBit s then m ||| tokHeads s else m) m).testBit (code n)
          = true := by
      intro l
      induction l with
      | nil => intro m h; simpa using h
      | cons z l ih =>
        intro m h'
        rw [List.foldl_cons]
        apply ih
        rcases h' with h' | h'
        · left
          split
          · rw [Nat.testBit_or, h']; rfl
          · exact h'
        · rcases List.mem_cons.mp h' with rfl | h'
          · left; rw [if_pos hL, Nat.testBit_or, h]; simp
          · exact .inr h'
    exact key _ _ (.inr (List.mem_range.mpr hs))

/-- `w` is a text of the terminal. -/
def RxTok (s : Nat) (w : List WChar) : Prop := ∃ r, tokTable[s]? = some r ∧ r.Matches w

theorem RxTok.lt {s : Nat} {w : List WChar} (h : RxTok s w) : s < 59 := by
  obtain ⟨r, hr, _⟩ := h
  rcases Nat.lt_or_ge s 59 with h' | h'
  · exact h'
  · rw [List.getElem?_eq_none (by
      have : tokTable.length = 59 := by decide +kernel
      omega)] at hr
    simp at hr

theorem RxTok.matches {s : Nat} {w : List WChar} (h : RxTok s w) : (tokRx s).Matches w := by
  obtain ⟨r, hr, h⟩ := h
  unfold tokRx; rw [hr]; exact h

theorem tokHeads_eq (s : Nat) (hs : s < 59) : tokHeads s = (tokRx s).heads := by
  have hl : tokTable.length = 59 := by decide +kernel
  unfold tokHeads tokRx
  rw [← headTable_eq, List.getElem?_map, List.getElem?_eq_getElem (by omega)]
  rfl

theorem RxTok.head {s : Nat} {c : WChar} {v : List WChar} (h : RxTok s (c :: v)) :
    inMask (tokHeads s) c := by
  rw [tokHeads_eq s h.lt]
  exact Rx.heads_complete h.matches

theorem tokRx_nullable : ∀ s < 59, (tokRx s).nullable = Nat.beq s 0 := by decide +kernel

theorem RxTok.ne_nil {s : Nat} {w : List WChar} (h : RxTok s w) (hs : s ≠ 0) : w ≠ [] := by
  rintro rfl
  have h1 := Rx.nullable_complete h.matches
  rw [tokRx_nullable s h.lt] at h1
  exact hs (Nat.eq_of_beq_eq_true h1)

theorem RxTok.zero {w : List WChar} (h : RxTok 0 w) : w = [] := by
  have h1 := h.matches
  have h2 : tokRx 0 = .eps := rfl
  rw [h2] at h1
  cases h1; rfl

theorem RxTok.plain {s : Nat} {w : List WChar} (h : RxTok s w) (h9 : (9 : WChar) ∉ w) :
    (plainRx s).Matches w := by
  unfold plainRx
  split
  · rename_i hs
    subst hs
    have h1 := h.matches
    have h2 : tokRx 58 = Rx.blank := rfl
    rw [h2] at h1
    cases h1 with
    | @cls _ lo hi n h3 h4 h5 =>
      simp only [List.mem_cons, List.not_mem_nil, or_false, Prod.mk.injEq] at h3
      rcases h3 with ⟨rfl, rfl⟩ | ⟨rfl, rfl⟩
      · have : n = 9 := by omega
        subst this
        exact absurd (List.mem_singleton.mpr rfl) h9
      · exact .cls (List.mem_singleton.mpr rfl) h4 h5
  · exact h.matches

theorem inMask_all {c : WChar} (h : ∃ m, inMask m c) : inMask allChars c := by
  obtain ⟨m, h⟩ := h
  cases c with
  | negSucc n => cases h
  | ofNat n => exact allChars_bit n

/-- A state's machine finds a token. -/
theorem lexPure_sure {q s stop : Nat} {m : Machine} (hm : machineOf q = some m)
    (hs : sureOk m s (plainRx s) stop = true) {u rest : List WChar} (hu : u ≠ [])
    (hp : (plainRx s).Matches u) (hr : ∀ c v, rest = c :: v → inMask stop c) :
    lexPure narsese q (u ++ rest) = (some s, u.length) := by
  obtain ⟨t, row, h1, h2, h3⟩ := sureOk_sound hs hp
  have hsc := scanM_stop u rest 0 0 none t row hu h1 h2 (fun c v hc => h3 c (hr c v hc))
  unfold machineOf at hm
  cases u with
  | nil => exact absurd rfl hu
  | cons c u =>
    rw [List.cons_append] at hsc ⊢
    unfold lexPure
    split at hm
    · rename_i k hk
      rw [hk]
      simp only [hm, hsc, Nat.zero_add]
    · cases hm

theorem lexPure_empty (T : Tables) (q : Nat) : lexPure T q [] = (some 0, 0) := rfl

theorem actOf_default {T : Tables} {q : Nat} {x y : Option Nat}
    (hx : x.bind (findRow ((T.actions[q]?).getD [])) = none)
    (hy : y.bind (findRow ((T.actions[q]?).getD [])) = none) : actOf T q x = actOf T q y := by
  unfold actOf
  rw [hx, hy]

/-- All characters but `-`. -/
def notMinus : Nat := allChars ^^^ 2 ^ 45

theorem inMask_notMinus {c : WChar} (hc : c ≠ 45) (h : ∃ m, inMask m c) : inMask notMinus c := by
  obtain ⟨m, h⟩ := h
  cases c with
  | negSucc n => cases h
  | ofNat n =>
    show notMinus.testBit (code n) = true
    have hn : n ≠ 45 := by rintro rfl; exact hc rfl
    have h9 : code n ≠ 45 := by unfold code; omega
    unfold notMinus
    rw [Nat.testBit_xor, allChars_bit, Nat.testBit_two_pow]
    simp; omega

theorem minus_sure : (match machineOf 47 with
    | none => false
    | some m => sureOk m 18 (plainRx 18) notMinus) = true := by decide +kernel

/-- What state 47, which has entries for `-->` and `--]`, makes of `-`. -/
theorem minus_47 {rest : List WChar} (h : (∀ c w, rest = c :: w → c ≠ 45 ∧ ∃ m, inMask m c) ∨
    (∃ w, rest = 45 :: 45 :: w)) : (lexPure narsese 47 (45 :: rest)).1 = some 18 := by
  rcases h with h | ⟨w, rfl⟩
  · have hs := minus_sure
    split at hs
    · cases hs
    · rename_i m hm
      have := lexPure_sure (rest := rest) hm hs (u := [45]) (by simp)
        (.cls (n := 45) (List.mem_singleton.mpr rfl) (Nat.le_refl _) (Nat.le_refl _))
        (fun c w hc => inMask_notMinus (h c w hc).1 (h c w hc).2)
      rw [List.singleton_append] at this
      rw [this]
  · rfl

theorem narsese_follow : ((List.range 270).all fun p => (List.range (rhsOf narsese p).length).all
    fun d => match (rhsOf narsese p)[d]? with
      | none => true
      | some X => Nat.beq (narseseItems.firsts ((rhsOf narsese p).drop (d + 1))
            (followOf followTable (lhsOf narsese p)) &&& followOf followTable X)
          (narseseItems.firsts ((rhsOf narsese p).drop (d + 1))
            (followOf followTable (lhsOf narsese p)))) = true := by
  decide +kernel

theorem narsese_followFits : ∀ p < narsese.prods.length,
    FollowFits narsese narseseItems followTable p := by
  intro p hp d X hX s hs
  have h270 : narsese.prods.length = 270 := by decide +kernel
  have h1 := List.all_eq_true.mp narsese_follow p (List.mem_range.mpr (h270 ▸ hp))
  have hd : d < (rhsOf narsese p).length := by
    rcases Nat.lt_or_ge d (rhsOf narsese p).length with h | h
    · exact h
    · rw [List.getElem?_eq_none h] at hX; cases hX
  have h2 := List.all_eq_true.mp h1 d (List.mem_range.mpr hd)
  rw [hX] at h2
  exact subMask h2 s hs

/-- Nothing comes after the end. -/
theorem follow_end : followOf followTable 0 = 2 ^ goalSym := by decide +kernel

/-- After `-`: nothing that begins with `-`, except `--`. -/
theorem follow_minus : ((List.range 59).all fun s => !(followOf followTable 18).testBit s ||
    Nat.beq s 14 || Nat.beq (tokHeads s &&& 2 ^ 45) 0) = true := by decide +kernel

theorem chained_end {u : List WChar} {ws : List Tok} (h : Chained followTable ((0, u) :: ws))
    (ht : ∀ x ∈ ws, RxTok x.1 x.2) : ws = [] := by
  cases ws with
  | nil => rfl
  | cons x ws =>
    have h1 := h.1
    rw [follow_end, Nat.testBit_two_pow] at h1
    have h2 := (ht x (by simp)).lt
    have h3 : goalSym = x.1 := of_decide_eq_true h1
    have : goalSym = 59 := rfl
    omega

/-- What comes after a token begins with a character of the next token, if there is any. -/
theorem flat_head {c : WChar} {v : List WChar} {ws : List Tok} (hc : Tok.flat ws = c :: v)
    (ht : ∀ x ∈ ws, RxTok x.1 x.2) (hch : Chained followTable ws) :
    inMask (tokHeads (Tok.next ws)) c ∧ Tok.next ws < 59 := by
  cases ws with
  | nil => simp [Tok.flat] at hc
  | cons x ws =>
    obtain ⟨s, u⟩ := x
    have h1 : RxTok s u := ht (s, u) (by simp)
    have hf : u ++ Tok.flat ws = c :: v := by simpa [Tok.flat] using hc
    cases u with
    | nil =>
      have h0 : s = 0 := by
        rcases Nat.eq_zero_or_pos s with h | h
        · exact h
        · exact absurd rfl (h1.ne_nil (by omega))
      subst h0
      rw [chained_end hch (fun x hx => ht x (by simp [hx]))] at hf
      simp [Tok.flat] at hf
    | cons d u =>
      simp only [List.cons_append, List.cons.injEq] at hf
      obtain ⟨rfl, _⟩ := hf
      exact ⟨h1.head, h1.lt⟩

theorem lexItem_at {q : Nat} (hq : q < narseseItems.items.length) {it : LItem}
    (hit : it ∈ narseseItems.at_ q) : lexItemOk q it = true := by
  have h176 : narseseItems.items.length = 176 := by decide +kernel
  have := List.all_eq_true.mp narsese_lexItems q (List.mem_range.mpr (h176 ▸ hq))
  exact List.all_eq_true.mp this it hit

/-- A token is found where it can be shifted. -/
theorem lex_expects {q s : Nat} {u : List WChar} {ws : List Tok}
    (ht : ∀ x ∈ (s, u) :: ws, RxTok x.1 x.2) (h9 : (9 : WChar) ∉ Tok.flat ((s, u) :: ws))
    (hch : Chained followTable ((s, u) :: ws))
    (he : Expects narsese narseseItems q s (Tok.next ws)) :
    lexPure narsese q (u ++ Tok.flat ws) = (some s, u.length) := by
  have hu : RxTok s u := ht (s, u) (by simp)
  have hws : ∀ x ∈ ws, RxTok x.1 x.2 := fun x hx => ht x (by simp [hx])
  have h9' : (9 : WChar) ∉ u ++ Tok.flat ws := by simpa [Tok.flat] using h9
  rw [List.mem_append, not_or] at h9'
  by_cases hs : s = 0
  · subst hs
    rw [chained_end hch hws, hu.zero]
    rfl
  · obtain ⟨hq, it, hit, hx, hn⟩ := he
    have hok := lexItem_at hq hit
    unfold lexItemOk at hok
    rw [Bool.and_eq_true, hx] at hok
    have h1 := hok.1
    simp only [Bool.or_eq_true] at h1
    rcases h1 with (h1 | h1) | h1
    · exact absurd (Nat.eq_of_beq_eq_true h1) hs
    · have := Nat.le_of_ble_eq_true h1
      have := hu.lt
      omega
    · split at h1
      · cases h1
      · rename_i m hm
        refine lexPure_sure hm h1 (hu.ne_nil hs) (hu.plain h9'.1) ?_
        intro c v hc
        obtain ⟨h2, h3⟩ := flat_head hc hws hch.2
        refine stopMask_bit h3 hn ?_ h2
        rintro rfl
        exact h9'.2 (by rw [hc]; simp)

/-- Where something is to be reduced before a token, the lexer finds something that tells so. -/
theorem lex_awaits {q s : Nat} {u : List WChar} {ws : List Tok}
    (ht : ∀ x ∈ (s, u) :: ws, RxTok x.1 x.2) (h9 : (9 : WChar) ∉ Tok.flat ((s, u) :: ws))
    (hch : Chained followTable ((s, u) :: ws))
    (he : Awaits narsese narseseItems q s) :
    actOf narsese q (lexPure narsese q (u ++ Tok.flat ws)).1 = actOf narsese q (some s) := by
  have hu : RxTok s u := ht (s, u) (by simp)
  have hws : ∀ x ∈ ws, RxTok x.1 x.2 := fun x hx => ht x (by simp [hx])
  have h9' : (9 : WChar) ∉ u ++ Tok.flat ws := by simpa [Tok.flat] using h9
  rw [List.mem_append, not_or] at h9'
  by_cases hs : s = 0
  · subst hs
    rw [chained_end hch hws, hu.zero]
    rfl
  · obtain ⟨hq, it, hit, hd, hla⟩ := he
    have hok := lexItem_at hq hit
    unfold lexItemOk at hok
    rw [Bool.and_eq_true, Bool.or_eq_true] at hok
    rcases hok.2 with h1 | h1
    · rw [hd] at h1; simp at h1
    have h2 := List.all_eq_true.mp h1 s (List.mem_range.mpr hu.lt)
    simp only [Bool.or_eq_true, hla, Bool.not_true, Bool.false_eq_true, false_or] at h2
    rcases h2 with h2 | h2
    · exact absurd (Nat.eq_of_beq_eq_true h2) hs
    unfold awaitOk at h2
    split at h2
    · split at h2
      · cases h2
      · rename_i m hm
        rw [lexPure_sure hm h2 (hu.ne_nil hs) (hu.plain h9'.1)]
        intro c v hc
        exact inMask_all ⟨_, (flat_head hc hws hch.2).1⟩
    · rename_i hrow
      obtain ⟨c, u', rfl⟩ := List.exists_cons_of_ne_nil (hu.ne_nil hs)
      rw [Bool.or_eq_true] at h2
      rcases h2 with h2 | h2
      · refine actOf_default ?_ hrow
        cases hl : (lexPure narsese q (c :: u' ++ Tok.flat ws)).1 with
        | none => rfl
        | some x =>
          show findRow _ x = none
          cases hf : findRow ((narsese.actions[q]?).getD []) x with
          | none => rfl
          | some y =>
            exfalso
            have h3 := List.all_eq_true.mp h2 _ (findRow_mem hf)
            obtain ⟨h4, h5⟩ := lexPure_tok narsese_ok hl
            rcases h5 with ⟨_, h5, _⟩ | ⟨h5, h6, h7⟩
            · simp at h5
            · rw [Bool.or_eq_true] at h3
              rcases h3 with h3 | h3
              · exact h5 (Nat.eq_of_beq_eq_true h3)
              · have h8 : RxTok x _ := lexTok_matches h4
                obtain ⟨n, hn⟩ := Nat.exists_eq_succ_of_ne_zero (Nat.pos_iff_ne_zero.mp h6)
                rw [hn, List.cons_append, List.take_succ_cons] at h8
                have h10 := h8.head
                have h11 := inMask_noTab (fun h => h9'.1 (by rw [h]; simp)) hu.head
                have h12 : noTab (tokHeads s) &&& tokHeads x = 0 := Nat.eq_of_beq_eq_true h3
                cases c with
                | negSucc k => cases h10
                | ofNat k =>
                  have h13 : (noTab (tokHeads s) &&& tokHeads x).testBit (code k) = true := by
                    rw [Nat.testBit_and]
                    have h10 : (tokHeads x).testBit (code k) = true := h10
                    have h11 : (noTab (tokHeads s)).testBit (code k) = true := h11
                    rw [h10, h11]; rfl
                  rw [h12] at h13
                  simp at h13
      · rw [Bool.and_eq_true] at h2
        have hq47 : q = 47 := Nat.eq_of_beq_eq_true h2.1
        have hs18 : s = 18 := Nat.eq_of_beq_eq_true h2.2
        subst hq47; subst hs18
        have hm := hu.matches
        have hr : tokRx 18 = .cls [(45, 45)] := rfl
        rw [hr] at hm
        have hc45 : c = 45 ∧ u' = [] := by
          generalize hw : c :: u' = w at hm
          cases hm with
          | @cls _ lo hi n h3 h4 h5 =>
            simp only [List.mem_cons, List.not_mem_nil, or_false, Prod.mk.injEq] at h3
            obtain ⟨rfl, rfl⟩ := h3
            have : n = 45 := by omega
            subst this
            simp only [List.cons.injEq] at hw
            exact hw
        obtain ⟨rfl, rfl⟩ := hc45
        rw [List.cons_append, List.nil_append, minus_47]
        by_cases hn : Tok.next ws = 14
        · right
          cases ws with
          | nil => exact absurd hn (by decide)
          | cons y ws =>
            obtain ⟨s', u'⟩ := y
            have hn : s' = 14 := hn
            subst hn
            have hm' := (hws (14, u') (by simp)).matches
            have hr' : tokRx 14 = .seq (.cls [(45, 45)]) (.cls [(45, 45)]) := rfl
            rw [hr'] at hm'
            have : u' = [45, 45] := by
              cases hm' with
              | seq ha hb =>
                cases ha with
                | @cls _ lo hi n h3 h4 h5 =>
                  cases hb with
                  | @cls _ lo' hi' n' h3' h4' h5' =>
                    simp only [List.mem_cons, List.not_mem_nil, or_false, Prod.mk.injEq] at h3 h3'
                    obtain ⟨rfl, rfl⟩ := h3
                    obtain ⟨rfl, rfl⟩ := h3'
                    have : n = 45 := by omega
                    have : n' = 45 := by omega
                    subst n; subst n'
                    rfl
            subst this
            exact ⟨Tok.flat ws, by simp [Tok.flat]⟩
        · left
          intro c v hc
          obtain ⟨h3, h4⟩ := flat_head hc hws hch.2
          refine ⟨?_, _, h3⟩
          rintro rfl
          have h5 := List.all_eq_true.mp follow_minus _ (List.mem_range.mpr h4)
          rw [hch.1] at h5
          simp only [Bool.or_eq_true, Bool.not_true, Bool.false_eq_true, false_or] at h5
          rcases h5 with h5 | h5
          · exact hn (Nat.eq_of_beq_eq_true h5)
          · have h6 : tokHeads (Tok.next ws) &&& 2 ^ 45 = 0 := Nat.eq_of_beq_eq_true h5
            have h7 : (tokHeads (Tok.next ws) &&& 2 ^ 45).testBit 45 = true := by
              rw [Nat.testBit_and, Nat.testBit_two_pow]
              have h3 : (tokHeads (Tok.next ws)).testBit 45 = true := h3
              rw [h3]; rfl
            rw [h6] at h7
            simp at h7

theorem lexFits_of : ∀ {ws : List Tok}, (∀ x ∈ ws, RxTok x.1 x.2) → (9 : WChar) ∉ Tok.flat ws →
    Chained followTable ws → LexFits narsese narseseItems ws
  | [], _, _, _ => trivial
  | (s, u) :: ws, ht, h9, hc =>
    ⟨fun _ he => lex_expects ht h9 hc he, fun _ he => lex_awaits ht h9 hc he,
      lexFits_of (fun x hx => ht x (by simp [hx]))
        (fun h => h9 (by simp only [Tok.flat, List.flatMap_cons, List.mem_append]; exact .inr h))
        hc.2⟩

/-- The parser finds every tree that is meant, if its text has no tabs. -/
theorem narsese_accepts {t : PTree} (hv : t.Valid narsese RxTok) (hr : t.root narsese = goalSym)
    (hf : t.fits narseseItems 0 = true) (h9 : (9 : WChar) ∉ t.yield) :
    ∃ n, prun narsese n (PC.init t.yield) = some (.accept t) := by
  have hlt : ∀ s w, RxTok s w → s < firstNT := fun _ _ h => h.lt
  refine run_complete narsese_items hlt (by decide +kernel) (by decide +kernel) (by decide +kernel)
    hv hr hf (lexFits_of (valid_toks hv) (by rw [PTree.flat_toks]; exact h9) ?_)
  have := valid_chained narsese_items hlt narsese_followFits hv []
    (by rw [hr]; decide +kernel) trivial
  rwa [List.append_nil] at this

end Cnars.Parser
