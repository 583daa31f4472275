import Verif.Parser.Complete
import Verif.Parser.ItemCerts
import Verif.Parser.Checks

/-!
# The tables of the Narsese parser accept everything that is meant

The grammar is ambiguous in two places, and the tables decide: a statement that is the whole of a
sentence is taken as a statement, not as a term (productions 4, 13, 19, 28 over 66), and `(^op, …)` as
an operation, not as a product whose first component is `^op` (production 107 over 62 over 67).
Otherwise every parse tree is found: whole finite tables, evaluated by the kernel.
-/

namespace Cnars.Parser

/-- The trees that are meant.  Tag 1: a `term_nonvar` that is not a statement; tags 2 and 3: a `term`,
a `term_nonvar` that is not an operation. -/
def narseseKids (p g : Nat) : Option (List Nat) :=
  match g with
  | 0 => if p = 4 ∨ p = 13 ∨ p = 19 ∨ p = 28 then some [1] else if p = 107 then some [0, 2] else some []
  | 1 => if p = 66 then none else some []
  | 2 => if p = 62 then some [3] else some []
  | _ => if p = 67 then none else some []

/-- The certificate. -/
def narseseItems : Items :=
  { items := itemTable, null := nullTable, first := firstTable, kids := narseseKids }

/-- `ItemFits` as a program. -/
def itemFits (T : Tables) (K : Items) (by_ : List (List Nat)) (q : Nat) (it : LItem) : Bool :=
  (match (rhsOf T it.1)[it.2.2.1]? with
    | none => true
    | some X =>
      (!Nat.beq X goalSym) &&
      (match findRow (rowFor T q X) X with
        | none => false
        | some y =>
          (Nat.beq y.1 2 && (K.at_ y.2).any fun j =>
            Nat.beq j.1 it.1 && Nat.beq j.2.1 it.2.1 && Nat.beq j.2.2.1 (it.2.2.1 + 1) &&
            Nat.beq (it.2.2.2 &&& j.2.2.2) it.2.2.2) ||
          (Nat.beq y.1 3 && Nat.beq y.2 it.1 && Nat.beq (it.2.2.1 + 1) (rhsOf T it.1).length)) &&
      ((by_[X]?).getD []).all fun r =>
        (K.kids r (K.kid it.1 it.2.1 it.2.2.1)).isNone || (K.at_ q).any fun j =>
          Nat.beq j.1 r && Nat.beq j.2.1 (K.kid it.1 it.2.1 it.2.2.1) && Nat.beq j.2.2.1 0 &&
          Nat.beq (K.firsts ((rhsOf T it.1).drop (it.2.2.1 + 1)) it.2.2.2 &&& j.2.2.2)
            (K.firsts ((rhsOf T it.1).drop (it.2.2.1 + 1)) it.2.2.2)) &&
  (!Nat.beq it.2.2.1 (rhsOf T it.1).length ||
    (Nat.ble it.2.2.2 (2 ^ 60 - 1) && (List.range 60).all fun s => !it.2.2.2.testBit s ||
      (!Nat.beq s goalSym && match actOf T q (some s) with
        | some y => Nat.beq y.1 1 && Nat.beq y.2 it.1
        | none => false)))

theorem subMask {a b : Nat} (h : Nat.beq (a &&& b) a = true) (s : Nat) (hs : a.testBit s = true) :
    b.testBit s = true := by
  have h' : a &&& b = a := Nat.eq_of_beq_eq_true h
  rw [← h', Nat.testBit_and, Bool.and_eq_true] at hs
  exact hs.2

theorem itemFits_sound {T : Tables} {K : Items} {by_ : List (List Nat)}
    (hby : ∀ r < T.prods.length, r ∈ (by_[lhsOf T r]?).getD []) {q : Nat} {it : LItem}
    (h : itemFits T K by_ q it = true) : ItemFits T K q it := by
  unfold itemFits at h
  rw [Bool.and_eq_true] at h
  obtain ⟨h1, h2⟩ := h
  refine ⟨fun X hX => ?_, fun hd s hs => ?_⟩
  · have hX' : (rhsOf T it.1)[it.2.2.1]? = some X := hX
    rw [hX'] at h1
    simp only [Bool.and_eq_true] at h1
    obtain ⟨⟨h1, h3⟩, h4⟩ := h1
    refine ⟨?_, ?_, ?_⟩
    · rintro rfl; simp at h1
    · cases hy : findRow (rowFor T q X) X with
      | none => rw [hy] at h3; cases h3
      | some y =>
        rw [hy] at h3
        refine ⟨y, rfl, ?_⟩
        simp only [Bool.or_eq_true, Bool.and_eq_true, List.any_eq_true] at h3
        rcases h3 with ⟨h3, j, hj, ⟨⟨⟨h5, h6⟩, h7⟩, h8⟩⟩ | ⟨⟨h3, h5⟩, h6⟩
        · exact .inl ⟨Nat.eq_of_beq_eq_true h3, j, hj, Nat.eq_of_beq_eq_true h5,
            Nat.eq_of_beq_eq_true h6, Nat.eq_of_beq_eq_true h7, subMask h8⟩
        · exact .inr ⟨Nat.eq_of_beq_eq_true h3, Nat.eq_of_beq_eq_true h5, Nat.eq_of_beq_eq_true h6⟩
    · rintro r hr rfl hk
      rw [List.all_eq_true] at h4
      have := h4 r (hby r hr)
      simp only [Bool.or_eq_true, Bool.and_eq_true, List.any_eq_true] at this
      rcases this with h5 | ⟨j, hj, ⟨⟨⟨h5, h6⟩, h7⟩, h8⟩⟩
      · exact absurd (Option.isNone_iff_eq_none.mp h5) hk
      · exact ⟨j, hj, Nat.eq_of_beq_eq_true h5, Nat.eq_of_beq_eq_true h6,
          Nat.eq_of_beq_eq_true h7, subMask h8⟩
  · rw [Bool.or_eq_true, Bool.and_eq_true] at h2
    rcases h2 with h2 | ⟨h2, h3⟩
    · rw [hd] at h2; simp at h2
    · have hs60 : s < 60 := by
        rcases Nat.lt_or_ge s 60 with h | h
        · exact h
        · have hle := Nat.le_of_ble_eq_true h2
          have : it.2.2.2 < 2 ^ s := Nat.lt_of_lt_of_le (by omega) (Nat.pow_le_pow_right (by omega) h)
          rw [Nat.testBit_lt_two_pow this] at hs
          cases hs
      rw [List.all_eq_true] at h3
      have := h3 s (List.mem_range.mpr hs60)
      rw [hs] at this
      simp only [Bool.not_true, Bool.false_or, Bool.and_eq_true] at this
      obtain ⟨h4, h5⟩ := this
      refine ⟨by rintro rfl; simp at h4, ?_⟩
      cases hy : actOf T q (some s) with
      | none => rw [hy] at h5; cases h5
      | some y =>
        rw [hy] at h5
        simp only [Bool.and_eq_true] at h5
        obtain ⟨a, b⟩ := y
        have ha : a = 1 := Nat.eq_of_beq_eq_true h5.1
        have hb : b = it.1 := Nat.eq_of_beq_eq_true h5.2
        rw [ha, hb]

theorem narsese_itemFits : ((List.range 176).all fun q => (narseseItems.at_ q).all
    (itemFits narsese narseseItems byLhsTable q)) = true := by
  decide +kernel

theorem narsese_byLhs : ∀ r < narsese.prods.length,
    r ∈ (byLhsTable[lhsOf narsese r]?).getD [] := by
  decide +kernel

theorem narsese_firsts : ((List.range 270).all fun p =>
    Nat.beq (narseseItems.firsts (rhsOf narsese p) 0 &&& narseseItems.fst (lhsOf narsese p))
      (narseseItems.firsts (rhsOf narsese p) 0)) = true := by
  decide +kernel

theorem narsese_items : ItemsOk narsese narseseItems where
  leaf := by decide +kernel
  null := by decide +kernel
  first := by
    intro p hp
    have h270 : narsese.prods.length = 270 := by decide +kernel
    have := List.all_eq_true.mp narsese_firsts p (List.mem_range.mpr (h270 ▸ hp))
    exact subMask this
  start := by decide +kernel
  fits := by
    intro q hq it hit
    have h176 : narseseItems.items.length = 176 := by decide +kernel
    have := List.all_eq_true.mp narsese_itemFits q (List.mem_range.mpr (h176 ▸ hq))
    exact itemFits_sound narsese_byLhs (List.all_eq_true.mp this it hit)

/-- The parser finds every tree that is meant and whose tokens the lexer finds. -/
theorem narsese_complete {t : PTree} (hv : t.Valid narsese (LexTok narsese))
    (hr : t.root narsese = goalSym) (hf : t.fits narseseItems 0 = true)
    (hl : LexFits narsese narseseItems t.toks) :
    ∃ n, prun narsese n (PC.init t.yield) = some (.accept t) :=
  run_complete narsese_items (fun _ _ h => lexTok_lt narsese_ok h) (by decide +kernel)
    (by decide +kernel) (by decide +kernel) hv hr hf hl

end Cnars.Parser
