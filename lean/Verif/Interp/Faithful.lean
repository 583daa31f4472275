import Verif.Interp.ColorLemmas

/-!
# A printed text determines its term
-/

namespace Cnars
open Term

namespace Print

/-- What a constant or an operation is printed as. -/
def label (d : Map Key String) : Term → Str
  | .atom a i =>
    match d (keyOf i.hash) with
    | some n => n.toList
    | none => if i.isOperation then '^' :: hexAddr a else hexAddr a
  | _ => []

/-- The printable terms for which printing keeps everything: a statement with an operational
predicate is an operation statement `<(*, …) --> ^op>`. -/
inductive Plain : Term → Prop
  | atom (a : Word) (i : Info) : Plain (.atom a i)
  | interval (n : Int) (i : Info) : Plain (.interval n i)
  | var (k : VarKind) (n : String) (i : Info) : Plain (.var k n i)
  | stmt {s p : Term} (c : Copula) (i : Info) : operational p = false → Plain s → Plain p →
      Plain (.stmt s c p i)
  | opStmt {ts : List Term} (a : Word) (i j k : Info) : k.isOperation = true →
      (∀ t ∈ ts, Plain t) → Plain (.stmt (.comp .product ts j) .inheritance (.atom a k) i)
  | comp {ts : List Term} (c : Connector) (i : Info) : ts ≠ [] → (∀ t ∈ ts, Plain t) →
      Plain (.comp c ts i)

theorem Plain.printable {t : Term} (h : Plain t) : Printable t := by
  induction h with
  | atom a i => exact .atom a i
  | interval n i => exact .interval n i
  | var k n i => exact .var k n i
  | stmt c i h _ _ h1 h2 => exact .stmt c i h h1 h2
  | opStmt a i j k h _ h1 => exact .opStmt _ _ _ _ h h1 (.atom a k)
  | comp c i h _ h1 => exact .comp c i h h1

mutual
/-- The tree whose text is printed. -/
def treeOf (d : Map Key String) : Term → Tree
  | .atom a i => .leaf (label d (.atom a i))
  | .interval n _ => .leaf (signed n)
  | .var k _ i => .leaf (k.symbol.toList ++ decimal ((i.own k).indices.head?.getD 0))
  | .stmt s c p _ =>
    if operational p then .paren (label d p) (treeArgs d s) else .angle (treeOf d s) c (treeOf d p)
  | .comp c ts _ =>
    if c = .extensionalSet then .curly (treesOf d ts)
    else if c = .intensionalSet then .square (treesOf d ts)
    else .paren c.symbol.toList (treesOf d ts)
def treeArgs (d : Map Key String) : Term → List Tree
  | .comp _ ts _ => treesOf d ts
  | _ => []
def treesOf (d : Map Key String) : List Term → List Tree
  | [] => []
  | t :: ts => treeOf d t :: treesOf d ts
end

theorem treesOf_eq (d : Map Key String) (ts : List Term) : treesOf d ts = ts.map (treeOf d) := by
  induction ts with
  | nil => rfl
  | cons t ts ih => simp [treesOf, ih]

theorem term_atom (d : Map Key String) (a : Word) (i : Info) :
    term d false (.atom a i) = .ok (label d (.atom a i)) := by
  have e : (Term.atom a i).hash = i.hash := rfl
  rw [term]
  unfold named label
  rw [e]
  cases h : d (keyOf i.hash) with
  | none => simp only [h]; split <;> rfl
  | some n => simp only [h]; rfl

theorem terms_text {d : Map Key String} {ts : List Term}
    (h : ∀ t ∈ ts, term d false t = .ok (treeOf d t).text) :
    terms d false ts = .ok (Tree.texts (treesOf d ts)) := by
  induction ts with
  | nil => rw [terms, treesOf, Tree.texts]
  | cons t ts ih =>
    have ht := h t (by simp)
    cases ts with
    | nil => rw [terms, treesOf, treesOf, Tree.texts]; exact ht
    | cons u us =>
      have hr := ih fun t ht => h t (by simp [ht])
      rw [terms_cons2, ht, hr]
      simp [paint, treesOf, Tree.texts_cons2]

theorem Plain.text {t : Term} (h : Plain t) (hg : Good t) {d : Map Key String} (hc : NoClash d t) :
    term d false t = .ok (treeOf d t).text := by
  induction h with
  | atom a i => rw [term_atom, treeOf, Tree.text]
  | interval n i => rw [term, treeOf, Tree.text]; rfl
  | var k n i =>
    rw [term, treeOf, Tree.text]
    cases hg with
    | var k n idx => cases k <;> rfl
  | @stmt s p c i hop _ _ ihs ihp =>
    obtain ⟨hs, hp, hi⟩ : Good s ∧ Good p ∧ i.isOperation = operational p := by
      have e := Good.operational hg
      cases hg with
      | stmt c h1 h2 => exact ⟨h1, h2, e⟩
    obtain ⟨h1, h2, h3⟩ := NoClash.stmt hc
    rw [term_stmt h1, hi, hop, ihs hs h2, ihp hp h3, treeOf, hop]
    simp [paint, wrapped, Tree.text]
  | @opStmt ts a i j k hop _ ih =>
    obtain ⟨hs, hi⟩ : (∀ t ∈ ts, Good t) ∧ i.isOperation = operational (.atom a k) := by
      have e := Good.operational hg
      cases hg with
      | stmt c h1 h2 =>
        refine ⟨?_, e⟩
        cases h1 with
        | comp _ h _ => exact h
    obtain ⟨h1, h2, h3⟩ := NoClash.stmt hc
    have h4 := (NoClash.comp h2).2
    rw [term_stmt h1, hi, treeOf]
    simp only [operational, hop, if_true, subjectArgs, treeArgs]
    rw [term_atom, terms_text fun t ht => ih t ht (hs t ht) (h4 t ht), Tree.text]
    simp [paint]
  | @comp ts c i hne _ ih =>
    have hts : ∀ t ∈ ts, Good t := by
      cases hg with
      | comp _ h _ => exact h
    obtain ⟨h1, h2⟩ := NoClash.comp hc
    rw [term_comp h1, if_neg (by simpa using hne),
      terms_text fun t ht => ih t ht (hts t ht) (h2 t ht), treeOf]
    split
    · simp [brace, Tree.text]
    · split
      · simp [paint, Tree.text]
      · simp [paint, Tree.text]

/-- The first characters of variables, intervals and connectors. -/
def reserved : Str := "$#?+-&|*/\\~".toList

/-- A name that looks neither like a variable nor like an interval nor like a connector, and has no
delimiters. -/
def NameLike (l : Str) : Prop := Tree.Word l ∧ ∀ c r, l = c :: r → c ∉ reserved

theorem numeric_no_delim : ∀ c ∈ numeric, Tree.isDelim c = false := by decide +kernel

theorem connector_word (c : Connector) (h1 : c ≠ .extensionalSet) (h2 : c ≠ .intensionalSet) :
    Tree.Word c.symbol.toList ∧ ∃ x r, c.symbol.toList = x :: r ∧ x ∈ reserved := by
  cases c <;> first | exact absurd rfl h1 | exact absurd rfl h2 |
    exact ⟨⟨by decide +kernel, by decide +kernel⟩, _, _, rfl, by decide +kernel⟩

theorem connector_symbol_inj {c c' : Connector} (h : c.symbol.toList = c'.symbol.toList) : c = c' := by
  revert h; cases c <;> cases c' <;> decide +kernel

theorem signed_head (n : Int) : ∃ x r, signed n = x :: r ∧ (x = '+' ∨ x = '-') := by
  cases n with
  | ofNat m => exact ⟨_, _, rfl, .inl rfl⟩
  | negSucc m => exact ⟨_, _, rfl, .inr rfl⟩

theorem var_head (k : VarKind) : ∃ x, k.symbol.toList = [x] ∧ (x = '$' ∨ x = '#' ∨ x = '?') := by
  cases k <;> exact ⟨_, rfl, by decide⟩

theorem toDigits_inj {m n : Nat} (h : Nat.toDigits 10 m = Nat.toDigits 10 n) : m = n := by
  have := congrArg (fun l => Nat.ofDigitChars 10 l 0) h
  simpa [Nat.ofDigitChars_ten_toDigits] using this

theorem toDigits_head {m : Nat} : ∀ r, Nat.toDigits 10 m ≠ '-' :: r := by
  intro r h
  have := digit_clean (b := 10) (n := m) (by omega) (by omega) '-' (by rw [h]; simp)
  exact absurd this (by decide)

theorem signed_inj {m n : Int} (h : signed m = signed n) : m = n := by
  cases m <;> cases n <;> simp [signed] at h
  · rw [toDigits_inj h]
  · have := toDigits_inj h; congr 1; omega

theorem decimal_inj {m n : Int} (h : decimal m = decimal n) : m = n := by
  cases m <;> cases n <;> simp only [decimal] at h
  · rw [toDigits_inj h]
  · exact absurd h (toDigits_head _)
  · exact absurd h.symm (toDigits_head _)
  · have := toDigits_inj (List.cons.inj h).2; congr 1; omega

theorem Plain.tree_ok {t : Term} (h : Plain t) {d : Map Key String}
    (hn : ∀ u ∈ atoms t, NameLike (label d u)) : (treeOf d t).Ok := by
  induction h with
  | atom a i => rw [treeOf]; exact .leaf (hn _ (by simp [atoms])).1
  | interval n i =>
    rw [treeOf]
    obtain ⟨x, r, e, _⟩ := signed_head n
    exact .leaf ⟨by rw [e]; simp, fun c hc => numeric_no_delim c (signed_chars n c hc)⟩
  | var k n i =>
    rw [treeOf]
    obtain ⟨x, e, h⟩ := var_head k
    refine .leaf ⟨by rw [e]; simp, fun c hc => ?_⟩
    rw [e, List.mem_append, List.mem_singleton] at hc
    rcases hc with rfl | hc
    · rcases h with rfl | rfl | rfl <;> decide
    · exact numeric_no_delim c (decimal_chars _ c hc)
  | stmt c i hop _ _ ihs ihp =>
    rw [treeOf, hop]
    exact .angle _ (ihs fun u hu => hn u (by simp [atoms, hu])) (ihp fun u hu => hn u (by simp [atoms, hu]))
  | @opStmt ts a i j k hop _ ih =>
    rw [treeOf]
    simp only [operational, hop, if_true, treeArgs, treesOf_eq]
    refine .paren (hn _ (by simp [atoms])).1 ?_
    intro x hx
    obtain ⟨t, ht, rfl⟩ := List.mem_map.1 hx
    exact ih t ht fun u hu => hn u (by
      simp only [atoms, List.mem_append, mem_atomsAll]; exact .inl ⟨t, ht, hu⟩)
  | @comp ts c i hne _ ih =>
    have key : ∀ x ∈ treesOf d ts, x.Ok := by
      intro x hx
      rw [treesOf_eq] at hx
      obtain ⟨t, ht, rfl⟩ := List.mem_map.1 hx
      exact ih t ht fun u hu => hn u (by simp only [atoms, mem_atomsAll]; exact ⟨t, ht, hu⟩)
    rw [treeOf]
    split
    · exact .curly key
    · next h1 =>
      split
      · exact .square key
      · next h2 => exact .paren (connector_word c h1 h2).1 key

/-- The address of an atom. -/
def addrOf : Term → Word
  | .atom a _ => a
  | _ => 0

theorem NameLike.ne {l m : Str} (h : NameLike l) (hm : ∃ x r, m = x :: r ∧ x ∈ reserved) : l ≠ m := by
  rintro rfl
  obtain ⟨x, r, e, hx⟩ := hm
  exact h.2 x r e hx

theorem signed_reserved (n : Int) : ∃ x r, signed n = x :: r ∧ x ∈ reserved := by
  obtain ⟨x, r, e, h⟩ := signed_head n
  exact ⟨x, r, e, by rcases h with rfl | rfl <;> decide⟩

theorem var_reserved (k : VarKind) (n : Int) :
    ∃ x r, k.symbol.toList ++ decimal n = x :: r ∧ x ∈ reserved := by
  obtain ⟨x, e, h⟩ := var_head k
  exact ⟨x, decimal n, by rw [e]; rfl, by rcases h with rfl | rfl | rfl <;> decide⟩

theorem var_ne_signed (k : VarKind) (m n : Int) : k.symbol.toList ++ decimal m ≠ signed n := by
  intro h
  obtain ⟨x, e, hx⟩ := var_head k
  obtain ⟨y, r, e', hy⟩ := signed_head n
  rw [e, e'] at h
  have := (List.cons.inj h).1
  subst this
  rcases hx with rfl | rfl | rfl <;> rcases hy with hy | hy <;> exact absurd hy (by decide)

theorem Good.var_shape {k : VarKind} {n : String} {i : Info} (h : Good (.var k n i)) :
    ∃ idx, (i.own k).indices.head? = some idx := by
  cases h with
  | var k n idx => exact ⟨idx, by cases k <;> rfl⟩

theorem Plain.tree_inj {t u : Term} (ht : Plain t) (hu : Plain u) (gt : Good t) (gu : Good u)
    {d : Map Key String} (hn : ∀ x ∈ atoms t, NameLike (label d x))
    (hm : ∀ x ∈ atoms u, NameLike (label d x))
    (hl : ∀ x ∈ atoms t, ∀ y ∈ atoms u, label d x = label d y → addrOf x = addrOf y)
    (h : treeOf d t = treeOf d u) : shape t = shape u := by
  induction ht generalizing u with
  | atom a i =>
    have n1 := hn (.atom a i) (by simp [atoms])
    cases hu with
    | atom b j =>
      simp only [treeOf, Tree.leaf.injEq] at h
      simpa [shape, addrOf] using hl (.atom a i) (by simp [atoms]) (.atom b j) (by simp [atoms]) h
    | interval => simp only [treeOf, Tree.leaf.injEq] at h; exact absurd h (n1.ne (signed_reserved _))
    | var => simp only [treeOf, Tree.leaf.injEq] at h; exact absurd h (n1.ne (var_reserved _ _))
    | stmt c i hop => simp [treeOf, hop] at h
    | opStmt b i j k hop => simp [treeOf, operational, hop] at h
    | comp c i => simp only [treeOf] at h; split at h <;> [skip; split at h] <;> cases h
  | interval n i =>
    cases hu with
    | atom b j =>
      simp only [treeOf, Tree.leaf.injEq] at h
      exact absurd h.symm ((hm (.atom b j) (by simp [atoms])).ne (signed_reserved _))
    | interval m j => simp only [treeOf, Tree.leaf.injEq] at h; simp [shape, signed_inj h]
    | var => simp only [treeOf, Tree.leaf.injEq] at h; exact absurd h.symm (var_ne_signed _ _ _)
    | stmt c i hop => simp [treeOf, hop] at h
    | opStmt b i j k hop => simp [treeOf, operational, hop] at h
    | comp c i => simp only [treeOf] at h; split at h <;> [skip; split at h] <;> cases h
  | var k n i =>
    cases hu with
    | atom b j =>
      simp only [treeOf, Tree.leaf.injEq] at h
      exact absurd h.symm ((hm (.atom b j) (by simp [atoms])).ne (var_reserved _ _))
    | interval m j => simp only [treeOf, Tree.leaf.injEq] at h; exact absurd h (var_ne_signed _ _ _)
    | var k' n' i' =>
      simp only [treeOf, Tree.leaf.injEq] at h
      obtain ⟨x, hx⟩ := Good.var_shape gt
      obtain ⟨y, hy⟩ := Good.var_shape gu
      simp only [hx, hy, Option.getD_some] at h
      simp only [shape, hx, hy]
      have hk : k = k' := by
        cases k <;> cases k' <;> first | rfl | (exact absurd (List.cons.inj h).1 (by decide))
      subst hk
      rw [decimal_inj (List.append_cancel_left h)]
    | stmt c i hop => simp [treeOf, hop] at h
    | opStmt b i j k hop => simp [treeOf, operational, hop] at h
    | comp c i => simp only [treeOf] at h; split at h <;> [skip; split at h] <;> cases h
  | @stmt s p c i hop _ _ ihs ihp =>
    obtain ⟨gs, gp⟩ : Good s ∧ Good p := by cases gt with | stmt c h1 h2 => exact ⟨h1, h2⟩
    cases hu with
    | atom => simp [treeOf, hop] at h
    | interval => simp [treeOf, hop] at h
    | var => simp [treeOf, hop] at h
    | @stmt s' p' c' i' hop' hs' hp' =>
      obtain ⟨gs', gp'⟩ : Good s' ∧ Good p' := by cases gu with | stmt c h1 h2 => exact ⟨h1, h2⟩
      simp only [treeOf, hop, hop', Bool.false_eq_true, if_false, Tree.angle.injEq] at h
      obtain ⟨h1, rfl, h3⟩ := h
      simp only [shape]
      rw [ihs hs' gs gs' (fun x hx => hn x (by simp [atoms, hx])) (fun x hx => hm x (by simp [atoms, hx]))
          (fun x hx y hy => hl x (by simp [atoms, hx]) y (by simp [atoms, hy])) h1,
        ihp hp' gp gp' (fun x hx => hn x (by simp [atoms, hx])) (fun x hx => hm x (by simp [atoms, hx]))
          (fun x hx y hy => hl x (by simp [atoms, hx]) y (by simp [atoms, hy])) h3]
    | opStmt b i j k hop' => simp [treeOf, operational, hop, hop'] at h
    | comp c i =>
      simp only [treeOf, hop, Bool.false_eq_true, if_false] at h
      split at h <;> [skip; split at h] <;> cases h
  | @opStmt ts a i j k hop _ ih =>
    have gts : ∀ t ∈ ts, Good t := by
      cases gt with
      | stmt c h1 h2 => cases h1 with | comp _ hh _ => exact hh
    have n1 := hn (.atom a k) (by simp [atoms])
    cases hu with
    | atom => simp [treeOf, operational, hop] at h
    | interval => simp [treeOf, operational, hop] at h
    | var => simp [treeOf, operational, hop] at h
    | @stmt s' p' c' i' hop' => simp [treeOf, operational, hop, hop'] at h
    | @opStmt us b i' j' k' hop' hus =>
      have gus : ∀ t ∈ us, Good t := by
        cases gu with
        | stmt c h1 h2 => cases h1 with | comp _ hh _ => exact hh
      simp only [treeOf, operational, hop, hop', if_true, treeArgs, Tree.paren.injEq, treesOf_eq] at h
      have ha : a = b := hl (.atom a k) (by simp [atoms]) (.atom b k') (by simp [atoms]) h.1
      simp only [shape, ha, shapes_eq_map]
      congr 2
      have h2 := h.2
      have hlen : ts.length = us.length := by simpa using congrArg List.length h2
      apply List.ext_getElem (by simpa using hlen)
      intro n q1 q2
      simp only [List.length_map] at q1 q2
      have hq := congrArg (fun l => l[n]?) h2
      simp only [List.getElem?_map, List.getElem?_eq_getElem q1, List.getElem?_eq_getElem q2,
        Option.map_some, Option.some.injEq] at hq
      simp only [List.getElem_map]
      have m1 := List.getElem_mem q1
      have m2 := List.getElem_mem q2
      refine ih _ m1 (hus _ m2) (gts _ m1) (gus _ m2) (fun x hx => hn x ?_) (fun x hx => hm x ?_)
        (fun x hx y hy => hl x ?_ y ?_) hq <;>
      · simp only [atoms, List.mem_append, mem_atomsAll]; exact .inl ⟨_, by assumption, by assumption⟩
    | @comp us c' i' =>
      simp only [treeOf, operational, hop, if_true, treeArgs] at h
      split at h
      · cases h
      · next e1 =>
        split at h
        · cases h
        · next e2 =>
          simp only [Tree.paren.injEq] at h
          exact absurd h.1 (n1.ne (connector_word c' e1 e2).2)
  | @comp ts c i hne _ ih =>
    have gts : ∀ t ∈ ts, Good t := by cases gt with | comp _ hh _ => exact hh
    cases hu with
    | atom => simp only [treeOf] at h; split at h <;> [skip; split at h] <;> cases h
    | interval => simp only [treeOf] at h; split at h <;> [skip; split at h] <;> cases h
    | var => simp only [treeOf] at h; split at h <;> [skip; split at h] <;> cases h
    | @stmt s' p' c' i' hop' =>
      simp only [treeOf, hop'] at h; split at h <;> [skip; split at h] <;> cases h
    | @opStmt us b i' j' k' hop' hus =>
      simp only [treeOf, operational, hop', if_true, treeArgs] at h
      split at h
      · cases h
      · next e1 =>
        split at h
        · cases h
        · next e2 =>
          simp only [Tree.paren.injEq] at h
          exact absurd h.1.symm ((hm (.atom b k') (by simp [atoms])).ne (connector_word c e1 e2).2)
    | @comp us c' i' hne' hus =>
      have gus : ∀ t ∈ us, Good t := by cases gu with | comp _ hh _ => exact hh
      have key : c = c' ∧ treesOf d ts = treesOf d us := by
        simp only [treeOf] at h
        by_cases a1 : c = .extensionalSet <;> by_cases a2 : c' = .extensionalSet <;>
          by_cases a3 : c = .intensionalSet <;> by_cases a4 : c' = .intensionalSet <;>
          simp_all
        exact connector_symbol_inj (by simpa using h.1)
      obtain ⟨rfl, h2⟩ := key
      simp only [treesOf_eq] at h2
      simp only [shape, shapes_eq_map]
      congr 1
      have hlen : ts.length = us.length := by simpa using congrArg List.length h2
      apply List.ext_getElem (by simpa using hlen)
      intro n q1 q2
      simp only [List.length_map] at q1 q2
      have hq := congrArg (fun l => l[n]?) h2
      simp only [List.getElem?_map, List.getElem?_eq_getElem q1, List.getElem?_eq_getElem q2,
        Option.map_some, Option.some.injEq] at hq
      simp only [List.getElem_map]
      have m1 := List.getElem_mem q1
      have m2 := List.getElem_mem q2
      refine ih _ m1 (hus _ m2) (gts _ m1) (gus _ m2) (fun x hx => hn x ?_) (fun x hx => hm x ?_)
        (fun x hx y hy => hl x ?_ y ?_) hq <;>
      · simp only [atoms, mem_atomsAll]; exact ⟨_, by assumption, by assumption⟩

end Print
end Cnars
