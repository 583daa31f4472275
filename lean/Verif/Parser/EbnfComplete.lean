import Verif.Parser.LexChecks
import Verif.Parser.Main

/-!
# From derivations to parse trees

Every derivation of `narsese.par` is a parse tree over the productions of the tables, so that, by
`LexChecks.lean`, the parser accepts every line of Narsese without tabs.
-/

namespace Cnars.Parser

/-- Is there a production of the tables for this alternative? -/
def hasProd (T : Tables) (G : List Gram) (by_ : List (List Nat)) (X : Nat) (body : List Gram)
    (e : Emit) : Bool :=
  ((by_[X]?).getD []).any fun p => Nat.blt p T.prods.length && Nat.beq (lhsOf T p) X &&
    decide (prodEmit T p = e) && Gram.sameAll ((rhsOf T p).map (gramAt G)) body

/-- All alternatives of a symbol have productions. -/
def altsOk (T : Tables) (G : List Gram) (by_ : List (List Nat)) (toks : List Rx) (X : Nat) : Bool :=
  match gramAt G X with
  | .tok r e => decide (toks[X]? = some r) && decide (symEmit T X = e)
  | .nt n => (rules n).all fun x => hasProd T G by_ X x.1 x.2
  | .grp alts => alts.all fun b => hasProd T G by_ X b .none
  | .opt g => hasProd T G by_ X [] .none && hasProd T G by_ X [g] .none
  | .star g => hasProd T G by_ X [] .none && hasProd T G by_ X [.plus g] .none
  | .plus g => hasProd T G by_ X [g] .none && hasProd T G by_ X [.plus g, g] .none

/-- There is a tree for the symbol, with this text and these nodes. -/
def TreeFor (T : Tables) (tok : Nat → List WChar → Prop) (X : Nat) (u : List WChar) (a : List Ast) :
    Prop :=
  ∃ t : PTree, t.Valid T tok ∧ t.root T = X ∧ t.yield = u ∧ t.ast T = a

/-- Trees for a list of symbols. -/
def TreesFor (T : Tables) (tok : Nat → List WChar → Prop) (Xs : List Nat) (u : List WChar)
    (a : List Ast) : Prop :=
  ∃ ts : List PTree, (∀ t ∈ ts, t.Valid T tok) ∧ ts.map (PTree.root T) = Xs ∧
    PTree.yields ts = u ∧ PTree.asts T ts = a

theorem treeFor_node {T : Tables} {G : List Gram} {by_ : List (List Nat)}
    {tok : Nat → List WChar → Prop} {X : Nat} {body : List Gram} {e : Emit}
    (h : hasProd T G by_ X body e = true) {u : List WChar} {a : List Ast}
    (ht : ∀ Xs, Xs.map (gramAt G) = body → TreesFor T tok Xs u a) :
    TreeFor T tok X u (wrapNodes e a) := by
  unfold hasProd at h
  simp only [List.any_eq_true, Bool.and_eq_true, decide_eq_true_eq] at h
  obtain ⟨p, _, ⟨⟨h1, h2⟩, h3⟩, h4⟩ := h
  have h1 : p < T.prods.length := Nat.le_of_ble_eq_true h1
  have h2 : lhsOf T p = X := Nat.eq_of_beq_eq_true h2
  obtain ⟨ts, hv, hr, hy, ha⟩ := ht _ (Gram.sameAll_eq h4)
  refine ⟨.node p ts, .node h1 hr.symm hv, h2, ?_, ?_⟩
  · rw [PTree.yield, hy]
  · rw [PTree.ast, ha, h3]

theorem treesFor_one {T : Tables} {G : List Gram} {tok : Nat → List WChar → Prop} {g : Gram}
    {u : List WChar} {a : List Ast} (h : ∀ X, gramAt G X = g → TreeFor T tok X u a) (Xs : List Nat)
    (hX : Xs.map (gramAt G) = [g]) : TreesFor T tok Xs u a := by
  cases Xs with
  | nil => simp at hX
  | cons X Xs =>
    simp only [List.map_cons, List.cons.injEq, List.map_eq_nil_iff] at hX
    obtain ⟨hX, rfl⟩ := hX
    obtain ⟨t, hv, hr, hy, ha⟩ := h X hX
    exact ⟨[t], by simpa using hv, by simp [hr], by simp [PTree.yields, hy],
      by simp [PTree.asts, ha]⟩

theorem treesFor_nil {T : Tables} {G : List Gram} {tok : Nat → List WChar → Prop} (Xs : List Nat)
    (hX : Xs.map (gramAt G) = []) : TreesFor T tok Xs [] [] := by
  simp only [List.map_eq_nil_iff] at hX
  subst hX
  exact ⟨[], by simp, rfl, rfl, rfl⟩

theorem treesFor_cons {T : Tables} {G : List Gram} {tok : Nat → List WChar → Prop} {g : Gram}
    {gs : List Gram} {u v : List WChar} {a b : List Ast}
    (h1 : ∀ X, gramAt G X = g → TreeFor T tok X u a)
    (h2 : ∀ Xs, Xs.map (gramAt G) = gs → TreesFor T tok Xs v b) (Xs : List Nat)
    (hX : Xs.map (gramAt G) = g :: gs) : TreesFor T tok Xs (u ++ v) (a ++ b) := by
  cases Xs with
  | nil => simp at hX
  | cons X Xs =>
    simp only [List.map_cons, List.cons.injEq] at hX
    obtain ⟨t, hv, hr, hy, ha⟩ := h1 X hX.1
    obtain ⟨ts, hvs, hrs, hys, has⟩ := h2 Xs hX.2
    refine ⟨t :: ts, ?_, by simp [hr, hrs], by simp [PTree.yields, hy, hys],
      by simp [PTree.asts, ha, has]⟩
    intro x hx
    rcases List.mem_cons.mp hx with rfl | hx
    · exact hv
    · exact hvs x hx

theorem narsese_alts : ((List.range 234).all
    (altsOk narsese symGram byLhsTable tokTable)) = true := by
  decide +kernel

theorem narsese_altsAt (X : Nat) : altsOk narsese symGram byLhsTable tokTable X = true := by
  rcases Nat.lt_or_ge X 234 with h | h
  · exact List.all_eq_true.mp narsese_alts X (List.mem_range.mpr h)
  · have hl : symGram.length = 234 := by decide +kernel
    unfold altsOk
    have : gramAt symGram X = .grp [] := by
      unfold gramAt; rw [List.getElem?_eq_none (by omega)]; rfl
    rw [this]
    rfl

mutual
theorem derives_tree : ∀ {g : Gram} {u : List WChar} {a : List Ast}, Derives g u a →
    ∀ X, gramAt symGram X = g → TreeFor narsese RxTok X u a
  | _, _, _, .tok_plain (r := r) hm, X, hX => by
    have h := narsese_altsAt X
    unfold altsOk at h
    rw [hX] at h
    simp only [Bool.and_eq_true, decide_eq_true_eq] at h
    exact ⟨.leaf X _, .leaf ⟨r, h.1, hm⟩, rfl, rfl, by simp [PTree.ast, h.2, leafNodes]⟩
  | _, _, _, .tok_leaf (r := r) he hm, X, hX => by
    have h := narsese_altsAt X
    unfold altsOk at h
    rw [hX] at h
    simp only [Bool.and_eq_true, decide_eq_true_eq] at h
    refine ⟨.leaf X _, .leaf ⟨r, h.1, hm⟩, rfl, rfl, ?_⟩
    rw [PTree.ast, h.2, leafNodes, if_neg he]
    rfl
  | _, _, _, .nt_plain hb hd, X, hX => by
    have h := narsese_altsAt X
    unfold altsOk at h
    rw [hX] at h
    exact treeFor_node (List.all_eq_true.mp h _ hb) (derivesAll_trees hd)
  | _, _, _, .nt_node (a := a) he hb hd, X, hX => by
    have h := narsese_altsAt X
    unfold altsOk at h
    rw [hX] at h
    have := treeFor_node (List.all_eq_true.mp h _ hb) (derivesAll_trees hd)
    simpa only [wrapNodes, if_neg he] using this
  | _, _, _, .grp hb hd, X, hX => by
    have h := narsese_altsAt X
    unfold altsOk at h
    rw [hX] at h
    exact treeFor_node (List.all_eq_true.mp h _ hb) (derivesAll_trees hd)
  | _, _, _, .opt_none, X, hX => by
    have h := narsese_altsAt X
    unfold altsOk at h
    rw [hX, Bool.and_eq_true] at h
    exact treeFor_node h.1 treesFor_nil
  | _, _, _, .opt_some hd, X, hX => by
    have h := narsese_altsAt X
    unfold altsOk at h
    rw [hX, Bool.and_eq_true] at h
    exact treeFor_node h.2 (treesFor_one (derives_tree hd))
  | _, _, _, .star_nil, X, hX => by
    have h := narsese_altsAt X
    unfold altsOk at h
    rw [hX, Bool.and_eq_true] at h
    exact treeFor_node h.1 treesFor_nil
  | _, _, _, .star_plus hd, X, hX => by
    have h := narsese_altsAt X
    unfold altsOk at h
    rw [hX, Bool.and_eq_true] at h
    exact treeFor_node h.2 (treesFor_one (derives_tree hd))
  | _, _, _, .plus_one hd, X, hX => by
    have h := narsese_altsAt X
    unfold altsOk at h
    rw [hX, Bool.and_eq_true] at h
    exact treeFor_node h.1 (treesFor_one (derives_tree hd))
  | _, _, _, .plus_more hd hd', X, hX => by
    have h := narsese_altsAt X
    unfold altsOk at h
    rw [hX, Bool.and_eq_true] at h
    exact treeFor_node h.2 (treesFor_cons (derives_tree hd) (treesFor_one (derives_tree hd')))

theorem derivesAll_trees : ∀ {gs : List Gram} {u : List WChar} {a : List Ast}, DerivesAll gs u a →
    ∀ Xs, Xs.map (gramAt symGram) = gs → TreesFor narsese RxTok Xs u a
  | _, _, _, .nil, Xs, hX => treesFor_nil Xs hX
  | _, _, _, .cons h1 h2, Xs, hX => treesFor_cons (derives_tree h1) (derivesAll_trees h2) Xs hX
end

/-- A line of Narsese has a parse tree. -/
theorem isNarsese_tree {line : List WChar} {a : List Ast} (h : IsNarsese line a) :
    TreeFor narsese RxTok goalSym line a := by
  refine derives_tree ?_ goalSym (g := .grp [[Gram.blanks, .grp [[.nt .task, .tok .eps .none]]]]) rfl
  refine .grp (List.mem_singleton.mpr rfl) ?_
  unfold IsNarsese at h
  cases h with
  | @cons _ _ u v b c h1 h2 =>
    refine .cons h1 ?_
    have h3 := derivesAll_one h2
    have h4 : DerivesAll [.grp [[.nt .task, .tok .eps .none]]] (v ++ []) (c ++ []) := by
      refine .cons (.grp (List.mem_singleton.mpr rfl) ?_) .nil
      have := DerivesAll.cons h3 (DerivesAll.cons (Derives.tok_plain Rx.Matches.eps) .nil)
      simpa using this
    simpa using h4

/-! ## The trees that are meant -/

/-- The first node has this name. -/
def headIs (e : Emit) : List Ast → Bool
  | .node e' _ :: _ => decide (e' = e)
  | _ => false

mutual
/-- The syntax tree is the one meant where the grammar is ambiguous: a statement that is the whole of
a sentence stands there as a statement, not as a term, and `(^op, …)` is an operation, not a product.
-/
def Ast.meant : Ast → Bool
  | .leaf _ _ => true
  | .node e cs =>
    (if e = .judgement ∨ e = .question ∨ e = .goal ∨ e = .quest then !headIs .statement_term cs
      else if e = .multi_prefix_product then !headIs .operation cs else true) && Ast.meantAll cs

/-- All of them. -/
def Ast.meantAll : List Ast → Bool
  | [] => true
  | a :: as => a.meant && Ast.meantAll as
end

theorem meantAll_append (a b : List Ast) :
    Ast.meantAll (a ++ b) = (Ast.meantAll a && Ast.meantAll b) := by
  induction a with
  | nil => simp [Ast.meantAll]
  | cons x a ih => simp [Ast.meantAll, ih, Bool.and_assoc]

theorem headIs_append {e : Emit} {a b : List Ast} (h : headIs e a = true) :
    headIs e (a ++ b) = true := by
  cases a with
  | nil => simp [headIs] at h
  | cons x a =>
    cases x with
    | leaf => simp [headIs] at h
    | node => exact h

/-- The symbols for the content of a sentence. -/
def isContent (X : Nat) : Bool := Nat.beq X 226 || Nat.beq X 219 || Nat.beq X 216 || Nat.beq X 210

theorem content_first : ((List.range 270).all fun p =>
    (!(rhsOf narsese p).tail.any isContent) && (!(rhsOf narsese p).any isContent ||
      (prodEmit narsese p == .judgement || prodEmit narsese p == .question ||
        prodEmit narsese p == .goal || prodEmit narsese p == .quest))) = true := by
  decide +kernel

/-- Productions of `term_nonvar`. -/
theorem prods_228 : ((List.range 270).all fun p => !Nat.beq (lhsOf narsese p) 228 ||
    (Nat.ble 63 p && Nat.ble p 67)) = true := by decide +kernel

/-- Productions of `term`. -/
theorem prods_207 : ((List.range 270).all fun p => !Nat.beq (lhsOf narsese p) 207 ||
    (Nat.beq p 61 || Nat.beq p 62)) = true := by decide +kernel

/-- Productions of `op`. -/
theorem prods_204 : ((List.range 270).all fun p => !Nat.beq (lhsOf narsese p) 204 || Nat.beq p 68)
    = true := by decide +kernel

theorem prods_at {f : Nat → Bool} (h : ((List.range 270).all f) = true) {p : Nat}
    (hp : p < narsese.prods.length) : f p = true := by
  have h270 : narsese.prods.length = 270 := by decide +kernel
  exact List.all_eq_true.mp h p (List.mem_range.mpr (h270 ▸ hp))

/-- A valid tree with a nonterminal at the root is a node. -/
theorem valid_node {t : PTree} (hv : t.Valid narsese RxTok) (hr : 59 ≤ t.root narsese) :
    ∃ p cs, t = .node p cs ∧ p < narsese.prods.length ∧
      rhsOf narsese p = cs.map (PTree.root narsese) ∧ (∀ c ∈ cs, c.Valid narsese RxTok) := by
  cases hv with
  | leaf h =>
    have := h.lt
    simp only [PTree.root] at hr
    omega
  | node h1 h2 h3 => exact ⟨_, _, rfl, h1, h2, h3⟩

/-- `(` and the blanks after it. -/
def isOpen (X : Nat) : Bool :=
  [106, 49, 117, 118, 119, 58].any (Nat.beq X)

theorem open_prods : ((List.range 270).all fun p => !isOpen (lhsOf narsese p) ||
    (prodEmit narsese p == .none && (rhsOf narsese p).all isOpen)) = true := by decide +kernel

theorem open_ast {t : PTree} (hv : t.Valid narsese RxTok) (h : isOpen (t.root narsese) = true) :
    t.ast narsese = [] := by
  induction hv with
  | @leaf s w hs =>
    have h1 : ∀ s < 59, isOpen s = true → symEmit narsese s = .none := by decide +kernel
    simp [PTree.ast, leafNodes, h1 s hs.lt h]
  | @node p cs hp hr hc ih =>
    have h1 := prods_at open_prods hp
    have h2 : isOpen (lhsOf narsese p) = true := h
    rw [h2] at h1
    simp only [Bool.not_true, Bool.false_or, Bool.and_eq_true, beq_iff_eq] at h1
    have h3 : PTree.asts narsese cs = [] := by
      rw [hr] at h1
      have h4 := h1.2
      clear h1 hr hp h h2
      induction cs with
      | nil => rfl
      | cons c cs ihc =>
        simp only [List.map_cons, List.all_cons, Bool.and_eq_true] at h4
        rw [PTree.asts, ih c (by simp) h4.1,
          ihc (fun x hx => hc x (by simp [hx])) (fun x hx => ih x (by simp [hx])) h4.2]
        rfl
    rw [PTree.ast, h1.1, h3]
    rfl

theorem meantAll_asts {cs : List PTree} (h : Ast.meantAll (PTree.asts narsese cs) = true) :
    ∀ c ∈ cs, Ast.meantAll (c.ast narsese) = true := by
  induction cs with
  | nil => intro c hc; cases hc
  | cons x cs ih =>
    rw [PTree.asts, meantAll_append, Bool.and_eq_true] at h
    intro c hc
    rcases List.mem_cons.mp hc with rfl | hc
    · exact h.1
    · exact ih h.2 c hc

theorem meantAll_wrap {e : Emit} {l : List Ast} (h : Ast.meantAll (wrapNodes e l) = true) :
    Ast.meantAll l = true := by
  unfold wrapNodes at h
  split at h
  · exact h
  · simp only [Ast.meantAll, Ast.meant, Bool.and_eq_true] at h
    exact h.1.2

theorem fitsAll_zero {cs : List PTree} (h : ∀ c ∈ cs, c.fits narseseItems 0 = true) :
    PTree.fitsAll narseseItems [] cs = true := by
  induction cs with
  | nil => rfl
  | cons c cs ih =>
    rw [PTree.fitsAll, Bool.and_eq_true]
    exact ⟨h c (by simp), ih (fun x hx => h x (by simp [hx]))⟩

theorem fits_plain {p : Nat} {cs : List PTree} (hp : ¬ (p = 4 ∨ p = 13 ∨ p = 19 ∨ p = 28))
    (hp' : p ≠ 107) : (PTree.node p cs).fits narseseItems 0
      = PTree.fitsAll narseseItems [] cs := by
  rw [PTree.fits]
  have : narseseItems.kids p 0 = some [] := by
    show narseseKids p 0 = some []
    unfold narseseKids
    simp only
    rw [if_neg hp, if_neg hp']
  rw [this]

/-- A `term_nonvar` that is meant and is not a statement (tag 1), not an operation (tag 3). -/
theorem fits_nonvar {t : PTree} (hv : t.Valid narsese RxTok) (hr : t.root narsese = 228)
    (h0 : t.fits narseseItems 0 = true) :
    (headIs .statement_term (t.ast narsese) = false → t.fits narseseItems 1 = true) ∧
    (headIs .operation (t.ast narsese) = false → t.fits narseseItems 3 = true) := by
  obtain ⟨p, cs, rfl, hp, hrr, hc⟩ := valid_node hv (by omega)
  have h1 := prods_at prods_228 hp
  have h2 : lhsOf narsese p = 228 := hr
  rw [h2] at h1
  simp only [Nat.beq_refl, Bool.not_true, Bool.false_or, Bool.and_eq_true] at h1
  have h3 := Nat.le_of_ble_eq_true h1.1
  have h4 := Nat.le_of_ble_eq_true h1.2
  rw [fits_plain (by omega) (by omega)] at h0
  refine ⟨fun h => ?_, fun h => ?_⟩
  · rw [PTree.fits]
    have : narseseItems.kids p 1 = if p = 66 then none else some [] := rfl
    rw [this]
    by_cases h66 : p = 66
    · subst h66
      exfalso
      have he : prodEmit narsese 66 = .statement_term := by decide +kernel
      rw [PTree.ast, he] at h
      simp [wrapNodes, headIs] at h
    · rw [if_neg h66]; exact h0
  · rw [PTree.fits]
    have : narseseItems.kids p 3 = if p = 67 then none else some [] := rfl
    rw [this]
    by_cases h67 : p = 67
    · subst h67
      exfalso
      have he : prodEmit narsese 67 = .none := by decide +kernel
      have hr67 : rhsOf narsese 67 = [204] := by decide +kernel
      rw [hr67] at hrr
      cases cs with
      | nil => simp at hrr
      | cons c cs =>
        simp only [List.map_cons, List.cons.injEq] at hrr
        obtain ⟨q, ds, hq1, hq, _, _⟩ := valid_node (hc c (by simp)) (by omega)
        have h5 := prods_at prods_204 hq
        have h6 : lhsOf narsese q = 204 := by rw [hrr.1, hq1]; rfl
        rw [h6] at h5
        have h7 : q = 68 := by
          simp only [Nat.beq_refl, Bool.not_true, Bool.false_or] at h5
          exact Nat.eq_of_beq_eq_true h5
        subst h7
        have he' : prodEmit narsese 68 = .operation := by decide +kernel
        rw [PTree.ast, he, hq1, PTree.asts, PTree.ast, he'] at h
        simp [wrapNodes, headIs] at h
    · rw [if_neg h67]; exact h0

/-- A tree whose syntax tree is meant fits. -/
theorem meant_fits {t : PTree} (hv : t.Valid narsese RxTok) :
    Ast.meantAll (t.ast narsese) = true →
    (isContent (t.root narsese) = true → headIs .statement_term (t.ast narsese) = false) →
    t.fits narseseItems 0 = true := by
  induction hv with
  | leaf h => exact fun _ _ => rfl
  | @node p cs hp hr hc ih =>
    intro hm hcon
    have hms : Ast.meantAll (PTree.asts narsese cs) = true := by
      rw [PTree.ast] at hm; exact meantAll_wrap hm
    have hmc := meantAll_asts hms
    have hfit : ∀ c ∈ cs, c.fits narseseItems 0 = true := by
      intro c hcm
      refine ih c hcm (hmc c hcm) (fun hco => ?_)
      have h1 := prods_at content_first hp
      rw [hr, Bool.and_eq_true, Bool.or_eq_true] at h1
      obtain ⟨h1, h2⟩ := h1
      have hany : ((cs.map (PTree.root narsese)).any isContent) = true :=
        List.any_eq_true.mpr ⟨_, List.mem_map.mpr ⟨c, hcm, rfl⟩, hco⟩
      rw [hany] at h2
      cases cs with
      | nil => cases hcm
      | cons d cs =>
        have hcd : c = d := by
          rcases List.mem_cons.mp hcm with h | h
          · exact h
          · exfalso
            rw [List.map_cons, List.tail_cons] at h1
            have : ((cs.map (PTree.root narsese)).any isContent) = true :=
              List.any_eq_true.mpr ⟨_, List.mem_map.mpr ⟨c, h, rfl⟩, hco⟩
            rw [this] at h1
            cases h1
        subst hcd
        cases hh : headIs .statement_term (c.ast narsese) with
        | false => rfl
        | true =>
          exfalso
          have h3 := headIs_append (b := PTree.asts narsese cs) hh
          rw [PTree.ast, PTree.asts] at hm
          simp only [Bool.not_true, Bool.false_eq_true, false_or, Bool.or_eq_true, beq_iff_eq] at h2
          rcases h2 with ((h2 | h2) | h2) | h2 <;> rw [h2] at hm <;>
            simp [wrapNodes, Ast.meantAll, Ast.meant, h3] at hm
    by_cases hp4 : p = 4 ∨ p = 13 ∨ p = 19 ∨ p = 28
    · have hk : narseseItems.kids p 0 = some [1] := by
        show narseseKids p 0 = some [1]
        unfold narseseKids
        simp only
        rw [if_pos hp4]
      have hrp : rhsOf narsese p = [228] ∧ isContent (lhsOf narsese p) = true ∧
          prodEmit narsese p = .none := by
        rcases hp4 with rfl | rfl | rfl | rfl <;> decide +kernel
      rw [PTree.fits, hk]
      simp only
      rw [hrp.1] at hr
      cases cs with
      | nil => simp at hr
      | cons c cs =>
        simp only [List.map_cons, List.cons.injEq] at hr
        obtain ⟨hr1, hr2⟩ := hr
        have : cs = [] := by
          cases cs with
          | nil => rfl
          | cons _ _ => simp at hr2
        subst this
        rw [PTree.fitsAll, PTree.fitsAll, Bool.and_true]
        refine (fits_nonvar (hc c (by simp)) hr1.symm (hfit c (by simp))).1 ?_
        have := hcon hrp.2.1
        rw [PTree.ast, hrp.2.2] at this
        simpa [wrapNodes, PTree.asts] using this
    · by_cases hp107 : p = 107
      · subst hp107
        have hk : narseseItems.kids 107 0 = some [0, 2] := rfl
        have hrp : rhsOf narsese 107 = [106, 207, 164, 105] := by decide +kernel
        have hep : prodEmit narsese 107 = .multi_prefix_product := by decide +kernel
        rw [PTree.fits, hk]
        simp only
        rw [hrp] at hr
        cases cs with
        | nil => simp at hr
        | cons c cs =>
          cases cs with
          | nil => simp at hr
          | cons d cs =>
            simp only [List.map_cons, List.cons.injEq] at hr
            rw [PTree.fitsAll, PTree.fitsAll, Bool.and_eq_true, Bool.and_eq_true]
            refine ⟨hfit c (by simp), ?_, fitsAll_zero (fun x hx => hfit x (by simp [hx]))⟩
            show d.fits narseseItems 2 = true
            have hopen : c.ast narsese = [] := open_ast (hc c (by simp)) (by rw [← hr.1]; rfl)
            have hnop : headIs .operation (d.ast narsese) = false := by
              cases hh : headIs .operation (d.ast narsese) with
              | false => rfl
              | true =>
                exfalso
                have h3 := headIs_append (b := PTree.asts narsese cs) hh
                rw [PTree.ast, PTree.asts, PTree.asts, hopen, hep] at hm
                simp [wrapNodes, Ast.meantAll, Ast.meant, h3] at hm
            have hd0 := hfit d (by simp)
            obtain ⟨q, ds, rfl, hq, hqr, hqc⟩ := valid_node (hc d (by simp)) (by
              have := hr.2.1; omega)
            have h5 := prods_at prods_207 hq
            have h6 : lhsOf narsese q = 207 := hr.2.1.symm
            rw [h6] at h5
            simp only [Nat.beq_refl, Bool.not_true, Bool.false_or, Bool.or_eq_true] at h5
            rcases h5 with h5 | h5
            · have h5 : q = 61 := Nat.eq_of_beq_eq_true h5
              subst h5
              exact hd0
            · have h5 : q = 62 := Nat.eq_of_beq_eq_true h5
              subst h5
              have hk' : narseseItems.kids 62 2 = some [3] := rfl
              have hr62 : rhsOf narsese 62 = [228] := by decide +kernel
              have he62 : prodEmit narsese 62 = .none := by decide +kernel
              rw [PTree.fits, hk']
              rw [fits_plain (by omega) (by omega)] at hd0
              rw [hr62] at hqr
              cases ds with
              | nil => simp at hqr
              | cons x ds =>
                simp only [List.map_cons, List.cons.injEq] at hqr
                have : ds = [] := by
                  cases ds with
                  | nil => rfl
                  | cons _ _ => simp at hqr
                subst this
                simp only
                rw [PTree.fitsAll, PTree.fitsAll, Bool.and_true]
                rw [PTree.fitsAll, PTree.fitsAll, Bool.and_true] at hd0
                refine (fits_nonvar (hqc x (by simp)) hqr.1.symm hd0).2 ?_
                rw [PTree.ast, he62] at hnop
                simpa [wrapNodes, PTree.asts] using hnop
      · rw [fits_plain hp4 hp107]
        exact fitsAll_zero hfit

theorem one_of_map {f : PTree → Nat} {cs : List PTree} {x : Nat} (h : [x] = cs.map f) :
    ∃ c, cs = [c] ∧ f c = x := by
  cases cs with
  | nil => simp at h
  | cons c cs =>
    cases cs with
    | nil => simp only [List.map_cons, List.map_nil, List.cons.injEq, and_true] at h; exact ⟨c, rfl, h.symm⟩
    | cons _ _ => simp at h

theorem two_of_map {f : PTree → Nat} {cs : List PTree} {x y : Nat} (h : [x, y] = cs.map f) :
    ∃ c d, cs = [c, d] ∧ f c = x ∧ f d = y := by
  cases cs with
  | nil => simp at h
  | cons c cs =>
    simp only [List.map_cons, List.cons.injEq] at h
    obtain ⟨d, rfl, h'⟩ := one_of_map h.2
    exact ⟨c, d, rfl, h.1.symm, h'⟩

/-! ## Every tree can be made into one that is meant -/

/-- A tree of the symbol with the text, that fits. -/
def Fitting (X : Nat) (u : List WChar) : Prop :=
  ∃ t : PTree, t.Valid narsese RxTok ∧ t.root narsese = X ∧ t.yield = u ∧
    t.fits narseseItems 0 = true

/-- Trees for a list of symbols, that fit. -/
def Fittings (Xs : List Nat) (u : List WChar) : Prop :=
  ∃ ts : List PTree, (∀ t ∈ ts, t.Valid narsese RxTok) ∧ ts.map (PTree.root narsese) = Xs ∧
    PTree.yields ts = u ∧ ∀ t ∈ ts, t.fits narseseItems 0 = true

theorem fittings_nil : Fittings [] [] := ⟨[], by simp, rfl, rfl, by simp⟩

theorem fittings_cons {X : Nat} {Xs : List Nat} {u v : List WChar} (h : Fitting X u)
    (hs : Fittings Xs v) : Fittings (X :: Xs) (u ++ v) := by
  obtain ⟨t, h1, h2, h3, h4⟩ := h
  obtain ⟨ts, g1, g2, g3, g4⟩ := hs
  refine ⟨t :: ts, ?_, by simp [h2, g2], by simp [PTree.yields, h3, g3], ?_⟩
  · intro x hx
    rcases List.mem_cons.mp hx with rfl | hx
    · exact h1
    · exact g1 x hx
  · intro x hx
    rcases List.mem_cons.mp hx with rfl | hx
    · exact h4
    · exact g4 x hx

theorem fittings_one {X : Nat} {u : List WChar} (h : Fitting X u) : Fittings [X] u := by
  have := fittings_cons h fittings_nil
  rwa [List.append_nil] at this

theorem fittings_uncons {X : Nat} {Xs : List Nat} {w : List WChar} (h : Fittings (X :: Xs) w) :
    ∃ u v, w = u ++ v ∧ Fitting X u ∧ Fittings Xs v := by
  obtain ⟨ts, g1, g2, g3, g4⟩ := h
  cases ts with
  | nil => simp at g2
  | cons t ts =>
    simp only [List.map_cons, List.cons.injEq] at g2
    refine ⟨t.yield, PTree.yields ts, by rw [← g3]; rfl,
      ⟨t, g1 t (by simp), g2.1, rfl, g4 t (by simp)⟩,
      ⟨ts, fun x hx => g1 x (by simp [hx]), g2.2, rfl, fun x hx => g4 x (by simp [hx])⟩⟩

theorem fitting_node {p : Nat} {u : List WChar} (hp : p < narsese.prods.length)
    (hp4 : ¬ (p = 4 ∨ p = 13 ∨ p = 19 ∨ p = 28)) (hp107 : p ≠ 107)
    (h : Fittings (rhsOf narsese p) u) : Fitting (lhsOf narsese p) u := by
  obtain ⟨ts, g1, g2, g3, g4⟩ := h
  refine ⟨.node p ts, .node hp g2.symm g1, rfl, g3, ?_⟩
  rw [fits_plain hp4 hp107]
  exact fitsAll_zero g4

theorem prods_164 : ((List.range 270).all fun p => !Nat.beq (lhsOf narsese p) 164 ||
    (Nat.beq p 109 || Nat.beq p 110)) = true := by decide +kernel
theorem prods_165 : ((List.range 270).all fun p => !Nat.beq (lhsOf narsese p) 165 || Nat.beq p 108)
    = true := by decide +kernel

theorem h270 : narsese.prods.length = 270 := by decide +kernel

/-- `("," term)` of a product as one of an operation. -/
theorem fitting_165 {u : List WChar} (h : Fitting 165 u) : Fitting 203 u := by
  obtain ⟨t, hv, hr, hy, hf⟩ := h
  obtain ⟨p, cs, rfl, hp, hrr, hc⟩ := valid_node hv (by omega)
  have h1 := prods_at prods_165 hp
  have h2 : lhsOf narsese p = 165 := hr
  rw [h2] at h1
  simp only [Nat.beq_refl, Bool.not_true, Bool.false_or] at h1
  have h3 : p = 108 := Nat.eq_of_beq_eq_true h1
  subst h3
  have e1 : rhsOf narsese 108 = rhsOf narsese 38 := by decide +kernel
  have e2 : lhsOf narsese 38 = 203 := by decide +kernel
  rw [fits_plain (by omega) (by omega)] at hf
  refine ⟨.node 38 cs, .node (by rw [h270]; omega) (by rw [← e1]; exact hrr) hc, e2, hy, ?_⟩
  rw [fits_plain (by omega) (by omega)]
  exact hf

theorem fitsAll_mem {cs : List PTree} (h : PTree.fitsAll narseseItems [] cs = true) :
    ∀ c ∈ cs, c.fits narseseItems 0 = true := by
  induction cs with
  | nil => intro c hc; cases hc
  | cons x cs ih =>
    rw [PTree.fitsAll, Bool.and_eq_true] at h
    intro c hc
    rcases List.mem_cons.mp hc with rfl | hc
    · exact h.1
    · exact ih h.2 c hc

theorem fittings_of {cs : List PTree} (h1 : ∀ c ∈ cs, c.Valid narsese RxTok)
    (h2 : PTree.fitsAll narseseItems [] cs = true) :
    Fittings (cs.map (PTree.root narsese)) (PTree.yields cs) :=
  ⟨cs, h1, rfl, rfl, fitsAll_mem h2⟩

theorem fitting_164 {t : PTree} (hv : t.Valid narsese RxTok) : t.root narsese = 164 →
    t.fits narseseItems 0 = true → Fitting 202 t.yield := by
  induction hv with
  | leaf h =>
    intro hr _
    have := h.lt
    simp only [PTree.root] at hr
    omega
  | @node p cs hp hrr hc ih =>
    intro hr hf
    have h1 := prods_at prods_164 hp
    have h2 : lhsOf narsese p = 164 := hr
    rw [h2] at h1
    simp only [Nat.beq_refl, Bool.not_true, Bool.false_or, Bool.or_eq_true] at h1
    have l39 : lhsOf narsese 39 = 202 := by decide +kernel
    have l40 : lhsOf narsese 40 = 202 := by decide +kernel
    have r39 : rhsOf narsese 39 = [202, 203] := by decide +kernel
    have r40 : rhsOf narsese 40 = [203] := by decide +kernel
    rcases h1 with h1 | h1
    · have h3 : p = 109 := Nat.eq_of_beq_eq_true h1
      subst h3
      have e1 : rhsOf narsese 109 = [164, 165] := by decide +kernel
      rw [fits_plain (by omega) (by omega)] at hf
      rw [e1] at hrr
      obtain ⟨a, b, rfl, hxx⟩ := two_of_map hrr
      have ha := ih a (by simp) hxx.1 (fitsAll_mem hf a (by simp))
      have hb := fitting_165 ⟨b, hc b (by simp), hxx.2, rfl, fitsAll_mem hf b (by simp)⟩
      have := fitting_node (p := 39) (by rw [h270]; omega) (by omega) (by omega)
        (by rw [r39]; exact fittings_cons ha (fittings_one hb))
      rw [l39] at this
      rwa [PTree.yield, PTree.yields, PTree.yields, PTree.yields, List.append_nil]
    · have h3 : p = 110 := Nat.eq_of_beq_eq_true h1
      subst h3
      have e1 : rhsOf narsese 110 = [165] := by decide +kernel
      rw [fits_plain (by omega) (by omega)] at hf
      rw [e1] at hrr
      obtain ⟨b, rfl, hxx⟩ := one_of_map hrr
      have hb := fitting_165 ⟨b, hc b (by simp), hxx, rfl, fitsAll_mem hf b (by simp)⟩
      have := fitting_node (p := 40) (by rw [h270]; omega) (by omega) (by omega)
        (by rw [r40]; exact fittings_one hb)
      rw [l40] at this
      rwa [PTree.yield, PTree.yields, PTree.yields, List.append_nil]

/-- A product whose first component is an operation; all its parts fit. -/
def OddProduct (u : List WChar) : Prop := Fittings [106, 204, 164, 105] u

theorem odd_statement {u : List WChar} (h : OddProduct u) : Fitting 227 u := by
  obtain ⟨u1, v1, rfl, h1, h⟩ := fittings_uncons h
  obtain ⟨u2, v2, rfl, h2, h⟩ := fittings_uncons h
  obtain ⟨u3, v3, rfl, h3, h7⟩ := fittings_uncons h
  obtain ⟨t, hv, hr, rfl, hf⟩ := h3
  have h4 := fitting_164 hv hr hf
  have r41 : rhsOf narsese 41 = [202] := by decide +kernel
  have l41 : lhsOf narsese 41 = 201 := by decide +kernel
  have r37 : rhsOf narsese 37 = [106, 204, 201, 105] := by decide +kernel
  have l37 : lhsOf narsese 37 = 227 := by decide +kernel
  have h5 := fitting_node (p := 41) (by rw [h270]; omega) (by omega) (by omega)
    (by rw [r41]; exact fittings_one h4)
  rw [l41] at h5
  have h6 := fitting_node (p := 37) (by rw [h270]; omega) (by omega) (by omega)
    (by rw [r37]; exact fittings_cons h1 (fittings_cons h2 (fittings_cons h5 h7)))
  rwa [l37] at h6

/-- Fits, or is an odd product, bare or as a compound term. -/
def NearlyFitting (X : Nat) (u : List WChar) : Prop :=
  Fitting X u ∨ ((X = 192 ∨ X = 194) ∧ OddProduct u)

theorem odd_parents : ((List.range 270).all fun p => !(rhsOf narsese p).any
    (fun X => Nat.beq X 192 || Nat.beq X 194) || (Nat.beq p 65 || Nat.beq p 71)) = true := by
  decide +kernel

theorem nearly_all {p : Nat} (hp : p < narsese.prods.length) (h65 : p ≠ 65) (h71 : p ≠ 71) :
    ∀ {cs : List PTree}, (∀ c ∈ cs, c.root narsese ∈ rhsOf narsese p) →
      (∀ c ∈ cs, NearlyFitting (c.root narsese) c.yield) →
      Fittings (cs.map (PTree.root narsese)) (PTree.yields cs)
  | [], _, _ => fittings_nil
  | c :: cs, hr, h => by
    rw [List.map_cons, PTree.yields]
    refine fittings_cons ?_ (nearly_all hp h65 h71 (fun x hx => hr x (by simp [hx]))
      (fun x hx => h x (by simp [hx])))
    rcases h c (by simp) with h1 | ⟨h1, _⟩
    · exact h1
    · exfalso
      have h2 := prods_at odd_parents hp
      have h3 : ((rhsOf narsese p).any fun X => Nat.beq X 192 || Nat.beq X 194) = true := by
        refine List.any_eq_true.mpr ⟨_, hr c (by simp), ?_⟩
        rcases h1 with h1 | h1 <;> rw [h1] <;> rfl
      rw [h3] at h2
      simp only [Bool.not_true, Bool.false_or, Bool.or_eq_true] at h2
      rcases h2 with h2 | h2
      · exact h65 (Nat.eq_of_beq_eq_true h2)
      · exact h71 (Nat.eq_of_beq_eq_true h2)

theorem fitting_statement_term {u : List WChar} (h : Fitting 227 u) : Fitting 228 u := by
  have r : rhsOf narsese 66 = [227] := by decide +kernel
  have l : lhsOf narsese 66 = 228 := by decide +kernel
  have := fitting_node (p := 66) (by rw [h270]; omega) (by omega) (by omega)
    (by rw [r]; exact fittings_one h)
  rwa [l] at this

/-- A `term_nonvar` that fits with tag 1, or is a statement. -/
theorem nonvar_cases {t : PTree} (hv : t.Valid narsese RxTok) (hr : t.root narsese = 228)
    (h0 : t.fits narseseItems 0 = true) :
    t.fits narseseItems 1 = true ∨ Fitting 227 t.yield := by
  obtain ⟨p, cs, rfl, hp, hrr, hc⟩ := valid_node hv (by omega)
  have h1 := prods_at prods_228 hp
  have h2 : lhsOf narsese p = 228 := hr
  rw [h2] at h1
  simp only [Nat.beq_refl, Bool.not_true, Bool.false_or, Bool.and_eq_true] at h1
  have h3 := Nat.le_of_ble_eq_true h1.1
  have h4 := Nat.le_of_ble_eq_true h1.2
  rw [fits_plain (by omega) (by omega)] at h0
  by_cases h66 : p = 66
  · right
    subst h66
    have r : rhsOf narsese 66 = [227] := by decide +kernel
    have := fittings_of hc h0
    rw [← hrr, r] at this
    obtain ⟨u, v, he, hu, hv'⟩ := fittings_uncons this
    obtain ⟨ts, _, g2, g3, _⟩ := hv'
    simp only [List.map_eq_nil_iff] at g2
    subst g2
    have : v = [] := g3.symm
    subst this
    rw [List.append_nil] at he
    rw [PTree.yield, he]
    exact hu
  · left
    rw [PTree.fits]
    have : narseseItems.kids p 1 = if p = 66 then none else some [] := rfl
    rw [this, if_neg h66]
    exact h0

theorem term_cases {t : PTree} (hv : t.Valid narsese RxTok) (hr : t.root narsese = 207)
    (h0 : t.fits narseseItems 0 = true) :
    t.fits narseseItems 2 = true ∨ Fitting 204 t.yield := by
  obtain ⟨p, cs, rfl, hp, hrr, hc⟩ := valid_node hv (by omega)
  have h1 := prods_at prods_207 hp
  have h2 : lhsOf narsese p = 207 := hr
  rw [h2] at h1
  simp only [Nat.beq_refl, Bool.not_true, Bool.false_or, Bool.or_eq_true] at h1
  rcases h1 with h1 | h1
  · have h3 : p = 61 := Nat.eq_of_beq_eq_true h1
    subst h3
    exact .inl h0
  · have h3 : p = 62 := Nat.eq_of_beq_eq_true h1
    subst h3
    rw [fits_plain (by omega) (by omega)] at h0
    have hr62 : rhsOf narsese 62 = [228] := by decide +kernel
    rw [hr62] at hrr
    obtain ⟨x, rfl, hxx⟩ := one_of_map hrr
    have hx0 := fitsAll_mem h0 x (by simp)
    obtain ⟨q, ds, rfl, hq, hqr, hqc⟩ := valid_node (hc x (by simp)) (by omega)
    have h4 : lhsOf narsese q = 228 := hxx
    have h5 := prods_at prods_228 hq
    rw [h4] at h5
    simp only [Nat.beq_refl, Bool.not_true, Bool.false_or, Bool.and_eq_true] at h5
    have h6 := Nat.le_of_ble_eq_true h5.1
    have h7 := Nat.le_of_ble_eq_true h5.2
    rw [fits_plain (by omega) (by omega)] at hx0
    by_cases h67 : q = 67
    · right
      subst h67
      have r : rhsOf narsese 67 = [204] := by decide +kernel
      rw [r] at hqr
      obtain ⟨o, rfl, hoo⟩ := one_of_map hqr
      refine ⟨o, hqc o (by simp), hoo, ?_, fitsAll_mem hx0 o (by simp)⟩
      simp [PTree.yield, PTree.yields]
    · left
      have hk' : narseseItems.kids 62 2 = some [3] := rfl
      rw [PTree.fits, hk']
      simp only
      rw [PTree.fitsAll, PTree.fitsAll, Bool.and_true]
      show PTree.fits narseseItems 3 _ = true
      rw [PTree.fits]
      have : narseseItems.kids q 3 = if q = 67 then none else some [] := rfl
      rw [this, if_neg h67]
      exact hx0

theorem nearly_fits {t : PTree} (hv : t.Valid narsese RxTok) :
    NearlyFitting (t.root narsese) t.yield := by
  induction hv with
  | @leaf s w h => exact .inl ⟨.leaf s w, .leaf h, rfl, rfl, rfl⟩
  | @node p cs hp hrr hc ih =>
    show NearlyFitting (lhsOf narsese p) (PTree.yields cs)
    by_cases h71 : p = 71
    · subst h71
      have r : rhsOf narsese 71 = [192] := by decide +kernel
      have l : lhsOf narsese 71 = 194 := by decide +kernel
      rw [l]
      rw [r] at hrr
      obtain ⟨x, rfl, hxx⟩ := one_of_map hrr
      have hx := ih x (by simp)
      rw [hxx] at hx
      rw [PTree.yields, PTree.yields, List.append_nil]
      rcases hx with hx | ⟨_, hx⟩
      · left
        have := fitting_node (p := 71) (by rw [h270]; omega) (by omega) (by omega)
          (by rw [r]; exact fittings_one hx)
        rwa [l] at this
      · exact .inr ⟨.inr rfl, hx⟩
    by_cases h65 : p = 65
    · subst h65
      have r : rhsOf narsese 65 = [194] := by decide +kernel
      have l : lhsOf narsese 65 = 228 := by decide +kernel
      rw [l]
      rw [r] at hrr
      left
      obtain ⟨x, rfl, hxx⟩ := one_of_map hrr
      have hx := ih x (by simp)
      rw [hxx] at hx
      rw [PTree.yields, PTree.yields, List.append_nil]
      rcases hx with hx | ⟨_, hx⟩
      · have := fitting_node (p := 65) (by rw [h270]; omega) (by omega) (by omega)
          (by rw [r]; exact fittings_one hx)
        rwa [l] at this
      · exact fitting_statement_term (odd_statement hx)
    have hall := nearly_all hp h65 h71 (cs := cs)
      (fun c hcm => by rw [hrr]; exact List.mem_map.mpr ⟨c, hcm, rfl⟩) ih
    rw [← hrr] at hall
    by_cases hp4 : p = 4 ∨ p = 13 ∨ p = 19 ∨ p = 28
    · left
      have hrp : rhsOf narsese p = [228] ∧ rhsOf narsese (p + 1) = [227] ∧
          lhsOf narsese (p + 1) = lhsOf narsese p := by
        rcases hp4 with rfl | rfl | rfl | rfl <;> decide +kernel
      have hk : narseseItems.kids p 0 = some [1] := by
        show narseseKids p 0 = some [1]
        unfold narseseKids
        simp only
        rw [if_pos hp4]
      rw [hrp.1] at hall
      obtain ⟨ts, g1, g2, g3, g4⟩ := hall
      obtain ⟨x, rfl, hxx⟩ := one_of_map g2.symm
      rw [PTree.yields, PTree.yields, List.append_nil] at g3
      rcases nonvar_cases (g1 x (by simp)) hxx (g4 x (by simp)) with h | h
      · refine ⟨.node p [x], .node hp (by rw [hrp.1]; simp [hxx]) (by simpa using g1), rfl, ?_, ?_⟩
        · simp [PTree.yield, PTree.yields, g3]
        · rw [PTree.fits, hk]
          simp only
          rw [PTree.fitsAll, PTree.fitsAll, Bool.and_true]
          exact h
      · rw [g3] at h
        have := fitting_node (p := p + 1) (by rw [h270]; omega) (by omega) (by omega)
          (by rw [hrp.2.1]; exact fittings_one h)
        rwa [hrp.2.2] at this
    · by_cases hp107 : p = 107
      · subst hp107
        have r : rhsOf narsese 107 = [106, 207, 164, 105] := by decide +kernel
        have l : lhsOf narsese 107 = 192 := by decide +kernel
        rw [r] at hall
        rw [l]
        obtain ⟨u, v, he, hu, hv⟩ := fittings_uncons hall
        obtain ⟨u2, v2, he2, hu2, hv2⟩ := fittings_uncons hv
        obtain ⟨t, t1, t2, t3, t4⟩ := hu2
        rcases term_cases t1 t2 t4 with h | h
        · left
          obtain ⟨o, o1, o2, o3, o4⟩ := hu
          obtain ⟨ts, g1, g2, g3, g4⟩ := hv2
          refine ⟨.node 107 (o :: t :: ts), .node hp (by rw [r]; simp [o2, t2, g2]) ?_, l, ?_, ?_⟩
          · intro x hx
            rcases List.mem_cons.mp hx with rfl | hx
            · exact o1
            rcases List.mem_cons.mp hx with rfl | hx
            · exact t1
            · exact g1 x hx
          · rw [PTree.yield, PTree.yields, PTree.yields, o3, t3, g3, he, he2]
          · have hk : narseseItems.kids 107 0 = some [0, 2] := rfl
            rw [PTree.fits, hk]
            simp only
            rw [PTree.fitsAll, PTree.fitsAll, Bool.and_eq_true, Bool.and_eq_true]
            exact ⟨o4, h, fitsAll_zero g4⟩
        · right
          rw [t3] at h
          refine ⟨.inl rfl, ?_⟩
          rw [he, he2]
          exact fittings_cons hu (fittings_cons h hv2)
      · exact .inl (fitting_node hp hp4 hp107 hall)

/-- Every line of Narsese has a tree that is meant. -/
theorem isNarsese_fitting {line : List WChar} {a : List Ast} (h : IsNarsese line a) :
    Fitting goalSym line := by
  obtain ⟨t, hv, hr, hy, _⟩ := isNarsese_tree h
  have := nearly_fits hv
  rw [hr, hy] at this
  rcases this with h | ⟨h, _⟩
  · exact h
  · exact absurd h (by decide)

/-! ## What fits is meant -/

theorem meantAll_asts_of {cs : List PTree}
    (h : ∀ c ∈ cs, Ast.meantAll (c.ast narsese) = true) :
    Ast.meantAll (PTree.asts narsese cs) = true := by
  induction cs with
  | nil => rfl
  | cons x cs ih =>
    rw [PTree.asts, meantAll_append, h x (by simp), ih (fun c hc => h c (by simp [hc]))]
    rfl

/-- Another name. -/
def isNot (e x : Emit) : Bool := !decide (x = e)

/-- The first node has a name with `P`. -/
def startsWith (P : Emit → Bool) : List Ast → Bool
  | .node e _ :: _ => P e
  | _ => false

theorem startsWith_append {P : Emit → Bool} {a b : List Ast} (h : startsWith P a = true) :
    startsWith P (a ++ b) = true := by
  cases a with
  | nil => simp [startsWith] at h
  | cons x a =>
    cases x with
    | leaf => simp [startsWith] at h
    | node => exact h

theorem startsWith_not {e : Emit} {l : List Ast} (h : startsWith (isNot e) l = true) :
    headIs e l = false := by
  cases l with
  | nil => rfl
  | cons x a =>
    cases x with
    | leaf => rfl
    | node e' cs => simpa [startsWith, headIs, isNot] using h

theorem startsWith_wrap {P : Emit → Bool} {e : Emit} {l : List Ast} (he : e ≠ .none)
    (h : P e = true) : startsWith P (wrapNodes e l) = true := by
  unfold wrapNodes
  rw [if_neg he]
  exact h

theorem emit_starts {X : Nat} {P : Emit → Bool}
    (h : ((List.range 270).all fun p => !Nat.beq (lhsOf narsese p) X ||
      (!decide (prodEmit narsese p = .none) && P (prodEmit narsese p))) = true) (hX : 59 ≤ X)
    {t : PTree} (hv : t.Valid narsese RxTok) (hr : t.root narsese = X) :
    startsWith P (t.ast narsese) = true := by
  obtain ⟨p, cs, rfl, hp, hrr, hc⟩ := valid_node hv (by omega)
  have h1 := prods_at h hp
  have h2 : lhsOf narsese p = X := hr
  rw [h2] at h1
  simp only [Nat.beq_refl, Bool.not_true, Bool.false_or, Bool.and_eq_true, Bool.not_eq_true',
    decide_eq_false_iff_not] at h1
  rw [PTree.ast]
  exact startsWith_wrap h1.1 h1.2

theorem starts_227 : ((List.range 270).all fun p => !Nat.beq (lhsOf narsese p) 227 ||
    (!decide (prodEmit narsese p = .none) && isNot .statement_term (prodEmit narsese p))) = true := by decide +kernel

theorem starts_204 : ((List.range 270).all fun p => !Nat.beq (lhsOf narsese p) 204 ||
    (!decide (prodEmit narsese p = .none) && isNot .statement_term (prodEmit narsese p))) = true := by decide +kernel

/-- The symbol of `interval`. -/
def intervalSym : Nat := 195

theorem starts_interval (e : Emit) (he : e ≠ .interval) : ((List.range 270).all fun p =>
    !Nat.beq (lhsOf narsese p) intervalSym ||
    (!decide (prodEmit narsese p = .none) && isNot e (prodEmit narsese p))) = true := by
  have h : ((List.range 270).all fun p => !Nat.beq (lhsOf narsese p) intervalSym ||
    decide (prodEmit narsese p = .interval)) = true := by decide +kernel
  refine List.all_eq_true.mpr fun p hp => ?_
  have := List.all_eq_true.mp h p hp
  simp only [Bool.or_eq_true, decide_eq_true_eq] at this ⊢
  rcases this with h | h
  · exact .inl h
  · right
    rw [h]
    simp [isNot, Ne.symm he]

theorem nonvar_fits {t : PTree} (hv : t.Valid narsese RxTok) (hr : t.root narsese = 228) :
    (t.fits narseseItems 1 = true → t.fits narseseItems 0 = true ∧
      startsWith (isNot .statement_term) (t.ast narsese) = true) ∧
    (t.fits narseseItems 3 = true → t.fits narseseItems 0 = true ∧
      startsWith (isNot .operation) (t.ast narsese) = true) := by
  obtain ⟨p, cs, rfl, hp, hrr, hc⟩ := valid_node hv (by omega)
  have h1 := prods_at prods_228 hp
  have h2 : lhsOf narsese p = 228 := hr
  rw [h2] at h1
  simp only [Nat.beq_refl, Bool.not_true, Bool.false_or, Bool.and_eq_true] at h1
  have h3 := Nat.le_of_ble_eq_true h1.1
  have h4 := Nat.le_of_ble_eq_true h1.2
  rw [fits_plain (by omega) (by omega)]
  have hint : ∀ e, e ≠ Emit.interval → p = 63 →
      startsWith (isNot e) ((PTree.node p cs).ast narsese) = true := by
    rintro e he rfl
    have r : rhsOf narsese 63 = [intervalSym] := by decide +kernel
    have he63 : prodEmit narsese 63 = .none := by decide +kernel
    rw [r] at hrr
    obtain ⟨x, rfl, hxx⟩ := one_of_map hrr
    have := emit_starts (X := intervalSym) (P := isNot e)
      (starts_interval e he) (by decide +kernel) (hc x (by simp)) hxx
    rw [PTree.ast, he63]
    simpa [wrapNodes, PTree.asts] using this
  have e64 : prodEmit narsese 64 = .atom_term := by decide +kernel
  have e65 : prodEmit narsese 65 = .compound_term := by decide +kernel
  have e66 : prodEmit narsese 66 = .statement_term := by decide +kernel
  have hp5 : p = 63 ∨ p = 64 ∨ p = 65 ∨ p = 66 ∨ p = 67 := by omega
  refine ⟨fun h => ?_, fun h => ?_⟩
  · rw [PTree.fits] at h
    have hk : narseseItems.kids p 1 = if p = 66 then none else some [] := rfl
    rw [hk] at h
    by_cases h66 : p = 66
    · rw [if_pos h66] at h; cases h
    rw [if_neg h66] at h
    refine ⟨h, ?_⟩
    rcases hp5 with h63 | h64 | h65 | h66' | h67
    · exact hint _ (by decide) h63
    · subst h64; rw [PTree.ast, e64]; rfl
    · subst h65; rw [PTree.ast, e65]; rfl
    · exact absurd h66' h66
    · subst h67
      have r : rhsOf narsese 67 = [204] := by decide +kernel
      have he67 : prodEmit narsese 67 = .none := by decide +kernel
      rw [r] at hrr
      obtain ⟨x, rfl, hxx⟩ := one_of_map hrr
      have := emit_starts (X := 204) (P := isNot .statement_term) starts_204 (by omega) (hc x (by simp)) hxx
      rw [PTree.ast, he67]
      simpa [wrapNodes, PTree.asts] using this
  · rw [PTree.fits] at h
    have hk : narseseItems.kids p 3 = if p = 67 then none else some [] := rfl
    rw [hk] at h
    by_cases h67 : p = 67
    · rw [if_pos h67] at h; cases h
    rw [if_neg h67] at h
    refine ⟨h, ?_⟩
    rcases hp5 with h63 | h64 | h65 | h66 | h67'
    · exact hint _ (by decide) h63
    · subst h64; rw [PTree.ast, e64]; rfl
    · subst h65; rw [PTree.ast, e65]; rfl
    · subst h66; rw [PTree.ast, e66]; rfl
    · exact absurd h67' h67

theorem term_fits {t : PTree} (hv : t.Valid narsese RxTok) (hr : t.root narsese = 207)
    (h : t.fits narseseItems 2 = true) : t.fits narseseItems 0 = true ∧
      startsWith (isNot .operation) (t.ast narsese) = true := by
  obtain ⟨p, cs, rfl, hp, hrr, hc⟩ := valid_node hv (by omega)
  have h1 := prods_at prods_207 hp
  have h2 : lhsOf narsese p = 207 := hr
  rw [h2] at h1
  simp only [Nat.beq_refl, Bool.not_true, Bool.false_or, Bool.or_eq_true] at h1
  rcases h1 with h1 | h1
  · have h3 : p = 61 := Nat.eq_of_beq_eq_true h1
    subst h3
    have e61 : prodEmit narsese 61 = .variable_term := by decide +kernel
    refine ⟨h, ?_⟩
    rw [PTree.ast, e61]; rfl
  · have h3 : p = 62 := Nat.eq_of_beq_eq_true h1
    subst h3
    have hr62 : rhsOf narsese 62 = [228] := by decide +kernel
    have e62 : prodEmit narsese 62 = .none := by decide +kernel
    rw [hr62] at hrr
    obtain ⟨x, rfl, hxx⟩ := one_of_map hrr
    have hk' : narseseItems.kids 62 2 = some [3] := rfl
    rw [PTree.fits, hk'] at h
    simp only at h
    rw [PTree.fitsAll, PTree.fitsAll, Bool.and_true] at h
    have h4 := (nonvar_fits (hc x (by simp)) hxx).2 h
    refine ⟨?_, ?_⟩
    · rw [fits_plain (by omega) (by omega), PTree.fitsAll, PTree.fitsAll, Bool.and_true]
      exact h4.1
    · rw [PTree.ast, e62]
      simpa [wrapNodes, PTree.asts] using h4.2

theorem sentence_prods : ((List.range 270).all fun p =>
    !(prodEmit narsese p == .judgement || prodEmit narsese p == .question ||
      prodEmit narsese p == .goal || prodEmit narsese p == .quest) ||
    isContent ((rhsOf narsese p).headD 0)) = true := by decide +kernel

theorem product_prods : ((List.range 270).all fun p =>
    !(prodEmit narsese p == .multi_prefix_product) || Nat.beq p 107) = true := by decide +kernel

theorem content_prods : ((List.range 270).all fun p => !isContent (lhsOf narsese p) ||
    ([4, 13, 19, 28].any (Nat.beq p)) || (decide (rhsOf narsese p = [227]) &&
      decide (prodEmit narsese p = .none))) = true := by
  decide +kernel

/-- Only the names of sentences and products matter. -/
theorem meant_wrap {e : Emit} {l : List Ast} (h : Ast.meantAll l = true)
    (h1 : (e = .judgement ∨ e = .question ∨ e = .goal ∨ e = .quest) →
      headIs .statement_term l = false)
    (h2 : e = .multi_prefix_product → headIs .operation l = false) :
    Ast.meantAll (wrapNodes e l) = true := by
  unfold wrapNodes
  split
  · exact h
  · rw [Ast.meantAll, Ast.meantAll, Ast.meant, h, Bool.and_true, Bool.and_true]
    split
    · rename_i he; rw [h1 he]; rfl
    · split
      · rename_i he; rw [h2 he]; rfl
      · rfl

theorem fits_meant {t : PTree} (hv : t.Valid narsese RxTok) : t.fits narseseItems 0 = true →
    Ast.meantAll (t.ast narsese) = true ∧
    (isContent (t.root narsese) = true →
      startsWith (isNot .statement_term) (t.ast narsese) = true) := by
  induction hv with
  | @leaf s w h =>
    refine fun _ => ⟨?_, fun hc => ?_⟩
    · rw [PTree.ast]
      unfold leafNodes
      split <;> rfl
    · have := h.lt
      exfalso
      have h1 : ∀ s < 59, isContent s = false := by decide
      simp only [PTree.root] at hc
      rw [h1 s this] at hc
      cases hc
  | @node p cs hp hrr hc ih =>
    intro hf
    by_cases hp4 : p = 4 ∨ p = 13 ∨ p = 19 ∨ p = 28
    · have hk : narseseItems.kids p 0 = some [1] := by
        show narseseKids p 0 = some [1]
        unfold narseseKids
        simp only
        rw [if_pos hp4]
      have hrp : rhsOf narsese p = [228] ∧ prodEmit narsese p = .none := by
        rcases hp4 with rfl | rfl | rfl | rfl <;> decide +kernel
      rw [hrp.1] at hrr
      obtain ⟨x, rfl, hxx⟩ := one_of_map hrr
      rw [PTree.fits, hk] at hf
      simp only at hf
      rw [PTree.fitsAll, PTree.fitsAll, Bool.and_true] at hf
      have h1 := (nonvar_fits (hc x (by simp)) hxx).1 hf
      have h2 := (ih x (by simp) h1.1).1
      have h3 : (PTree.node p [x]).ast narsese = x.ast narsese := by
        rw [PTree.ast, hrp.2]; simp [wrapNodes, PTree.asts]
      rw [h3]
      exact ⟨h2, fun _ => h1.2⟩
    by_cases hp107 : p = 107
    · subst hp107
      have hk : narseseItems.kids 107 0 = some [0, 2] := rfl
      have hrp : rhsOf narsese 107 = [106, 207, 164, 105] := by decide +kernel
      have hep : prodEmit narsese 107 = .multi_prefix_product := by decide +kernel
      have hl : isContent (lhsOf narsese 107) = false := by decide +kernel
      rw [PTree.fits, hk] at hf
      simp only at hf
      rw [hrp] at hrr
      cases cs with
      | nil => simp at hrr
      | cons c cs =>
      cases cs with
      | nil => simp at hrr
      | cons d cs =>
        simp only [List.map_cons, List.cons.injEq] at hrr
        rw [PTree.fitsAll, PTree.fitsAll, Bool.and_eq_true, Bool.and_eq_true] at hf
        obtain ⟨f1, f2, f3⟩ := hf
        have f2' := term_fits (hc d (by simp)) hrr.2.1.symm f2
        have hopen : c.ast narsese = [] := open_ast (hc c (by simp)) (by rw [← hrr.1]; rfl)
        refine ⟨?_, fun h => ?_⟩
        · rw [PTree.ast, hep]
          refine meant_wrap (meantAll_asts_of ?_) (fun h => ?_) (fun _ => ?_)
          · intro x hx
            refine (ih x hx ?_).1
            rcases List.mem_cons.mp hx with rfl | hx
            · exact f1
            rcases List.mem_cons.mp hx with rfl | hx
            · exact f2'.1
            · exact fitsAll_mem f3 x hx
          · exfalso; revert h; decide
          · rw [PTree.asts, PTree.asts, hopen, List.nil_append]
            exact startsWith_not (startsWith_append f2'.2)
        · exfalso
          have h : isContent (lhsOf narsese 107) = true := h
          rw [hl] at h; cases h
    · rw [fits_plain hp4 hp107] at hf
      have hf' := fitsAll_mem hf
      refine ⟨?_, fun h => ?_⟩
      · rw [PTree.ast]
        refine meant_wrap (meantAll_asts_of fun x hx => (ih x hx (hf' x hx)).1) (fun h => ?_)
          (fun h => ?_)
        · have h1 := prods_at sentence_prods hp
          have h2 : isContent ((rhsOf narsese p).headD 0) = true := by
            rw [Bool.or_eq_true] at h1
            rcases h1 with h1 | h1
            · exfalso
              rcases h with h | h | h | h <;> rw [h] at h1 <;> simp at h1
            · exact h1
          rw [hrr] at h2
          cases cs with
          | nil => exact absurd h2 (by decide)
          | cons c cs =>
            rw [PTree.asts]
            exact startsWith_not (startsWith_append ((ih c (by simp) (hf' c (by simp))).2 h2))
        · have h1 := prods_at product_prods hp
          rw [h] at h1
          simp only [beq_self_eq_true, Bool.not_true, Bool.false_or] at h1
          exact absurd (Nat.eq_of_beq_eq_true h1) hp107
      · have h : isContent (lhsOf narsese p) = true := h
        have h1 := prods_at content_prods hp
        rw [h] at h1
        simp only [Bool.not_true, Bool.false_or, Bool.or_eq_true, Bool.and_eq_true,
          decide_eq_true_eq] at h1
        rcases h1 with h1 | ⟨h1, h2⟩
        · exfalso
          rw [List.any_eq_true] at h1
          obtain ⟨x, hx, hxp⟩ := h1
          have := Nat.eq_of_beq_eq_true hxp
          subst this
          simp only [List.mem_cons, List.not_mem_nil, or_false] at hx
          exact hp4 hx
        · rw [h1] at hrr
          obtain ⟨x, rfl, hxx⟩ := one_of_map hrr
          have := emit_starts (X := 227) (P := isNot .statement_term) starts_227 (by omega) (hc x (by simp)) hxx
          rw [PTree.ast, h2]
          simpa [wrapNodes, PTree.asts] using this

/-! ## What the parser accepts -/

theorem lexTok_rxTok {t : PTree} (hv : t.Valid narsese (LexTok narsese)) : t.Valid narsese RxTok := by
  induction hv with
  | leaf h => exact .leaf (lexTok_matches h)
  | node h1 h2 _ ih => exact .node h1 h2 ih

theorem prun_det {T : Tables} {n m : Nat} {c : PC} {o o' : POut} (h : prun T n c = some o)
    (h' : prun T m c = some o') : o = o' := by
  have h1 := prun_mono (k := m) h
  have h2 := prun_mono (k := n) h'
  rw [Nat.add_comm, h2] at h1
  exact (Option.some.inj h1).symm

/-- The automaton accepts every line of Narsese without tabs. -/
theorem isNarsese_accepted {line : List WChar} {a : List Ast} (h : IsNarsese line a)
    (h9 : (9 : WChar) ∉ line) : ∃ n t, prun narsese n (PC.init line) = some (.accept t) ∧
      Ast.meantAll (t.ast narsese) = true := by
  obtain ⟨t, hv, hr, hy, hf⟩ := isNarsese_fitting h
  obtain ⟨n, hn⟩ := narsese_accepts hv hr hf (by rw [hy]; exact h9)
  rw [hy] at hn
  exact ⟨n, t, hn, (fits_meant hv hf).1⟩

/-- With the syntax tree that is meant. -/
theorem isNarsese_meant {line : List WChar} {a : List Ast} (h : IsNarsese line a)
    (hm : Ast.meantAll a = true) (h9 : (9 : WChar) ∉ line) :
    ∃ n t, prun narsese n (PC.init line) = some (.accept t) ∧ t.ast narsese = a := by
  obtain ⟨t, hv, hr, hy, ha⟩ := isNarsese_tree h
  have hf := meant_fits hv (by rw [ha]; exact hm) (by
    rw [hr]; intro h; exact absurd h (by decide))
  obtain ⟨n, hn⟩ := narsese_accepts hv hr hf (by rw [hy]; exact h9)
  rw [hy] at hn
  exact ⟨n, t, hn, ha⟩

/-- What the parser says to a text whose line has no tabs. -/
theorem parseText_iff {b : Buf} (hb : BufIs b []) {text : List WChar} {d : Nat} (hd : d < 3)
    {fuel : Nat} (hf : 24 * (firstLine text).length + 6 ≤ fuel)
    (h9 : (9 : WChar) ∉ firstLine text) (a : List Ast) :
    (∃ scan, parseText false fuel b text d = .ok ⟨some a, 0, scan⟩) ↔
      IsNarsese (firstLine text) a ∧ Ast.meantAll a = true := by
  obtain ⟨scan', _, hs⟩ := parseText_spec hb text hd hf
  constructor
  · rintro ⟨scan, hp⟩
    rcases hs with ⟨t, h1, h2, h3, h4, h5⟩ | ⟨_, h5⟩
    · rw [h5] at hp
      simp only [Res.ok.injEq, Parsed.mk.injEq, Option.some.injEq] at hp
      have hn := narsese_tree h2 h3
      rw [h4] at hn
      obtain ⟨n, t', h6, h7⟩ := isNarsese_accepted hn h9
      have h8 := prun_det h1 h6
      simp only [POut.accept.injEq] at h8
      rw [← hp.1]
      exact ⟨hn, h8 ▸ h7⟩
    · rw [h5] at hp
      simp at hp
  · rintro ⟨h, hm⟩
    obtain ⟨n, t', h6, h7⟩ := isNarsese_meant h hm h9
    rcases hs with ⟨t, h1, _, _, _, h5⟩ | ⟨h1, h5⟩
    · have h8 := prun_det h1 h6
      simp only [POut.accept.injEq] at h8
      rw [h8, h7] at h5
      exact ⟨scan', h5⟩
    · have := prun_det h1 h6
      cases this

/-- Whether a text whose line has no tabs is accepted. -/
theorem parseText_accepts {b : Buf} (hb : BufIs b []) {text : List WChar} {d : Nat} (hd : d < 3)
    {fuel : Nat} (hf : 24 * (firstLine text).length + 6 ≤ fuel)
    (h9 : (9 : WChar) ∉ firstLine text) {a : List Ast} (h : IsNarsese (firstLine text) a) :
    ∃ a' scan, parseText false fuel b text d = .ok ⟨some a', 0, scan⟩ := by
  obtain ⟨scan', _, hs⟩ := parseText_spec hb text hd hf
  obtain ⟨n, t', h6, _⟩ := isNarsese_accepted h h9
  rcases hs with ⟨t, _, _, _, _, h5⟩ | ⟨h1, _⟩
  · exact ⟨_, _, h5⟩
  · have := prun_det h1 h6
    cases this

end Cnars.Parser
