import Verif.Parser.LexLemmas
import Verif.Parser.Grammar

/-!
# Correctness of the LR driver

For any tables that pass the finite checks `TablesOk` the driver builds a parse tree of the text it
has consumed.  Helper lemmas; the tables of the Narsese parser are checked in `Checks.lean`.
-/

namespace Cnars.Parser

/-- All entries of a state. -/
def rowsOf (T : Tables) (r : Nat) : List (Nat × Nat × Nat) :=
  (T.actions[r]?).getD [] ++ (T.gos[r]?).getD []

/-- Certificates for the tables: LR(0) items of every state with the dot not at the beginning, and a
bound on the number of syntax tree nodes of every symbol (2: no bound). -/
structure Cert where
  kern : List (List (Nat × Nat))
  width : List Nat

def Cert.kernOf (C : Cert) (r : Nat) : List (Nat × Nat) := (C.kern[r]?).getD []
def Cert.w (C : Cert) (X : Nat) : Nat := (C.width[X]?).getD 2

/-- A nonterminal can be pushed on state `r`, or is the goal at the bottom. -/
def GoOk (T : Tables) (r A : Nat) : Prop :=
  A ∈ ((T.gos[r]?).getD []).map (·.1) ∨ (A = goalSym ∧ r = 0)

/-- Item `p` with the dot at position `d` belongs to state `r`. -/
def ItemOk (T : Tables) (C : Cert) (r p d : Nat) : Prop :=
  p < T.prods.length ∧ match d with
    | 0 => GoOk T r (lhsOf T p)
    | d + 1 => (p, d + 1) ∈ C.kernOf r

/-- Shifting `X` from state `r` to state `i` moves the dot of every item of `i` over `X`. -/
def EdgeOk (T : Tables) (C : Cert) (r X i : Nat) : Prop :=
  ∀ x ∈ C.kernOf i, 0 < x.2 ∧ (rhsOf T x.1)[x.2 - 1]? = some X ∧ ItemOk T C r x.1 (x.2 - 1)

/-- The first nonterminal. -/
def firstNT : Nat := 59

/-- The number of nodes that can be lost when the right-hand side is popped: walking down the
right-hand side, an entry with more than one node must not be followed by other nodes. -/
def widthOk (C : Cert) : List Nat → Nat → Nat → Prop
  | [], _, _ => True
  | X :: Xs, up, acc =>
    (acc = 0 ∨ (if X < firstNT then C.w X else 0) + up ≤ 1) ∧
      widthOk C Xs (if X < firstNT then 0 else C.w X)
        (acc + ((if X < firstNT then C.w X else 0) + up))

/-- The productions whose left-hand sides can be pushed on state `i` make no node. -/
def EmitFree (T : Tables) (i : Nat) : Prop :=
  ∀ A ∈ ((T.gos[i]?).getD []).map (·.1), ∀ p < T.prods.length, lhsOf T p = A →
    prodEmit T p = .none

/-- The entry pushes the last symbol of production `i`, which is reduced at once. -/
def LastOk (T : Tables) (C : Cert) (r X i : Nat) : Prop :=
  0 < (rhsOf T i).length ∧ (rhsOf T i)[(rhsOf T i).length - 1]? = some X ∧
    ItemOk T C r i ((rhsOf T i).length - 1)

/-- An entry of the action table: reduce, shift, or shift and reduce. -/
def ActOk (T : Tables) (C : Cert) (r : Nat) (x : Nat × Nat × Nat) : Prop :=
  x.1 < firstNT ∧
    ((x.2.1 = 1 ∧ ItemOk T C r x.2.2 (rhsOf T x.2.2).length) ∨
     (x.2.1 = 2 ∧ x.2.2 < T.actions.length ∧ x.2.2 ≠ 0 ∧ EdgeOk T C r x.1 x.2.2 ∧
       (symEmit T x.1 ≠ .none → EmitFree T x.2.2)) ∨
     (x.2.1 = 3 ∧ LastOk T C r x.1 x.2.2))

/-- An entry of the goto table. -/
def GotoOk (T : Tables) (C : Cert) (r : Nat) (x : Nat × Nat × Nat) : Prop :=
  firstNT < x.1 ∧
    ((x.2.1 = 2 ∧ x.2.2 < T.actions.length ∧ x.2.2 ≠ 0 ∧ EdgeOk T C r x.1 x.2.2) ∨
     (x.2.1 = 3 ∧ LastOk T C r x.1 x.2.2))

/-- A production: its length, and how many nodes its trees can have. -/
def ProdOk (T : Tables) (C : Cert) (p : Nat) : Prop :=
  (T.prods[p]?).map (·.length) = some (rhsOf T p).length ∧ firstNT ≤ lhsOf T p ∧
    (if prodEmit T p = .none then
      2 ≤ C.w (lhsOf T p) ∨ ((rhsOf T p).map C.w).sum ≤ C.w (lhsOf T p)
     else 1 ≤ C.w (lhsOf T p)) ∧
    widthOk C (rhsOf T p).reverse 0 0

/-- The finite checks. -/
structure TablesOk (T : Tables) (C : Cert) : Prop where
  lex : LexTablesOk T
  nact : 0 < T.actions.length
  /-- no item with a moved dot in the start state -/
  kern0 : C.kernOf 0 = []
  ngo : T.gos.length = T.actions.length
  ndef : T.defProd.length = T.actions.length
  nsel : T.dfaSelect.length = T.actions.length
  /-- symbols accepted by the lexer are terminals -/
  terms : ∀ m ∈ T.dfas, ∀ st ∈ m, st.2 ≤ firstNT
  /-- terminals exist -/
  syms : firstNT ≤ T.symbols.length
  /-- entries of the action table -/
  acts : ∀ r < T.actions.length, ∀ x ∈ (T.actions[r]?).getD [], ActOk T C r x
  /-- entries of the goto table -/
  gos : ∀ r < T.actions.length, ∀ x ∈ (T.gos[r]?).getD [], GotoOk T C r x
  defs : ∀ r < T.actions.length, ∀ p ∈ (T.defProd[r]?).getD none,
    ItemOk T C r p (rhsOf T p).length
  /-- productions -/
  prods : ∀ p < T.prods.length, ProdOk T C p
  symw : ∀ s < firstNT, symEmit T s = .none ∨ 1 ≤ C.w s

theorem goalSym_eq : goalSym = firstNT := rfl

/-- Tokens as the lexer delivers them. -/
def LexTok (T : Tables) (s : Nat) (w : List WChar) : Prop :=
  (s = 0 ∧ w = []) ∨ (w ≠ [] ∧ ∃ m ∈ T.dfas, Accepts m s w)

/-- The state of the top entry. -/
def topState (es : List Entry) : Option Nat := es.head?.bind (·.state)

/-- The nodes of a leaf, which are kept in its own entry. -/
def PTree.own (T : Tables) : PTree → List Ast
  | .leaf s w => leafNodes (symEmit T s) w
  | .node _ _ => []

/-- The nodes of an inner tree, which are kept in the entry below. -/
def PTree.lower (T : Tables) : PTree → List Ast
  | .leaf _ _ => []
  | .node p cs => PTree.ast T (.node p cs)

theorem PTree.lower_own (T : Tables) (t : PTree) : t.lower T ++ t.own T = t.ast T := by
  cases t <;> simp [PTree.lower, PTree.own, PTree.ast]

/-- The stack (top first) holds the trees `ts`; `up` are the nodes in the top entry that belong to
the tree above it. -/
inductive Chain (T : Tables) : List Entry → List PTree → List Ast → Prop where
  | base {e : Entry} : e.state = some 0 → Chain T [e] [] e.nodes
  | push {e : Entry} {es : List Entry} {t : PTree} {ts : List PTree} {up : List Ast}
      {r act idx : Nat} : Chain T es ts (t.lower T) → topState es = some r →
      r < T.actions.length →
      (t.root T, act, idx) ∈ rowsOf T r → 2 ≤ act →
      e.state = (if act % 2 = 1 then none else some idx) →
      t.Valid T (LexTok T) → e.nodes = t.own T ++ up → Chain T (e :: es) (t :: ts) up

/-- A segment of the stack. -/
inductive Seg (T : Tables) : List Entry → List PTree → List Ast → List Ast → Prop where
  | nil {up} : Seg T [] [] up up
  | cons {e es t ts up up2} : Seg T es ts (t.lower T) up2 → e.nodes = t.own T ++ up →
      Seg T (e :: es) (t :: ts) up up2

theorem rows_mem {T : Tables} {r : Nat} {x : Nat × Nat × Nat} :
    x ∈ rowsOf T r ↔ x ∈ (T.actions[r]?).getD [] ∨ x ∈ (T.gos[r]?).getD [] := by
  simp [rowsOf]

theorem findRow_mem {row : List (Nat × Nat × Nat)} {k a i : Nat}
    (h : findRow row k = some (a, i)) : (k, a, i) ∈ row := by
  induction row with
  | nil => simp [findRow] at h
  | cons x r ih =>
    obtain ⟨k', a', i'⟩ := x
    simp only [findRow] at h
    split at h
    · rename_i hk; simp at h; obtain ⟨rfl, rfl⟩ := h; subst hk; simp
    · exact List.mem_cons_of_mem _ (ih h)

theorem findRow_isSome {row : List (Nat × Nat × Nat)} {k : Nat} (h : k ∈ row.map (·.1)) :
    ∃ a i, findRow row k = some (a, i) := by
  induction row with
  | nil => simp at h
  | cons x r ih =>
    obtain ⟨k', a', i'⟩ := x
    simp only [findRow]
    split
    · exact ⟨_, _, rfl⟩
    · rename_i hk
      simp only [List.map_cons, List.mem_cons] at h
      rcases h with h | h
      · exact absurd h.symm hk
      · exact ih h

/-- Entries with an even action lead to a state and move dots. -/
theorem edge_even {T : Tables} {C : Cert} (hT : TablesOk T C) {r X a i : Nat}
    (hr : r < T.actions.length) (h : (X, a, i) ∈ rowsOf T r) (h2 : 2 ≤ a) (he : ¬ a % 2 = 1) :
    a = 2 ∧ i < T.actions.length ∧ i ≠ 0 ∧ EdgeOk T C r X i := by
  rcases rows_mem.mp h with h | h
  · rcases (hT.acts r hr _ h).2 with h' | h' | h'
    · simp only at h'; omega
    · exact ⟨h'.1, h'.2.1, h'.2.2.1, h'.2.2.2.1⟩
    · simp only at h'; omega
  · rcases (hT.gos r hr _ h).2 with h' | h'
    · exact ⟨h'.1, h'.2.1, h'.2.2.1, h'.2.2.2⟩
    · simp only at h'; omega

theorem edge_odd {T : Tables} {C : Cert} (hT : TablesOk T C) {r X a i : Nat}
    (hr : r < T.actions.length) (h : (X, a, i) ∈ rowsOf T r) (h2 : 2 ≤ a) (he : a % 2 = 1) :
    ∃ n, (rhsOf T i).length = n + 1 ∧ (rhsOf T i)[n]? = some X ∧ ItemOk T C r i n := by
  have key : a = 3 ∧ 0 < (rhsOf T i).length ∧
       (rhsOf T i)[(rhsOf T i).length - 1]? = some X ∧
       ItemOk T C r i ((rhsOf T i).length - 1) → ∃ n, (rhsOf T i).length = n + 1 ∧
        (rhsOf T i)[n]? = some X ∧ ItemOk T C r i n := by
    rintro ⟨_, h1, h2, h3⟩
    exact ⟨(rhsOf T i).length - 1, by omega, h2, h3⟩
  rcases rows_mem.mp h with h | h
  · rcases (hT.acts r hr _ h).2 with h' | h' | h'
    · simp only at h'; omega
    · simp only at h'; omega
    · exact key h'
  · rcases (hT.gos r hr _ h).2 with h' | h'
    · simp only at h'; omega
    · exact key h'

theorem topState_cons {e : Entry} {es : List Entry} : topState (e :: es) = e.state := rfl

/-- Walking down the stack along an item. -/
theorem walk {T : Tables} {C : Cert} (hT : TablesOk T C) :
    ∀ (d : Nat) (es : List Entry) (ts : List PTree) (up : List Ast) (q p : Nat),
      Chain T es ts up → topState es = some q → ItemOk T C q p d →
      ∃ es1 es2 ts1 ts2 up2 r, es = es1 ++ es2 ∧ ts = ts1 ++ ts2 ∧ es1.length = d ∧
        ts1.reverse.map (PTree.root T) = (rhsOf T p).take d ∧ Seg T es1 ts1 up up2 ∧
        (∀ t ∈ ts1, t.Valid T (LexTok T)) ∧
        Chain T es2 ts2 up2 ∧ topState es2 = some r ∧ ItemOk T C r p 0
  | 0, es, ts, up, q, p, hc, hq, hi =>
    ⟨[], es, [], ts, up, q, rfl, rfl, rfl, by simp, Seg.nil, by simp, hc, hq, hi⟩
  | d + 1, es, ts, up, q, p, hc, hq, hi => by
    cases hc with
    | @base e he =>
      -- no item with a moved dot at the bottom
      exfalso
      rw [topState_cons, he] at hq
      simp at hq; subst hq
      have h := hi.2
      simp [hT.kern0] at h
    | @push e es' t ts' up r act idx hc' hr hrl hmem h2 hst hv hn =>
      rw [topState_cons, hst] at hq
      split at hq
      · simp at hq
      · rename_i hodd
        simp at hq; subst hq
        obtain ⟨_, _, _, hedge⟩ := edge_even hT hrl hmem h2 hodd
        obtain ⟨h1, h3, h4⟩ := hedge _ hi.2
        simp only [Nat.add_sub_cancel] at h3 h4
        obtain ⟨es1, es2, ts1, ts2, up2, r', h5, h6, h7, h8, h9, h10, h11, h12, h13⟩ :=
          walk hT d es' ts' (t.lower T) r p hc' hr h4
        refine ⟨e :: es1, es2, t :: ts1, ts2, up2, r', by simp [h5], by simp [h6], by simp [h7],
          ?_, Seg.cons h9 hn, ?_, h11, h12, h13⟩
        · simp only [List.reverse_cons, List.map_append, List.map_cons, List.map_nil, h8]
          rw [List.take_add_one, h3]; rfl
        · intro x hx
          rcases List.mem_cons.mp hx with hx | hx
          · subst hx; exact hv
          · exact h10 x hx

/-- `n` is at most `w`, 2 standing for no bound. -/
def LeW (n w : Nat) : Prop := 2 ≤ w ∨ n ≤ w

theorem LeW.add {a b w v : Nat} (h1 : LeW a w) (h2 : LeW b v) : LeW (a + b) (w + v) := by
  unfold LeW at *; omega

theorem lexTok_lt {T : Tables} {C : Cert} (hT : TablesOk T C) {s : Nat} {w : List WChar}
    (h : LexTok T s w) : s < firstNT := by
  rcases h with ⟨h, _⟩ | ⟨_, m, hm, t, row, _, h⟩
  · subst h; decide
  · have := hT.terms m hm _ (List.mem_of_getElem? h)
    simp only at this; omega

theorem leafNodes_length (e : Emit) (w : List WChar) :
    (leafNodes e w).length = if e = .none then 0 else 1 := by
  unfold leafNodes; split <;> simp

theorem asts_width {T : Tables} {C : Cert} (cs : List PTree)
    (h : ∀ c ∈ cs, LeW (c.ast T).length (C.w (c.root T))) :
    LeW (PTree.asts T cs).length ((cs.map (PTree.root T)).map C.w).sum := by
  induction cs with
  | nil => simp [PTree.asts, LeW]
  | cons c cs ih =>
    simp only [PTree.asts, List.length_append, List.map_cons, List.sum_cons]
    exact (h c (by simp)).add (ih fun x hx => h x (by simp [hx]))

theorem valid_width {T : Tables} {C : Cert} (hT : TablesOk T C) {t : PTree}
    (h : t.Valid T (LexTok T)) : LeW (t.ast T).length (C.w (t.root T)) := by
  induction h with
  | @leaf s w h =>
    simp only [PTree.ast, PTree.root, leafNodes_length]
    rcases hT.symw s (lexTok_lt hT h) with h' | h'
    · rw [if_pos h']; exact Or.inr (Nat.zero_le _)
    · split
      · exact Or.inr (Nat.zero_le _)
      · exact Or.inr h'
  | @node p cs hp hr hc ih =>
    have h1 := (hT.prods p hp).2.2.1
    have h2 := asts_width (C := C) cs ih
    simp only [PTree.ast, PTree.root, wrapNodes]
    split at h1
    · rename_i he
      rw [if_pos he]
      rw [hr] at h1
      unfold LeW at *; omega
    · rename_i he
      rw [if_neg he]
      exact Or.inr h1

theorem collect_eq {acc nodes : List Ast} (h : acc = [] ∨ nodes.length ≤ 1) :
    collect acc nodes = nodes ++ acc := by
  match nodes, acc with
  | [], acc => simp [collect]
  | n :: ns, [] => simp [collect]
  | n :: ns, a :: as =>
    have : ns = [] := by
      rcases h with h | h
      · simp at h
      · simp at h; exact h
    subst this
    simp [collect]

theorem own_width {T : Tables} {C : Cert} (hT : TablesOk T C) {t : PTree}
    (h : t.Valid T (LexTok T)) :
    LeW (t.own T).length (if t.root T < firstNT then C.w (t.root T) else 0) ∧
    LeW (t.lower T).length (if t.root T < firstNT then 0 else C.w (t.root T)) := by
  have hw := valid_width hT h
  cases h with
  | @leaf s w h =>
    have := lexTok_lt hT h
    simp only [PTree.own, PTree.lower, PTree.root, this, if_true, List.length_nil]
    refine ⟨?_, Or.inr (Nat.le_refl _)⟩
    simpa [PTree.ast, PTree.root] using hw
  | @node p cs hp hr hc =>
    have : ¬ lhsOf T p < firstNT := by have := (hT.prods p hp).2.1; omega
    simp only [PTree.own, PTree.lower, PTree.root, this, if_false, List.length_nil]
    refine ⟨Or.inr (Nat.le_refl _), ?_⟩
    simpa [PTree.root] using hw

/-- Popping a right-hand side collects the nodes of its trees. -/
theorem popRhs_seg {T : Tables} {C : Cert} (hT : TablesOk T C) {es1 : List Entry}
    {ts1 : List PTree} {up up2 : List Ast} (hs : Seg T es1 ts1 up up2) :
    ∀ (es2 : List Entry) (acc : List Ast) (upw accw : Nat),
      (∀ t ∈ ts1, t.Valid T (LexTok T)) → widthOk C (ts1.map (PTree.root T)) upw accw →
      LeW up.length upw → LeW acc.length accw →
      ∃ A, popRhs es1.length (es1 ++ es2) acc = some (A, es2) ∧
        up2 ++ A = PTree.asts T ts1.reverse ++ up ++ acc := by
  induction hs with
  | nil =>
    intro es2 acc upw accw _ _ _ _
    exact ⟨acc, by simp [popRhs], by simp [PTree.asts]⟩
  | @cons e es t ts up up2 hs hn ih =>
    intro es2 acc upw accw hv hw hup hacc
    obtain ⟨ho, hl⟩ := own_width hT (hv t (by simp))
    simp only [List.map_cons, widthOk] at hw
    have hlen : LeW e.nodes.length ((if t.root T < firstNT then C.w (t.root T) else 0) + upw) := by
      rw [hn, List.length_append]; exact ho.add hup
    have hcol : collect acc e.nodes = e.nodes ++ acc := by
      apply collect_eq
      rcases hw.1 with h | h
      · left
        unfold LeW at hacc
        apply List.eq_nil_of_length_eq_zero; omega
      · right; unfold LeW at hlen; omega
    obtain ⟨A, h1, h2⟩ := ih es2 (e.nodes ++ acc) _ _ (fun x hx => hv x (by simp [hx])) hw.2 hl
      (by rw [List.length_append, Nat.add_comm]; exact hacc.add hlen)
    refine ⟨A, ?_, ?_⟩
    · simp only [List.length_cons, List.cons_append, popRhs, hcol]
      exact h1
    · rw [h2, hn]
      simp only [List.reverse_cons, PTree.asts_append, PTree.asts, List.append_nil,
        List.append_assoc]
      rw [← PTree.lower_own T t]
      simp [List.append_assoc]

theorem Chain.state_lt {T : Tables} {C : Cert} (hT : TablesOk T C) {es : List Entry}
    {ts : List PTree} {up : List Ast} {q : Nat} (h : Chain T es ts up) (hq : topState es = some q) :
    q < T.actions.length := by
  cases h with
  | @base e he => rw [topState_cons, he] at hq; simp at hq; subst hq; exact hT.nact
  | @push e es t ts up r act idx hc hr hrl hmem h2 hst hv hn =>
    rw [topState_cons, hst] at hq
    split at hq
    · simp at hq
    · simp at hq; subst hq
      exact (edge_even hT hrl hmem h2 (by assumption)).2.1

theorem Chain.bottom {T : Tables} {C : Cert} (hT : TablesOk T C) {es : List Entry}
    {ts : List PTree} {up : List Ast} (h : Chain T es ts up) (hq : topState es = some 0) :
    ts = [] ∧ ∃ e, es = [e] ∧ e.nodes = up := by
  cases h with
  | @base e he => exact ⟨rfl, e, rfl, rfl⟩
  | @push e es t ts up r act idx hc hr hrl hmem h2 hst hv hn =>
    rw [topState_cons, hst] at hq
    split at hq
    · simp at hq
    · simp at hq; subst hq
      exact absurd rfl (edge_even hT hrl hmem h2 (by assumption)).2.2.1

/-- The nodes of the top entry: its own, then those of the tree above. -/
theorem Chain.top {T : Tables} {C : Cert} (hT : TablesOk T C) {e : Entry} {es : List Entry}
    {ts : List PTree} {up : List Ast} {q : Nat} (h : Chain T (e :: es) ts up)
    (hq : e.state = some q) :
    ∃ own, e.nodes = own ++ up ∧
      (∀ up', Chain T ({ e with nodes := own ++ up' } :: es) ts up') ∧
      (own ≠ [] → ∀ A ∈ ((T.gos[q]?).getD []).map (·.1),
          ∀ p < T.prods.length, lhsOf T p = A → prodEmit T p = .none) ∧
      (own ≠ [] → q ≠ 0) := by
  cases h with
  | base he => exact ⟨[], by simp, fun up' => Chain.base he, by simp, by simp⟩
  | @push e es t ts up r act idx hc hr hrl hmem h2 hst hv hn =>
    rw [hst] at hq
    split at hq
    · simp at hq
    · rename_i hodd
      simp at hq; subst hq
      refine ⟨t.own T, hn, fun up' => Chain.push hc hr hrl hmem h2 hst hv rfl, ?_,
        fun _ => (edge_even hT hrl hmem h2 hodd).2.2.1⟩
      intro ho
      cases hv with
      | @node p cs hp hrr hcc => simp [PTree.own] at ho
      | @leaf s w hl =>
        have hlt := lexTok_lt hT hl
        rcases rows_mem.mp hmem with hm | hm
        · rcases (hT.acts r hrl _ hm).2 with h' | h' | h'
          · simp only at h'; omega
          · apply h'.2.2.2.2
            intro he
            apply ho
            simp [PTree.own, leafNodes, PTree.root] at he ⊢
            exact he
          · simp only at h'; omega
        · have := (hT.gos r hrl _ hm).1
          simp only [PTree.root] at this
          omega

end Cnars.Parser
