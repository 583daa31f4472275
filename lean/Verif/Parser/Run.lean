import Verif.Parser.Pure

/-!
# Running the automaton

The main loop of `parse` for any tables that pass the checks: it ends after a number of rounds that
is linear in the length of the text, and it ends as the automaton on trees does.  Helper lemmas.
-/

namespace Cnars.Parser

/-- Bounds on trees, found outside and checked: the size of trees without text per symbol, a credit
per symbol, and the number of such trees that can be stacked on a state. -/
structure Cost where
  empty : List (Option Nat)
  credit : List Nat
  rank : List Nat

def Cost.e (K : Cost) (X : Nat) : Option Nat := (K.empty[X]?).getD none
def Cost.r (K : Cost) (X : Nat) : Nat := (K.credit[X]?).getD 0
def Cost.rk (K : Cost) (q : Nat) : Nat := (K.rank[q]?).getD 0

/-- The size of a list of trees without text. -/
def Cost.sumE (K : Cost) : List Nat → Option Nat
  | [] => some 0
  | X :: Xs => match K.e X, Cost.sumE K Xs with
    | some a, some b => some (a + b)
    | _, _ => none

/-- Whatever symbols of the right-hand side have no text, the credits of the others suffice. -/
def Cost.pat (K : Cost) : List Nat → Nat → Nat → Bool → Prop
  | [], need, hv, ne => ne = true → need ≤ hv
  | X :: Xs, need, hv, ne => Cost.pat K Xs need (hv + K.r X) true ∧
      match K.e X with
      | none => True
      | some v => Cost.pat K Xs (need + v) hv ne

/-- Check of a production. -/
def Cost.prodOk (K : Cost) (T : Tables) (p : Nat) : Prop :=
  (match K.sumE (rhsOf T p) with
    | none => True
    | some v => match K.e (lhsOf T p) with
      | none => False
      | some u => v + 1 ≤ u) ∧
  K.pat (rhsOf T p) (K.r (lhsOf T p) + 1) 0 false

/-- Check of an entry of the action or goto table. -/
def Cost.rowOk (K : Cost) (r : Nat) (x : Nat × Nat × Nat) : Prop :=
  (K.e x.1).isSome = true → 1 ≤ K.rk r ∧ (x.2.1 = 2 → K.rk x.2.2 + 1 ≤ K.rk r)

structure CostOk (T : Tables) (K : Cost) : Prop where
  eof : K.e 0 = some 1
  leaf : ∀ s < firstNT, K.r s + 1 ≤ 10
  prods : ∀ p < T.prods.length, K.prodOk T p
  empties : ∀ x ∈ K.empty, ∀ v ∈ x, v ≤ 1
  ranks : ∀ x ∈ K.rank, x ≤ 2
  rows : ∀ r < T.actions.length, ∀ x ∈ rowsOf T r, K.rowOk r x

theorem pat_sizes {T : Tables} {K : Cost} : ∀ (cs : List PTree) (need hv : Nat) (ne : Bool),
    (∀ t ∈ cs, (t.yield = [] → ∃ v, K.e (t.root T) = some v ∧ t.size ≤ v) ∧
      (t.yield ≠ [] → t.size + K.r (t.root T) ≤ 10 * t.yield.length)) →
    K.pat (cs.map (PTree.root T)) need hv ne → (PTree.yields cs ≠ [] ∨ ne = true) →
    PTree.sizes cs + need ≤ 10 * (PTree.yields cs).length + hv
  | [], need, hv, ne, _, hp, hne => by
    simp only [PTree.yields, ne_eq, not_true_eq_false, false_or] at hne
    simp only [List.map_nil, Cost.pat] at hp
    simpa [PTree.sizes, PTree.yields] using hp hne
  | t :: cs, need, hv, ne, h, hp, hne => by
    simp only [List.map_cons, Cost.pat] at hp
    have ht := h t (by simp)
    have hcs := fun x hx => h x (List.mem_cons_of_mem t hx)
    simp only [PTree.sizes, PTree.yields, List.length_append]
    by_cases hy : t.yield = []
    · obtain ⟨v, hv1, hv2⟩ := ht.1 hy
      rw [hv1] at hp
      have := pat_sizes cs (need + v) hv ne hcs hp.2 (by
        rcases hne with hne | hne
        · left; simpa [PTree.yields, hy] using hne
        · right; exact hne)
      simp [hy]; omega
    · have h1 := ht.2 hy
      have := pat_sizes cs need (hv + K.r (t.root T)) true hcs hp.1 (Or.inr rfl)
      omega

theorem sumE_sizes {T : Tables} {K : Cost} : ∀ (cs : List PTree),
    (∀ t ∈ cs, t.yield = [] → ∃ v, K.e (t.root T) = some v ∧ t.size ≤ v) →
    PTree.yields cs = [] →
    ∃ v, K.sumE (cs.map (PTree.root T)) = some v ∧ PTree.sizes cs ≤ v
  | [], _, _ => ⟨0, rfl, by simp [PTree.sizes]⟩
  | t :: cs, h, hy => by
    simp only [PTree.yields, List.append_eq_nil_iff] at hy
    obtain ⟨v, h1, h2⟩ := h t (by simp) hy.1
    obtain ⟨u, h3, h4⟩ := sumE_sizes cs (fun x hx => h x (by simp [hx])) hy.2
    refine ⟨v + u, ?_, ?_⟩
    · simp [Cost.sumE, h1, h3]
    · simp only [PTree.sizes]; omega

theorem valid_size {T : Tables} {C : Cert} {K : Cost} (hT : TablesOk T C) (hK : CostOk T K)
    {t : PTree} (hv : t.Valid T (LexTok T)) :
    (t.yield = [] → ∃ v, K.e (t.root T) = some v ∧ t.size ≤ v) ∧
      (t.yield ≠ [] → t.size + K.r (t.root T) ≤ 10 * t.yield.length) := by
  induction hv with
  | @leaf s w h =>
    simp only [PTree.yield, PTree.root, PTree.size]
    constructor
    · intro hw
      rcases h with ⟨h, _⟩ | ⟨h, _⟩
      · subst h; exact ⟨1, hK.eof, Nat.le_refl _⟩
      · exact absurd hw h
    · intro hw
      have h1 := hK.leaf s (lexTok_lt hT h)
      have h2 : 0 < w.length := List.length_pos_iff.mpr hw
      omega
  | @node p cs hp hr hc ih =>
    have hpo := hK.prods p hp
    simp only [Cost.prodOk, hr] at hpo
    simp only [PTree.yield, PTree.root, PTree.size]
    constructor
    · intro hy
      obtain ⟨v, h1, h2⟩ := sumE_sizes cs (fun t ht => (ih t ht).1) hy
      rw [h1] at hpo
      cases he : K.e (lhsOf T p) with
      | none => rw [he] at hpo; exact absurd hpo.1 (by simp)
      | some u =>
        rw [he] at hpo
        exact ⟨u, rfl, by have := hpo.1; simp only at this; omega⟩
    · intro hy
      have := pat_sizes cs _ 0 false ih hpo.2 (Or.inl hy)
      omega

theorem getD_le {α : Type} {l : List α} {d : α} {P : α → Prop} (h : ∀ x ∈ l, P x) (hd : P d)
    (i : Nat) : P ((l[i]?).getD d) := by
  cases hi : l[i]? with
  | none => exact hd
  | some x => exact h x (List.mem_of_getElem? hi)

/-- The size of the trees on the stack, and the height of the stack. -/
theorem chain_size {T : Tables} {C : Cert} {K : Cost} (hT : TablesOk T C) (hK : CostOk T K)
    {es : List Entry} {ts : List PTree} {up : List Ast} (h : Chain T es ts up) :
    PTree.sizes ts + ((topState es).map K.rk).getD 0
        ≤ 12 * (PTree.yields ts.reverse).length + 2 ∧
    ts.length + ((topState es).map K.rk).getD 0 ≤ 3 * (PTree.yields ts.reverse).length + 2 ∧
    es.length = ts.length + 1 := by
  induction h with
  | @base e he =>
    simp only [topState_cons, he, PTree.sizes, PTree.yields, List.reverse_nil, List.length_nil,
      Option.map_some, Option.getD_some]
    have : K.rk 0 ≤ 2 := getD_le (P := fun x => x ≤ 2) hK.ranks (by omega) 0
    simp; omega
  | @push e es t ts up r act idx hc hr hrl hmem h2 hst hv hn ih =>
    rw [hr] at ih
    simp only [Option.map_some, Option.getD_some] at ih
    have hsz := valid_size hT hK hv
    have hrow := hK.rows r hrl _ hmem
    unfold Cost.rowOk at hrow
    simp only [PTree.sizes, List.reverse_cons, PTree.yields_append, PTree.yields, List.append_nil,
      List.length_append, List.length_cons, topState_cons]
    have hrk : (e.state.map K.rk).getD 0 ≤ 2 ∧
        ((K.e (t.root T)).isSome = true → (e.state.map K.rk).getD 0 + 1 ≤ K.rk r) := by
      rw [hst]
      by_cases ho : act % 2 = 1
      · rw [if_pos ho]
        simp only [Option.map_none, Option.getD_none]
        refine ⟨by omega, fun he => ?_⟩
        have := (hrow he).1; omega
      · rw [if_neg ho]
        simp only [Option.map_some, Option.getD_some]
        refine ⟨getD_le (P := fun x => x ≤ 2) hK.ranks (by omega) idx, fun he => ?_⟩
        exact (hrow he).2 (edge_even hT hrl hmem h2 ho).1
    by_cases hy : t.yield = []
    · obtain ⟨v, h3, h4⟩ := hsz.1 hy
      have h5 : v ≤ 1 := by
        have : ∀ x, x ∈ K.e (t.root T) → x ≤ 1 :=
          getD_le (P := fun (x : Option Nat) => ∀ v ∈ x, v ≤ 1) hK.empties (by simp) _
        exact this v h3
      have h6 := hrk.2 (by rw [h3]; rfl)
      simp only [hy, List.length_nil]
      omega
    · have h3 := hsz.2 hy
      have h4 : 0 < t.yield.length := List.length_pos_iff.mpr hy
      have h5 := hrk.1
      omega

/-- The text read so far. -/
def PC.read (c : PC) : List WChar := PTree.yields (c.st.map (·.2)).reverse

/-- Grows with every round. -/
def PC.pot (c : PC) : Nat :=
  2 * PTree.sizes (c.st.map (·.2)) + if c.red.isSome then 1 else 0

theorem sizes_split (l : List PTree) (n : Nat) :
    PTree.sizes (l.take n) + PTree.sizes (l.drop n) = PTree.sizes l := by
  rw [← PTree.sizes_append, List.take_append_drop]

theorem pstep_go {T : Tables} {c c' : PC} (h : pstep T c = some (.go c')) :
    c'.read ++ c'.text = c.read ++ c.text ∧ c.pot < c'.pot := by
  unfold pstep at h
  split at h
  · rename_i p hred
    unfold predStep at h
    dsimp only at h
    split at h
    · simp at h
    · split at h
      · simp at h
      · split at h
        · simp at h
        · split at h
          · simp at h
          · rename_i a i _
            simp at h
            subst h
            constructor
            · simp only [PC.read, List.map_cons, List.reverse_cons, PTree.yields_append,
                PTree.yields, PTree.yield, List.append_nil]
              rw [← PTree.yields_append, ← List.reverse_append, ← List.map_take,
                ← List.map_append, List.take_append_drop]
            · simp only [PC.pot, hred, List.map_cons, PTree.sizes, PTree.size,
                PTree.sizes_reverse, Option.isSome_some, if_true]
              have := sizes_split (c.st.map (·.2)) (rhsOf T p).length
              rw [← List.map_drop] at this
              omega
  · rename_i hred
    unfold preadStep at h
    split at h
    · simp at h
    · dsimp only at h
      split at h
      · simp at h
      · split at h
        · split at h
          · simp at h
          · simp at h
            subst h
            constructor
            · simp only [PC.read, List.map_cons, List.reverse_cons, PTree.yields_append,
                PTree.yields, PTree.yield, List.append_nil, List.append_assoc,
                List.take_append_drop]
            · simp only [PC.pot, hred, List.map_cons, PTree.sizes, PTree.size]
              simp; omega
        · simp at h
          subst h
          refine ⟨rfl, ?_⟩
          simp [PC.pot, hred]

theorem pstep_accept {T : Tables} {c : PC} {t : PTree} (h : pstep T c = some (.accept t)) :
    t.yield = c.read ∧ t.hasEof = PTree.hasEofs (c.st.map (·.2)) := by
  unfold pstep at h
  split at h
  · rename_i p hred
    unfold predStep at h
    dsimp only at h
    split at h
    · simp at h
    · split at h
      · rename_i hg
        simp at h
        subst h
        have htake : c.st.take (rhsOf T p).length = c.st := by
          have := List.take_append_drop (rhsOf T p).length c.st
          rw [hg.2, List.append_nil] at this
          exact this
        simp only [PTree.yield, PC.read, PTree.hasEof, ← List.map_take, htake, PTree.hasEofs_reverse,
          and_self]
      · split at h
        · simp at h
        · split at h <;> simp at h
  · unfold preadStep at h
    split at h
    · simp at h
    · dsimp only at h
      split at h
      · simp at h
      · split at h
        · split at h <;> simp at h
        · simp at h

/-- The automaton run to the end. -/
def prun (T : Tables) : Nat → PC → Option POut
  | 0, _ => none
  | n + 1, c => match pstep T c with
    | some (.go c') => prun T n c'
    | o => o

/-- How a run ends. -/
inductive RunSim (T : Tables) (text0 : List WChar) : Option POut → Parsed → Prop where
  | accept {t : PTree} {scan : Scan} : t.Valid T (LexTok T) → t.root T = goalSym →
      t.yield = text0 → ScanIs scan [] [] →
      RunSim T text0 (some (.accept t)) ⟨some (t.ast T), 0, scan⟩
  | reject {len q : Nat} {scan : Scan} {l text : List WChar} : ScanIs scan l text →
      len ≤ l.length → q < T.actions.length → len = (lexPure T q text).2 →
      actOf T q (lexPure T q text).1 = none → RunSim T text0 (some .reject) ⟨none, len, scan⟩

theorem step_sim {T : Tables} {C : Cert} {S : List Nat} (hT : TablesOk T C) (hS : EofOk T S)
    {s : St} {c : PC} {l : List WChar} (h : Sim T C s c l) :
    ∃ o, step T false s = .ok o ∧ OutSim T C o (pstep T c) ∧
      (Chars c.text → (∀ s', o = .go s' → s'.stack.length ≤ s.stacksize) → l.length ≤ 127 →
        Spare T c.text →
        (step T true s = .ok o ∧ ∀ s', o = .go s' → s'.scan.buf.size ≤ 127) ∨
          (step T true s = .ub ∧ ∃ len sc, o = .reject len sc)) := by
  unfold step
  by_cases ha : s.act % 2 = 1
  · simp only [ha, if_true]
    obtain ⟨o, h1, h2, h3, h4⟩ := reduce_sim hT hS h ha
    refine ⟨o, h1, h2, fun _ hs hl _ => Or.inl ⟨h3 hs, fun s' hs' => ?_⟩⟩
    rw [h4 s' hs', h.scan.buf.1]
    exact hl
  · simp only [ha, if_false]
    exact read_sim hT h ha

theorem run_sim {T : Tables} {C : Cert} {K : Cost} {S : List Nat} (hT : TablesOk T C)
    (hK : CostOk T K) (hS : EofOk T S) (text0 : List WChar) :
    ∀ (fuel : Nat) (s : St) (c : PC) (l : List WChar), Sim T C s c l →
      c.read ++ c.text = text0 → 24 * text0.length + 6 ≤ c.pot + fuel →
      ∃ r, run T false fuel s = .ok r ∧ RunSim T text0 (prun T fuel c) r
  | 0, s, c, l, h, hr, hf => by
    exfalso
    have h1 := (chain_size hT hK h.chain).1
    have h2 : (PTree.yields (c.st.map (·.2)).reverse).length ≤ text0.length := by
      rw [← hr]
      simp only [PC.read, List.length_append]
      omega
    simp only [PC.pot] at hf
    split at hf <;> omega
  | fuel + 1, s, c, l, h, hr, hf => by
    obtain ⟨o, h1, h2, _⟩ := step_sim hT hS h
    simp only [run, h1, Res.ok_bind, prun]
    generalize hp : pstep T c = po at *
    cases h2 with
    | @go s' c' l' h' =>
      obtain ⟨h3, h4⟩ := pstep_go hp
      exact run_sim hT hK hS text0 fuel s' c' l' h' (by rw [h3, hr]) (by omega)
    | @accept t scan hv hroot hs =>
      obtain ⟨h3, h4⟩ := pstep_accept hp
      refine ⟨_, rfl, RunSim.accept hv hroot ?_ hs⟩
      have ht : t.hasEof = true := hasEof_of_root hT hS hv (by rw [hroot]; exact hS.goal)
      rw [h4] at ht
      have := h.eof ht
      rw [h3, ← hr, this, List.append_nil]
    | @reject len q scan l text hs hl hq hlen hact =>
      exact ⟨_, rfl, RunSim.reject hs hl hq hlen hact⟩

/-- The start configuration. -/
def PC.init (text : List WChar) : PC := { st := [], red := none, text := text }

theorem sim_init {T : Tables} {C : Cert} {scan : Scan} {text : List WChar} {d : Nat}
    (hd : d < 3) (h : ScanIs { scan with isEof := false } [] text) :
    Sim T C (initSt scan d) (PC.init text) [] where
  chain := Chain.base rfl
  states := rfl
  scan := h
  red := by simp [PC.init, initSt, follow]
  ready := by simp [PC.init]
  top := fun _ => ⟨0, rfl⟩
  len := Nat.le_refl _
  delay := hd
  eof := by simp [PC.init, PTree.hasEofs]

/-- All symbols machine `k` accepts have an action in state `q`. -/
def Covered (T : Tables) (q k : Nat) : Prop :=
  ∀ st ∈ (T.dfas[k]?).getD [], 0 < st.2 → st.2 - 1 ∈ ((T.actions[q]?).getD []).map (·.1)

/-- In a state without default production the lexer only delivers symbols the state has an action
for. -/
def RejectOk (T : Tables) : Prop :=
  ∀ q < T.actions.length, (T.defProd[q]?).getD none = none →
    ∀ k ∈ (T.dfaSelect[q]?).getD none, Covered T q k

/-- The parser only gives up where no symbol was found, or at the end. -/
theorem reject_len {T : Tables} {C : Cert} (hT : TablesOk T C) (hR : RejectOk T) {q : Nat}
    {text : List WChar} (hq : q < T.actions.length)
    (h : actOf T q (lexPure T q text).1 = none) :
    (lexPure T q text).2 = 0 := by
  by_cases hn : text = []
  · subst hn; rfl
  · cases hs : (lexPure T q text).1 with
    | none =>
      cases text with
      | nil => exact absurd rfl hn
      | cons c cs =>
        unfold lexPure at hs ⊢
        dsimp only at hs ⊢
        split
        · rename_i k hk
          simp only [hk] at hs
          split
          · rename_i m hm
            simp only [hm] at hs
            split
            · rename_i hsc; simp [hsc] at hs
            · rfl
          · rfl
        · rfl
    | some x =>
      exfalso
      obtain ⟨k, m, hk, hm, _, _, t, row, _, ht⟩ := lexPure_accepts hn hs
      have hd : (T.defProd[q]?).getD none = none := by
        cases hd : (T.defProd[q]?).getD none with
        | none => rfl
        | some p =>
          unfold actOf at h
          split at h
          · rename_i a i hb
            rw [hs] at hb
            have := (hT.acts q hq _ (findRow_mem (by simpa using hb))).2
            split at h
            · simp only at this; omega
            · simp at h
          · simp [hd] at h
      have hmem := hR q hq hd k (by simp [hk]) (row, x + 1)
        (by rw [hm]; exact List.mem_of_getElem? ht) (by simp)
      simp only [Nat.add_sub_cancel] at hmem
      obtain ⟨a, i, hf⟩ := findRow_isSome hmem
      have := (hT.acts q hq _ (findRow_mem hf)).2
      unfold actOf at h
      rw [hs] at h
      simp only [Option.bind_some, hf] at h
      split at h
      · simp only at this; omega
      · simp at h

/-- After a rejection everything that was buffered is dropped. -/
theorem parse_sim {T : Tables} {C : Cert} {K : Cost} {S : List Nat} (hT : TablesOk T C)
    (hK : CostOk T K) (hS : EofOk T S) (hR : RejectOk T) {scan : Scan} {text : List WChar} {d : Nat}
    (hd : d < 3) (h : ScanIs { scan with isEof := false } [] text) (fuel : Nat)
    (hf : 24 * text.length + 6 ≤ fuel) :
    ∃ scan', scan'.buf.size = 0 ∧ BufIs scan'.buf [] ∧
      ((∃ t, prun T fuel (PC.init text) = some (.accept t) ∧ t.Valid T (LexTok T) ∧
          t.root T = goalSym ∧ t.yield = text ∧
          parse T false fuel scan d = .ok ⟨some (t.ast T), 0, scan'⟩) ∨
        (prun T fuel (PC.init text) = some .reject ∧
          parse T false fuel scan d = .ok ⟨none, 0, scan'⟩)) := by
  obtain ⟨r, h1, h2⟩ := run_sim hT hK hS text fuel _ _ _ (sim_init (T := T) (C := C) hd h)
    (by simp [PC.read, PC.init, PTree.yields]) (by simp [PC.pot, PC.init, PTree.sizes]; omega)
  generalize hp : prun T fuel (PC.init text) = po at h2
  cases h2 with
  | @accept t scan1 hv hroot hy hs =>
    obtain ⟨s', h3, h4⟩ := clearInput_done hs (Nat.le_refl 0)
    have hb : BufIs s'.buf [] := h4.buf
    refine ⟨s', hb.1, hb, Or.inl ⟨t, rfl, hv, hroot, hy, ?_⟩⟩
    simp only [parse, h1, Res.ok_bind, h3]
  | @reject len q scan1 l text1 hs hl hq hlen hact =>
    rw [reject_len hT hR hq hact] at hlen
    subst hlen
    obtain ⟨s', h3, h4, _⟩ := clearInput_zero hs
    have hb : BufIs s'.buf [] := h4.buf
    refine ⟨s', hb.1, hb, Or.inr ⟨rfl, ?_⟩⟩
    simp only [parse, h1, Res.ok_bind, h3]

/-! ## The code as it is, with its memory -/

/-- Every configuration on the way has a stack that fits, with the bottom entry, in the first
allocation. -/
def Low (T : Tables) : Nat → PC → Prop
  | 0, c => c.st.length < mallocStep
  | n + 1, c => c.st.length < mallocStep ∧ ∀ c', pstep T c = some (.go c') → Low T n c'

theorem Low.here {T : Tables} {n : Nat} {c : PC} (h : Low T n c) : c.st.length < mallocStep := by
  cases n with
  | zero => exact h
  | succ n => exact h.1

theorem step_stacksize {T : Tables} {b : Bool} {s s' : St} (h : step T b s = .ok (.go s')) :
    s.stacksize ≤ s'.stacksize := by
  unfold step at h
  split at h
  · simp only [reduceStep, Res.bind_eq_ok] at h
    obtain ⟨p, _, ⟨acc, st⟩, _, h⟩ := h
    cases st with
    | nil => simp at h
    | cons e below =>
      simp only at h
      split at h
      · simp only [Res.bind_eq_ok] at h
        obtain ⟨_, _, h⟩ := h
        simp at h
      · simp only [Res.bind_eq_ok] at h
        obtain ⟨_, _, _, _, _, _, h⟩ := h
        simp at h
        rw [← h]
        exact Nat.le_refl _
  · simp only [readStep] at h
    split at h
    · simp at h
    · simp only [Res.bind_eq_ok] at h
      obtain ⟨_, _, h⟩ := h
      obtain ⟨x, _, h⟩ := h
      simp only [actStep, Res.bind_eq_ok] at h
      obtain ⟨a, _, hx⟩ := h
      cases a with
      | none => simp only at hx; split at hx <;> simp at hx
      | some ai =>
        simp only at hx
        split at hx
        · split at hx
          · simp only [shiftStep, Res.bind_eq_ok] at hx
            obtain ⟨_, _, _, _, _, _, _, _, _, _, hx⟩ := hx
            simp at hx
            rw [← hx]
            exact allocStack_ge _ _
          · simp at hx
        · simp at hx
          rw [← hx]
          exact Nat.le_refl _

/-- What remains to be read after a step. -/
theorem pstep_drop {T : Tables} {c c' : PC} (hp : pstep T c = some (.go c')) :
    ∃ n, c'.text = c.text.drop n := by
  unfold pstep at hp
  split at hp
  · unfold predStep at hp
    dsimp only at hp
    split at hp
    · simp at hp
    · split at hp
      · simp at hp
      · split at hp
        · simp at hp
        · split at hp
          · simp at hp
          · simp at hp; subst hp; exact ⟨0, by simp⟩
  · unfold preadStep at hp
    split at hp
    · simp at hp
    · dsimp only at hp
      split at hp
      · simp at hp
      · split at hp
        · split at hp
          · simp at hp
          · simp at hp; subst hp; exact ⟨_, rfl⟩
        · simp at hp; subst hp; exact ⟨0, by simp⟩

/-- With a low stack and short tokens the memory is respected, up to the error message. -/
theorem run_strict {T : Tables} {C : Cert} {S : List Nat} (hT : TablesOk T C) (hS : EofOk T S) :
    ∀ (fuel : Nat) (s : St) (c : PC) (l : List WChar), Sim T C s c l → Chars c.text →
      l.length ≤ 127 → (∀ k, Spare T (c.text.drop k)) → mallocStep ≤ s.stacksize → Low T fuel c →
      run T true fuel s = run T false fuel s ∨
        (run T true fuel s = .ub ∧ prun T fuel c = some .reject)
  | 0, _, _, _, _, _, _, _, _, _ => Or.inl rfl
  | fuel + 1, s, c, l, h, hc, hl, hsp, hss, hlow => by
    obtain ⟨o, h1, h2, h3⟩ := step_sim hT hS h
    have hs : ∀ s', o = .go s' → s'.stack.length ≤ s.stacksize := by
      intro s' ho
      subst ho
      have hlow2 := hlow.2
      generalize pstep T c = po at h2 hlow2
      cases h2 with
      | @go _ c' l' h' =>
        have := congrArg List.length h'.states
        have h4 := (hlow2 c' rfl).here
        simp only [List.length_map, List.length_append, List.length_cons, List.length_nil] at this
        omega
    rcases h3 hc hs hl (by simpa using hsp 0) with ⟨h4, h5⟩ | ⟨h4, len, sc, rfl⟩
    · simp only [run, h1, h4, Res.ok_bind, prun]
      have hlow2 := hlow.2
      generalize hp : pstep T c = po at h2 hlow2
      cases h2 with
      | @go s' c' l' h' =>
        obtain ⟨n, hn⟩ := pstep_drop hp
        refine run_strict hT hS fuel s' c' l' h' ?_ ?_ ?_ ?_ (hlow2 c' rfl)
        · intro x hx
          rw [hn] at hx
          exact hc x (List.mem_of_mem_drop hx)
        · rw [← h'.scan.buf.1]; exact h5 s' rfl
        · intro k
          rw [hn, List.drop_drop]
          exact hsp _
        · exact Nat.le_trans hss (step_stacksize h1)
      | accept => exact Or.inl rfl
      | reject => exact Or.inl rfl
    · right
      simp only [run, h4, prun]
      refine ⟨rfl, ?_⟩
      generalize hp : pstep T c = po at h2
      cases h2 with
      | reject => rfl

/-- At most `g q` symbols without text can be on the stack when the state is `q`, and never more than
five. -/
structure FlatOk (T : Tables) (K : Cost) (g : List Nat) : Prop where
  bound : ∀ x ∈ g, x ≤ 4
  rows : ∀ r < T.actions.length, ∀ x ∈ rowsOf T r, x.2.1 = 2 →
    (g[r]?).getD 4 + (if (K.e x.1).isSome then 1 else 0) ≤ (g[x.2.2]?).getD 4
  start : (g[0]?).getD 4 = 0

/-- The height of the stack: one entry for every character read, and five more. -/
theorem chain_height {T : Tables} {C : Cert} {K : Cost} {g : List Nat} (hT : TablesOk T C)
    (hK : CostOk T K) (hg : FlatOk T K g) {es : List Entry} {ts : List PTree} {up : List Ast}
    (h : Chain T es ts up) :
    ts.length ≤ (PTree.yields ts.reverse).length +
      ((topState es).map fun q => (g[q]?).getD 4).getD 5 := by
  induction h with
  | @base e he => simp [topState_cons, he, hg.start]
  | @push e es t ts up r act idx hc hr hrl hmem h2 hst hv hn ih =>
    rw [hr] at ih
    simp only [Option.map_some, Option.getD_some] at ih
    have hsz := valid_size hT hK hv
    have hr4 : (g[r]?).getD 4 ≤ 4 := getD_le (P := fun x => x ≤ 4) hg.bound (Nat.le_refl _) r
    simp only [List.reverse_cons, PTree.yields_append, PTree.yields, List.append_nil,
      List.length_append, List.length_cons, topState_cons]
    rw [hst]
    have hlen : 1 ≤ t.yield.length + (if (K.e (t.root T)).isSome then 1 else 0) := by
      by_cases hy : t.yield = []
      · obtain ⟨v, h3, h4⟩ := hsz.1 hy
        simp [h3]
      · have : 0 < t.yield.length := List.length_pos_iff.mpr hy
        omega
    by_cases ho : act % 2 = 1
    · rw [if_pos ho]
      simp only [Option.map_none, Option.getD_none]
      split at hlen <;> omega
    · rw [if_neg ho]
      simp only [Option.map_some, Option.getD_some]
      have := hg.rows r hrl _ hmem (edge_even hT hrl hmem h2 ho).1
      simp only at this
      omega

/-- A line of at most 121 characters never needs more stack than the first allocation. -/
theorem low_short {T : Tables} {C : Cert} {K : Cost} {S g : List Nat} (hT : TablesOk T C)
    (hK : CostOk T K) (hg : FlatOk T K g) (hS : EofOk T S) (text0 : List WChar)
    (hl : text0.length ≤ 121) :
    ∀ (fuel : Nat) (s : St) (c : PC) (l : List WChar), Sim T C s c l →
      c.read ++ c.text = text0 → Low T fuel c
  | fuel, s, c, l, h, hr => by
    have h1 := chain_height hT hK hg h.chain
    have h2 : (PTree.yields (c.st.map (·.2)).reverse).length ≤ text0.length := by
      rw [← hr]; simp only [PC.read, List.length_append]; omega
    have h5 : ((topState s.stack).map fun q => (g[q]?).getD 4).getD 5 ≤ 5 := by
      cases topState s.stack with
      | none => simp
      | some q =>
        have := getD_le (P := fun x => x ≤ 4) hg.bound (Nat.le_refl _) q
        simp only [Option.map_some, Option.getD_some]
        omega
    have h6 : c.st.length < mallocStep := by
      simp only [List.length_map] at h1
      unfold mallocStep; omega
    cases fuel with
    | zero => exact h6
    | succ fuel =>
      refine ⟨h6, ?_⟩
      intro c' hc'
      obtain ⟨o, _, h3, _⟩ := step_sim hT hS h
      rw [hc'] at h3
      cases h3 with
      | @go s' _ l' h' =>
        exact low_short hT hK hg hS text0 hl fuel s' c' l' h' (by rw [(pstep_go hc').1, hr])

end Cnars.Parser
