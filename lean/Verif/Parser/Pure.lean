import Verif.Parser.LR

/-!
# The LR automaton on texts and trees

`pstep` is the parser without buffers, node lists and memory: a stack of states and parse trees, and
the text that is still to be read.  `step_sim` shows that the driver does the same.  Helper lemmas.
-/

namespace Cnars.Parser

/-- A configuration: the stack (top first, without the bottom entry), the production that has to be
reduced next, and the remaining text. -/
structure PC where
  st : List (Option Nat × PTree)
  red : Option Nat
  text : List WChar

/-- The state at the top. -/
def topOf : List (Option Nat × PTree) → Option Nat
  | [] => some 0
  | x :: _ => x.1

inductive POut where
  | go (c : PC)
  | accept (t : PTree)
  | reject

/-- Look up an action: the entry of the symbol, else the default production, else an error. -/
def actOf (T : Tables) (q : Nat) (sym : Option Nat) : Option (Nat × Nat) :=
  match sym.bind (findRow ((T.actions[q]?).getD [])) with
  | some (a, i) => if a = 0 then none else some (a, i)
  | none => ((T.defProd[q]?).getD none).map fun p => (1, p)

/-- The target of a pushed entry and the reduction that follows at once. -/
def target (a i : Nat) : Option Nat := if a % 2 = 1 then none else some i
def follow (a i : Nat) : Option Nat := if a % 2 = 1 then some i else none

/-- Reduce production `p`. -/
def predStep (T : Tables) (p : Nat) (c : PC) : Option POut :=
  let n := (rhsOf T p).length
  let rest := c.st.drop n
  let t := PTree.node p ((c.st.take n).map (·.2)).reverse
  if c.st.length < n then none
  else if lhsOf T p = goalSym ∧ rest = [] then some (.accept t)
  else match topOf rest with
    | none => none
    | some r => match findRow ((T.gos[r]?).getD []) (lhsOf T p) with
      | none => none
      | some (a, i) => some (.go { st := (target a i, t) :: rest, red := follow a i, text := c.text })

/-- Read the next symbol. -/
def preadStep (T : Tables) (c : PC) : Option POut :=
  match topOf c.st with
  | none => none
  | some q =>
    let x := lexPure T q c.text
    match actOf T q x.1 with
    | none => some .reject
    | some (a, i) =>
      if a / 2 % 2 = 1 then
        match x.1 with
        | none => none
        | some s => some (.go { st := (target a i, .leaf s (c.text.take x.2)) :: c.st
                                red := follow a i, text := c.text.drop x.2 })
      else some (.go { c with red := some i })

def pstep (T : Tables) (c : PC) : Option POut :=
  match c.red with
  | some p => predStep T p c
  | none => preadStep T c

/-- What is known about a pending reduction. -/
inductive Ready (T : Tables) (C : Cert) (p : Nat) : List (Option Nat × PTree) → Prop where
  | item {st : List (Option Nat × PTree)} {q : Nat} : topOf st = some q →
      ItemOk T C q p (rhsOf T p).length → Ready T C p st
  | edge {st : List (Option Nat × PTree)} {t : PTree} {r n : Nat} : topOf st = some r →
      (rhsOf T p).length = n + 1 → (rhsOf T p)[n]? = some (t.root T) → ItemOk T C r p n →
      Ready T C p ((none, t) :: st)

/-- The driver is in configuration `c`, `l` being buffered. -/
structure Sim (T : Tables) (C : Cert) (s : St) (c : PC) (l : List WChar) : Prop where
  chain : Chain T s.stack (c.st.map (·.2)) []
  states : s.stack.map (·.state) = c.st.map (·.1) ++ [some 0]
  scan : ScanIs s.scan l c.text
  red : c.red = follow s.act s.idx
  ready : ∀ p, c.red = some p → Ready T C p c.st
  top : c.red = none → ∃ q, topOf c.st = some q
  len : s.len ≤ l.length
  delay : s.errorDelay < 3
  /-- the end of the input has been read only at the end of the input -/
  eof : PTree.hasEofs (c.st.map (·.2)) = true → c.text = []

theorem topState_eq {es : List Entry} {st : List (Option Nat × PTree)}
    (h : es.map (·.state) = st.map (·.1) ++ [some 0]) : topState es = topOf st := by
  cases es with
  | nil => simp at h
  | cons e es =>
    cases st with
    | nil => simp at h; simp [topState, topOf, h.1]
    | cons x st => simp at h; simp [topState, topOf, h.1]

/-- The split of the stack at a pending reduction. -/
theorem ready_split {T : Tables} {C : Cert} (hT : TablesOk T C) {s : St} {c : PC} {p : Nat}
    (hc : Chain T s.stack (c.st.map (·.2)) [])
    (hst : s.stack.map (·.state) = c.st.map (·.1) ++ [some 0]) (hr : Ready T C p c.st) :
    p < T.prods.length ∧
    ∃ es1 es2 ts1 ts2 up2 r, s.stack = es1 ++ es2 ∧ c.st.map (·.2) = ts1 ++ ts2 ∧
      es1.length = (rhsOf T p).length ∧ ts1.reverse.map (PTree.root T) = rhsOf T p ∧
      Seg T es1 ts1 [] up2 ∧ (∀ t ∈ ts1, t.Valid T (LexTok T)) ∧ Chain T es2 ts2 up2 ∧
      topState es2 = some r ∧ ItemOk T C r p 0 := by
  generalize hcst : c.st = st at *
  cases hr with
  | @item _ q hq hi =>
    refine ⟨hi.1, ?_⟩
    obtain ⟨es1, es2, ts1, ts2, up2, r, h1, h2, h3, h4, h5⟩ := walk hT _ _ _ _ q p hc
      (by rw [topState_eq hst, hq]) hi
    exact ⟨es1, es2, ts1, ts2, up2, r, h1, h2, h3, by rw [h4, List.take_length], h5⟩
  | @edge st' t r n hr hn hx hi =>
    refine ⟨hi.1, ?_⟩
    simp only [List.map_cons] at hc hst
    generalize hss : s.stack = ss at *
    cases hc with
    | @push e es _ _ _ r' act idx hc' hr' hrl hmem h2 hst' hv hnn =>
      have htop : topState es = some r := by
        have hst2 : es.map (·.state) = st'.map (·.1) ++ [some 0] := by
          simp only [List.map_cons, List.cons_append, List.cons.injEq] at hst
          exact hst.2
        rw [topState_eq hst2, hr]
      obtain ⟨es1, es2, ts1, ts2, up2, r2, h1, h2, h3, h4, h5, h6, h7⟩ := walk hT n _ _ _ r p hc'
        htop hi
      refine ⟨e :: es1, es2, t :: ts1, ts2, up2, r2, by simp [h1], by simp [h2], by simp [h3, hn],
        ?_, Seg.cons h5 hnn, ?_, h7⟩
      · simp only [List.reverse_cons, List.map_append, h4, List.map_cons, List.map_nil]
        have : rhsOf T p = (rhsOf T p).take (n + 1) := by rw [← hn, List.take_length]
        refine Eq.trans ?_ this.symm
        rw [List.take_add_one, hx]; rfl
      · intro x hx
        rcases List.mem_cons.mp hx with hx | hx
        · subst hx; exact hv
        · exact h6 x hx

/-- The driver's outcome is the automaton's. -/
inductive OutSim (T : Tables) (C : Cert) : Out → Option POut → Prop where
  | go {s : St} {c : PC} {l : List WChar} : Sim T C s c l → OutSim T C (.go s) (some (.go c))
  | accept {t : PTree} {scan : Scan} : t.Valid T (LexTok T) → t.root T = goalSym →
      ScanIs scan [] [] → OutSim T C (.accept (t.ast T) scan) (some (.accept t))
  | reject {len q : Nat} {scan : Scan} {l text : List WChar} : ScanIs scan l text →
      len ≤ l.length → q < T.actions.length → len = (lexPure T q text).2 →
      actOf T q (lexPure T q text).1 = none → OutSim T C (.reject len scan) (some .reject)

/-- A new entry whose tree is `t`. -/
theorem new_ready {T : Tables} {C : Cert} (hT : TablesOk T C) {r a i : Nat} {t : PTree}
    {st : List (Option Nat × PTree)} (hr : topOf st = some r) (hrl : r < T.actions.length)
    (hm : (t.root T, a, i) ∈ rowsOf T r) (h2 : 2 ≤ a) :
    (∀ p, follow a i = some p → Ready T C p ((target a i, t) :: st)) ∧
    (follow a i = none → ∃ q, topOf ((target a i, t) :: st) = some q) := by
  constructor
  · intro p hp
    unfold follow at hp
    split at hp
    · rename_i ho
      simp at hp; subst hp
      obtain ⟨n, h3, h4, h5⟩ := edge_odd hT hrl hm h2 ho
      unfold target
      rw [if_pos ho]
      exact Ready.edge hr h3 h4 h5
    · simp at hp
  · intro hp
    unfold follow at hp
    split at hp
    · simp at hp
    · rename_i ho
      exact ⟨i, by simp [topOf, target, ho]⟩

/-- Facts about the end-of-input token. -/
structure EofOk (T : Tables) (S : List Nat) : Prop where
  zero : 0 ∈ S
  goal : goalSym ∈ S
  prods : ∀ p < T.prods.length, lhsOf T p ∈ S → ∃ X ∈ rhsOf T p, X ∈ S
  term : ∀ X ∈ S, X < firstNT → X = 0

theorem hasEof_of_root {T : Tables} {C : Cert} {S : List Nat} (hT : TablesOk T C) (hS : EofOk T S)
    {t : PTree} (hv : t.Valid T (LexTok T)) (hr : t.root T ∈ S) : t.hasEof = true := by
  induction hv with
  | @leaf s w h =>
    have := hS.term _ hr (lexTok_lt hT h)
    simpa [PTree.hasEof, PTree.root] using this
  | @node p cs hp hrr hc ih =>
    obtain ⟨X, hX, hXS⟩ := hS.prods p hp hr
    rw [hrr] at hX
    obtain ⟨c, hcm, rfl⟩ := List.mem_map.mp hX
    simp only [PTree.hasEof]
    exact PTree.hasEofs_of_mem hcm (ih c hcm hXS)

theorem prodInfo {T : Tables} {C : Cert} (hT : TablesOk T C) {p : Nat} (hp : p < T.prods.length) :
    ∃ info, T.prods[p]? = some info ∧ info.length = (rhsOf T p).length ∧ info.lhs = lhsOf T p ∧
      info.emit = prodEmit T p := by
  refine ⟨T.prods[p], List.getElem?_eq_getElem hp, ?_, ?_, ?_⟩
  · have := (hT.prods p hp).1
    rw [List.getElem?_eq_getElem hp] at this
    simpa using this
  · simp [lhsOf, List.getElem?_eq_getElem hp]
  · simp [prodEmit, List.getElem?_eq_getElem hp]

theorem clearInput_done {s : Scan} {l : List WChar} (h : ScanIs s l []) {len : Nat}
    (hl : len ≤ l.length) : ∃ s', (∀ strict, clearInput strict len s = .ok s') ∧
      ScanIs s' [] [] := by
  have h1 : l = [] := by
    have := h.eq
    exact (List.append_eq_nil_iff.mp this.symm).1
  have h2 : pending s = [] := (List.append_eq_nil_iff.mp h.eq.symm).2
  subst h1
  simp at hl; subst hl
  obtain ⟨s', h3, h4, _⟩ := clearInput_zero h
  exact ⟨s', h3, by rwa [h2] at h4⟩

theorem push_false (n : Nat) (e : Entry) (st : List Entry) : push false n e st = .ok (e :: st) := by
  simp [push]

theorem push_ok {n : Nat} {e : Entry} {st : List Entry} (h : st.length < n) :
    push true n e st = .ok (e :: st) := by
  unfold push; rw [if_neg (by omega)]

/-- A reduction of the driver is a reduction of the automaton. -/
theorem reduce_sim {T : Tables} {C : Cert} {S : List Nat} (hT : TablesOk T C) (hS : EofOk T S)
    {s : St} {c : PC} {l : List WChar} (h : Sim T C s c l) (ha : s.act % 2 = 1) :
    ∃ o, reduceStep T false s = .ok o ∧ OutSim T C o (pstep T c) ∧
      ((∀ s', o = .go s' → s'.stack.length ≤ s.stacksize) → reduceStep T true s = .ok o) ∧
      (∀ s', o = .go s' → s'.scan = s.scan) := by
  have hred : c.red = some s.idx := by rw [h.red, follow, if_pos ha]
  obtain ⟨hp, es1, es2, ts1, ts2, up2, r, h1, h2, h3, h4, h5, h6, h7, h8, h9⟩ :=
    ready_split hT h.chain h.states (h.ready _ hred)
  obtain ⟨info, hi1, hi2, hi3, hi4⟩ := prodInfo hT hp
  have hwid := (hT.prods _ hp).2.2.2
  have hrev : ts1.map (PTree.root T) = (rhsOf T s.idx).reverse := by
    rw [← h4]; simp
  obtain ⟨A, hA1, hA2⟩ := popRhs_seg hT h5 es2 [] 0 0 h6 (by rw [hrev]; exact hwid)
    (by simp [LeW]) (by simp [LeW])
  simp only [List.append_nil] at hA2
  have hts1 : ts1.length = (rhsOf T s.idx).length := by rw [← h4]; simp
  have hstl : c.st.length = ts1.length + ts2.length := by
    have := congrArg List.length h2; simpa using this
  have hdrop : (c.st.drop (rhsOf T s.idx).length).map (·.2) = ts2 := by
    rw [List.map_drop, h2, ← hts1]; simp
  have htake : (c.st.take (rhsOf T s.idx).length).map (·.2) = ts1 := by
    rw [List.map_take, h2, ← hts1]; simp
  have hstates : es2.map (·.state)
      = (c.st.drop (rhsOf T s.idx).length).map (·.1) ++ [some 0] := by
    have h' := h.states
    rw [h1, List.map_append] at h'
    have := congrArg (List.drop es1.length) h'
    rw [List.drop_append_of_le_length (by simp)] at this
    have hle : es1.length ≤ (c.st.map (·.1)).length := by
      rw [List.length_map, h3, ← hts1, hstl]; omega
    rw [List.drop_append_of_le_length hle, List.drop_eq_nil_of_le (by simp), List.nil_append,
      h3] at this
    rw [this, List.map_drop]
  have hrl : r < T.actions.length := h7.state_lt hT h8
  -- the tree
  let t := PTree.node s.idx ts1.reverse
  have htv : t.Valid T (LexTok T) := by
    refine PTree.Valid.node hp h4.symm ?_
    intro x hx
    exact h6 x (by simpa using hx)
  cases es2 with
  | nil => simp [topState] at h8
  | cons e below =>
    have heq : e.state = some r := by rw [topState_cons] at h8; exact h8
    obtain ⟨own, ho1, ho2, ho3, ho4⟩ := h7.top hT heq
    have hnodes : wrapNodes info.emit (e.nodes ++ A) = own ++ t.ast T := by
      rw [ho1, List.append_assoc, hA2]
      simp only [t, PTree.ast, hi4]
      by_cases hown : own = []
      · simp [hown]
      · have hemit : prodEmit T s.idx = .none := by
          have hgo : GoOk T r (lhsOf T s.idx) := h9.2
          rcases hgo with hgo | ⟨_, hr0⟩
          · exact ho3 hown _ hgo _ hp rfl
          · exact absurd hr0 (ho4 hown)
        simp [wrapNodes, hemit]
    have hpop : popRhs info.length s.stack [] = some (A, e :: below) := by
      rw [h1, hi2, ← h3]; exact hA1
    have heofT : (t.hasEof = true → c.text = []) ∧
        (PTree.hasEofs ts2 = true → c.text = []) := by
      have hh := h.eof
      rw [h2, PTree.hasEofs_append] at hh
      constructor
      · intro ht
        apply hh
        simp only [t, PTree.hasEof, PTree.hasEofs_reverse] at ht
        simp [ht]
      · intro ht; apply hh; simp [ht]
    have hnlt : ¬ c.st.length < (rhsOf T s.idx).length := by rw [hstl, hts1]; omega
    have hbel : below = [] ↔ c.st.drop (rhsOf T s.idx).length = [] := by
      have := congrArg List.length hstates
      simp only [List.length_map, List.length_cons, List.length_append, List.length_nil] at this
      constructor
      · intro hb
        apply List.eq_nil_of_length_eq_zero
        rw [hb, List.length_nil] at this; omega
      · intro hb
        apply List.eq_nil_of_length_eq_zero
        rw [hb, List.length_nil] at this; omega
    have htree : PTree.node s.idx ((c.st.take (rhsOf T s.idx).length).map (·.2)).reverse = t := by
      simp [t, htake]
    by_cases hgoal : lhsOf T s.idx = goalSym ∧ below = []
    · -- accept
      have hroot : t.root T = goalSym := hgoal.1
      have htext : c.text = [] := heofT.1 (hasEof_of_root hT hS htv (by rw [hroot]; exact hS.goal))
      have hscan := h.scan
      rw [htext] at hscan
      obtain ⟨s', hs1, hs2⟩ := clearInput_done hscan h.len
      have hown : own = [] := by
        cases own with
        | nil => rfl
        | cons a own' =>
          exfalso
          apply ho4 (by simp)
          have h8' : topOf (c.st.drop (rhsOf T s.idx).length) = some r := by
            rw [← topState_eq hstates, h8]
          rw [hbel.mp hgoal.2] at h8'
          simpa [topOf] using h8'.symm
      refine ⟨.accept (t.ast T) s', ?_, ?_, ?_, by simp⟩
      · simp only [reduceStep, hi1, hpop, Res.ofOption_some, Res.ok_bind, hi3, hnodes, hown,
          List.nil_append]
        rw [if_pos hgoal, hs1]
        simp
      · have : pstep T c = some (.accept t) := by
          simp only [pstep, hred, predStep]
          rw [if_neg hnlt, if_pos ⟨hgoal.1, hbel.mp hgoal.2⟩, htree]
        rw [this]
        exact OutSim.accept htv hroot hs2
      · intro _
        simp only [reduceStep, hi1, hpop, Res.ofOption_some, Res.ok_bind, hi3, hnodes, hown,
          List.nil_append]
        rw [if_pos hgoal, hs1]
        simp
    · -- goto
      have hgo : lhsOf T s.idx ∈ ((T.gos[r]?).getD []).map (·.1) := by
        rcases h9.2 with hgo | ⟨hg, hr0⟩
        · exact hgo
        · exfalso
          apply hgoal
          refine ⟨hg, ?_⟩
          have h8' := h8
          rw [hr0] at h8'
          obtain ⟨_, e', he', _⟩ := h7.bottom hT h8'
          simp at he'
          exact he'.2
      obtain ⟨a, i, hrow⟩ := findRow_isSome hgo
      have hrg : r < T.gos.length := by rw [hT.ngo]; exact hrl
      obtain ⟨row, hgr⟩ : ∃ row, T.gos[r]? = some row := ⟨_, List.getElem?_eq_getElem hrg⟩
      have hrow' : findRow row (lhsOf T s.idx) = some (a, i) := by rw [hgr] at hrow; exact hrow
      have hmem := findRow_mem hrow
      have h2a : 2 ≤ a := by
        rcases (hT.gos r hrl _ hmem).2 with h' | h' <;> simp only at h' <;> omega
      have hmem' : (t.root T, a, i) ∈ rowsOf T r := rows_mem.mpr (Or.inr hmem)
      have htop : topOf (c.st.drop (rhsOf T s.idx).length) = some r := by
        rw [← topState_eq hstates, h8]
      obtain ⟨hn1, hn2⟩ := new_ready hT htop hrl hmem' h2a
      let e' : Entry := { e with nodes := own ++ t.ast T }
      let new : Entry := { state := target a i, sym := some (lhsOf T s.idx), nodes := [] }
      let s' : St := { s with stack := new :: e' :: below, act := a, idx := i }
      have hrun : ∀ b, (b = true → s'.stack.length ≤ s.stacksize) →
          reduceStep T b s = .ok (.go s') := by
        intro b hb
        have hpush : push b s.stacksize new (e' :: below) = .ok (new :: e' :: below) := by
          cases b with
          | false => exact push_false _ _ _
          | true =>
            apply push_ok
            have := hb rfl
            simp only [s', List.length_cons] at this ⊢
            omega
        simp only [reduceStep, hi1, hpop, Res.ofOption_some, Res.ok_bind, hi3, hnodes]
        rw [if_neg hgoal]
        have hq : Res.ofOption e.state = .ok r := by rw [heq]; rfl
        simp only [hq, Res.ofOption_some, Res.ok_bind, hgr, Option.getD_some, hrow']
        simp only [new, target, e'] at hpush
        rw [hpush]
        rfl
      refine ⟨.go s', hrun false (by simp), ?_, fun hb => hrun true (fun _ => hb s' rfl), ?_⟩
      rotate_left
      · intro s2 h2
        simp only [Out.go.injEq] at h2
        rw [← h2]
      have hps : pstep T c = some (.go { st := (target a i, t) :: c.st.drop (rhsOf T s.idx).length, red := follow a i, text := c.text }) := by
        simp only [pstep, hred, predStep]
        rw [if_neg hnlt, if_neg (by rw [← hbel]; exact hgoal), htree, htop]
        simp only [hrow]
      rw [hps]
      refine OutSim.go (l := l) ⟨?_, ?_, h.scan, rfl, hn1, hn2, h.len, h.delay, ?_⟩
      · simp only [List.map_cons, hdrop]
        refine Chain.push (r := r) (act := a) (idx := i) (ho2 (t.ast T)) ?_ hrl hmem' h2a rfl htv ?_
        · rw [topState_cons]; exact heq
        · simp [new, t, PTree.own]
      · simp only [s', List.map_cons, new, e', List.cons_append]
        rw [← hstates]; rfl
      · simp only [List.map_cons, PTree.hasEofs, hdrop]
        intro hh
        rcases Bool.or_eq_true _ _ |>.mp hh with hh | hh
        · exact heofT.1 hh
        · exact heofT.2 hh

theorem getAct_eq {T : Tables} {C : Cert} (hT : TablesOk T C) {q : Nat}
    (hq : q < T.actions.length) (sym : Option Nat) : getAct T q sym = .ok (actOf T q sym) := by
  obtain ⟨row, hrow⟩ : ∃ row, T.actions[q]? = some row := ⟨_, List.getElem?_eq_getElem hq⟩
  obtain ⟨d, hd⟩ : ∃ d, T.defProd[q]? = some d :=
    ⟨_, List.getElem?_eq_getElem (by rw [hT.ndef]; exact hq)⟩
  simp only [getAct, actOf, hrow, hd, Res.ofOption_some, Res.ok_bind, Option.getD_some]
  cases sym.bind (findRow row) with
  | none => rfl
  | some x => rfl

theorem lexeme_eq {b : Buf} {l : List WChar} {len : Nat} (h : BufIs b l) (hl : len ≤ l.length) :
    lexeme b len = l.take len := by
  rcases h.2 with ⟨_, h'⟩ | ⟨c, tail, hc, _⟩
  · subst h'
    have : len = 0 := by simpa using hl
    subst this
    simp [lexeme]
  · simp only [lexeme, hc]
    rw [List.take_append_of_le_length (by simpa using hl)]
    simp only [← List.map_take, List.map_map]
    have : ((fun c : Cell => c.getD 0) ∘ some) = id := by funext x; rfl
    rw [this, List.map_id]

theorem inRange_nonneg {c : WChar} {lo hi : Nat} (h : inRange c lo hi = true) : 0 ≤ c := by
  unfold inRange at h
  split at h
  · exact Int.natCast_nonneg _
  · simp at h

/-- No machine reads a negative character. -/
theorem dfaRun_nonneg {m : Machine} :
    ∀ (w : List WChar) (q t : Nat), dfaRun m q w = some t → ∀ c ∈ w, 0 ≤ c
  | [], _, _, _ => by simp
  | c :: cs, q, t, hr => by
    simp only [dfaRun] at hr
    cases hm : m[q]? with
    | none => simp [hm] at hr
    | some r =>
      simp only [hm] at hr
      cases ht : transition r.1 c with
      | none => simp [ht] at hr
      | some u =>
        simp only [ht] at hr
        obtain ⟨lo, hi, h1, h2⟩ := transition_mem ht
        intro x hx
        rcases List.mem_cons.mp hx with hx | hx
        · subst hx; exact inRange_nonneg h2
        · exact dfaRun_nonneg cs u t hr x hx

theorem lexTok_nonneg {T : Tables} {s : Nat} {w : List WChar} (h : LexTok T s w) :
    ∀ c ∈ w, 0 ≤ c := by
  rcases h with ⟨_, h⟩ | ⟨_, m, hm, t, row, hr, _⟩
  · subst h; simp
  · exact dfaRun_nonneg w 0 t hr

/-- A text of `char` values without NUL: what `fill` and `fetch` can deliver. -/
def Chars (text : List WChar) : Prop := ∀ c ∈ text, c ≤ 127 ∧ c ≠ 0

/-- What the lexer returns is a token. -/
theorem lexPure_tok {T : Tables} {C : Cert} (hT : TablesOk T C) {q x : Nat} {text : List WChar}
    (h : (lexPure T q text).1 = some x) :
    LexTok T x (text.take (lexPure T q text).2) ∧
    ((x = 0 ∧ text = [] ∧ (lexPure T q text).2 = 0) ∨
     (x ≠ 0 ∧ 0 < (lexPure T q text).2 ∧ (lexPure T q text).2 ≤ text.length)) := by
  by_cases hn : text = []
  · subst hn
    simp only [lexPure] at h ⊢
    simp at h; subst h
    exact ⟨Or.inl ⟨rfl, by simp⟩, Or.inl (by simp)⟩
  · obtain ⟨k, m, _, hm, h1, h2, h3⟩ := lexPure_accepts hn h
    refine ⟨Or.inr ⟨?_, m, List.mem_of_getElem? hm, h3⟩, Or.inr ⟨?_, h1, h2⟩⟩
    · intro h'
      have := congrArg List.length h'
      rw [List.length_take, List.length_nil] at this
      omega
    · intro h0
      subst h0
      obtain ⟨t, row, _, h4⟩ := h3
      have := (hT.lex.1 m (List.mem_of_getElem? hm)).2 _ (List.mem_of_getElem? h4)
      exact (this.2 (by simp)).1 rfl

theorem allocStack_ge (n : Nat) (st : List Entry) : n ≤ allocStack n st := by
  unfold allocStack; split <;> omega

theorem actOf_some {T : Tables} {C : Cert} (hT : TablesOk T C) {q a i : Nat} {sym : Option Nat}
    (hq : q < T.actions.length) (h : actOf T q sym = some (a, i)) :
    (a = 1 ∧ ItemOk T C q i (rhsOf T i).length) ∨
    (2 ≤ a ∧ a / 2 % 2 = 1 ∧ ∃ x, sym = some x ∧ (x, a, i) ∈ (T.actions[q]?).getD []) := by
  unfold actOf at h
  split at h
  · rename_i a' i' hb
    split at h
    · simp at h
    · simp at h; obtain ⟨rfl, rfl⟩ := h
      cases sym with
      | none => simp at hb
      | some x =>
        have hm := findRow_mem (by simpa using hb)
        rcases (hT.acts q hq _ hm).2 with h' | h' | h'
        · exact Or.inl ⟨h'.1, h'.2⟩
        · simp only at h'; exact Or.inr ⟨by omega, by omega, x, rfl, hm⟩
        · simp only at h'; exact Or.inr ⟨by omega, by omega, x, rfl, hm⟩
  · cases hd : (T.defProd[q]?).getD none with
    | none => simp [hd] at h
    | some p =>
      simp [hd] at h
      obtain ⟨rfl, rfl⟩ := h
      exact Or.inl ⟨rfl, hT.defs q hq _ hd⟩

/-- Reading a symbol. -/
theorem read_sim {T : Tables} {C : Cert} (hT : TablesOk T C)
    {s : St} {c : PC} {l : List WChar} (h : Sim T C s c l) (ha : ¬ s.act % 2 = 1) :
    ∃ o, readStep T false s = .ok o ∧ OutSim T C o (pstep T c) ∧
      (Chars c.text → (∀ s', o = .go s' → s'.stack.length ≤ s.stacksize) → l.length ≤ 127 →
        Spare T c.text →
        (readStep T true s = .ok o ∧ ∀ s', o = .go s' → s'.scan.buf.size ≤ 127) ∨
          (readStep T true s = .ub ∧ ∃ len sc, o = .reject len sc)) := by
  have hred : c.red = none := by rw [h.red, follow, if_neg ha]
  obtain ⟨q, hq⟩ := h.top hred
  have htop : topState s.stack = some q := by rw [topState_eq h.states, hq]
  have hql : q < T.actions.length := h.chain.state_lt hT htop
  obtain ⟨s1, l1, hg, hs1, hl1, hcap, hl127⟩ := getSym_is hT.lex (by rw [hT.nsel]; exact hql) h.scan
  have hps : pstep T c = preadStep T c := by simp only [pstep, hred]
  rw [hps]
  have hdel : ¬ s.errorDelay = 3 := by have := h.delay; omega
  obtain ⟨e, es, hstk⟩ : ∃ e es, s.stack = e :: es := by
    cases hss : s.stack with
    | nil => rw [hss] at htop; simp [topState] at htop
    | cons e es => exact ⟨e, es, rfl⟩
  have hes : Res.ofOption e.state = .ok q := by
    rw [hstk, topState_cons] at htop
    rw [htop]; rfl
  have hl1len : l1.length ≤ c.text.length := by
    rw [hs1.eq]; simp
  have hact := getAct_eq hT hql (lexPure T q c.text).1
  cases haa : actOf T q (lexPure T q c.text).1 with
  | none =>
    rw [haa] at hact
    refine ⟨.reject (lexPure T q c.text).2 s1, ?_, ?_, ?_⟩
    · simp only [readStep, nextSym, actStep, hstk, hes, Res.ok_bind, hdel, if_false, hg, hact]
      simp
    · have : preadStep T c = some .reject := by simp only [preadStep, hq, haa]
      rw [this]
      exact OutSim.reject hs1 hl1 hql rfl haa
    · intro _ _ _ _
      simp only [readStep, nextSym, actStep, hstk, hes, Res.ok_bind, hdel, if_false, hg, hact]
      by_cases hb : lexemSafe s1.buf.cells s1.buf.cap = false
      · right; simp [hb]
      · left; simp [hb]
  | some ai =>
    obtain ⟨a, i⟩ := ai
    rw [haa] at hact
    rcases actOf_some hT hql haa with ⟨ha1, hitem⟩ | ⟨ha2, ha3, x, hx, hmem⟩
    · -- reduce
      subst ha1
      let s' : St := { s with scan := s1, act := 1, idx := i, len := (lexPure T q c.text).2 }
      have hrun : ∀ b, readStep T b s = .ok (.go s') := by
        intro b
        simp only [readStep, nextSym, actStep, hstk, hes, Res.ok_bind, hdel, if_false, hg, hact]
        simp [s', hstk]
      refine ⟨.go s', hrun false, ?_, fun _ _ hl hsp => Or.inl ⟨hrun true, ?_⟩⟩
      rotate_left
      · intro s2 h2
        simp only [Out.go.injEq] at h2
        subst h2
        show s1.buf.size ≤ 127
        rw [hs1.buf.1]
        exact hl127 hl hsp
      have : preadStep T c = some (.go { c with red := some i }) := by
        simp only [preadStep, hq, haa]
        simp
      rw [this]
      refine OutSim.go (l := l1) ⟨h.chain, h.states, hs1, by simp [s', follow], ?_, by simp, hl1,
        h.delay, h.eof⟩
      intro p hp
      simp at hp; subst hp
      exact Ready.item hq hitem
    · -- shift
      obtain ⟨htok, hlen⟩ := lexPure_tok hT hx
      have hxlt : x < firstNT := lexTok_lt hT htok
      obtain ⟨info, hinfo⟩ : ∃ info, T.symbols[x]? = some info :=
        ⟨_, List.getElem?_eq_getElem (Nat.lt_of_lt_of_le hxlt hT.syms)⟩
      have hemit : info.emit = symEmit T x := by simp [symEmit, hinfo]
      have hlexeme : lexeme s1.buf (lexPure T q c.text).2
          = c.text.take (lexPure T q c.text).2 := by
        rw [lexeme_eq hs1.buf hl1, hs1.eq, List.take_append_of_le_length]
        rw [← hs1.eq]; exact hl1
      rw [hx] at hact
      generalize hn : (lexPure T q c.text).2 = n at *
      let t := PTree.leaf x (c.text.take n)
      let size := allocStack s.stacksize s.stack
      let new : Entry := { state := target a i, sym := some x
                           nodes := leafNodes info.emit (lexeme s1.buf n) }
      have hnext : ∃ s2 l2, dropSym false x n s1 = .ok s2 ∧
          ScanIs s2 l2 (c.text.drop n) ∧ (if x = 0 then n else 0) ≤ l2.length ∧
          l2.length ≤ l1.length ∧
          (l1.length ≤ 127 → dropSym true x n s1 = .ok s2) := by
        unfold dropSym
        rcases hlen with ⟨h0, h1, h2⟩ | ⟨h0, h1, h2⟩
        · refine ⟨s1, l1, by simp [h0], ?_, by rw [if_pos h0, h2]; omega,
            Nat.le_refl _, by simp [h0]⟩
          rw [h2, List.drop_zero]; exact hs1
        · obtain ⟨s2, hc1, hc2, hc3⟩ := clearInput_is hs1 h1 hl1
          refine ⟨s2, l1.drop n, by rw [if_neg h0, hc1], hc2, by rw [if_neg h0]; omega,
            by simp, ?_⟩
          intro htl
          rw [if_neg h0, hc3, if_neg]
          have : 129 ≤ s1.buf.cap := by
            rcases hs1.buf.2 with ⟨h', _⟩ | ⟨_, _, _, h'⟩
            · exact absurd h' hcap
            · unfold CapOk at h'; omega
          omega
      obtain ⟨s2, l2, hc1, hc2, hc3, hc5, hc4⟩ := hnext
      let s' : St := { stack := new :: s.stack, stacksize := size, scan := s2, act := a, idx := i
                       len := if x = 0 then n else 0, errorDelay := s.errorDelay - 1 }
      refine ⟨.go s', ?_, ?_, ?_⟩
      · simp only [readStep, nextSym, actStep, hstk, hes, Res.ok_bind, hdel, if_false, hg, hx, hact, ha3, if_true]
        simp only [shiftStep, checkCell, checkLexeme, hinfo, Res.ofOption_some, Res.ok_bind,
          Bool.false_eq_true, false_and, if_false, push_false, hc1]
        simp [s', new, size, target, hstk]
      · have : preadStep T c = some (.go { st := (target a i, t) :: c.st, red := follow a i, text := c.text.drop n }) := by
          simp only [preadStep, hq, haa, ha3, if_true]
          simp only [hx, hn]
          rfl
        rw [this]
        have hmem' : (t.root T, a, i) ∈ rowsOf T q := rows_mem.mpr (Or.inl hmem)
        obtain ⟨hn1, hn2⟩ := new_ready hT hq hql hmem' ha2
        refine OutSim.go (l := l2) ⟨?_, ?_, hc2, rfl, hn1, hn2, hc3, ?_, ?_⟩
        · simp only [List.map_cons]
          refine Chain.push (r := q) (act := a) (idx := i) h.chain htop hql hmem' ha2 rfl
            (PTree.Valid.leaf htok) ?_
          simp [new, t, PTree.own, hemit, hlexeme]
        · simp only [s', List.map_cons, new, List.cons_append, h.states]
        · have := h.delay
          show s.errorDelay - 1 < 3; omega
        · simp only [List.map_cons, PTree.hasEofs]
          intro hh
          rcases Bool.or_eq_true _ _ |>.mp hh with hh | hh
          · simp only [t, PTree.hasEof, beq_iff_eq] at hh
            rcases hlen with ⟨_, h1, _⟩ | ⟨h0, _⟩
            · rw [h1]; simp
            · exact absurd hh h0
          · rw [h.eof hh]; simp
      · intro hA hsz htl hsp
        left
        have hl1b := hl127 htl hsp
        refine ⟨?_, ?_⟩
        rotate_left
        · intro s3 h3
          simp only [Out.go.injEq] at h3
          subst h3
          show s2.buf.size ≤ 127
          rw [hc2.buf.1]
          omega
        have hck : checkCell true s1.buf n = .ok () := by
          apply checkCell_ok
          rcases hs1.buf.2 with ⟨h', _⟩ | ⟨_, _, _, h'⟩
          · exact absurd h' hcap
          · have := capOk_size h'
            have := hs1.buf.1
            omega
        have hlx : checkLexeme true info.emit (lexeme s1.buf n) = .ok () := by
          unfold checkLexeme
          rw [if_neg]
          rintro ⟨_, _, hnot⟩
          apply hnot
          rw [hlexeme, List.all_eq_true]
          intro y hy
          have h1 := lexTok_nonneg htok y hy
          have h2 := hA y (List.mem_of_mem_take hy)
          have h3 : 0 < y := Int.lt_iff_le_and_ne.mpr ⟨h1, Ne.symm h2.2⟩
          simp [h3, h2.1]
        have hpush : push true size new s.stack = .ok (new :: s.stack) := by
          apply push_ok
          exact Nat.lt_of_lt_of_le (hsz s' rfl) (allocStack_ge _ _)
        simp only [new, target, size, hstk] at hpush
        simp only [readStep, nextSym, actStep, hstk, hes, Res.ok_bind, hdel, if_false, hg, hx, hact, ha3, if_true]
        simp only [shiftStep, hck, hlx, hinfo, Res.ofOption_some, Res.ok_bind, hstk, hpush,
          hc4 hl1b]
        simp [s', new, size, target, hstk]

end Cnars.Parser
