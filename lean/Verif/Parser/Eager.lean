import Verif.Parser.Delay
import Verif.Parser.EbnfComplete

/-!
# Where the lexer always finds something

`skip_sym` (narsese.cpp:826-832) differs from `get_sym` only where the lexer finds nothing.  In the run over a line of Narsese
without tabs that does not happen.  To show it, the tables are changed so that a run in which the lexer finds nothing is given
up: no default productions, and all actions written out.  Helper lemmas.
-/

namespace Cnars.Parser
open Cnars

/-! ## The changed tables -/

/-- All actions of a state, default productions included. -/
def eagerRow (T : Tables) (q : Nat) : List (Nat × Nat × Nat) :=
  (List.range firstNT).filterMap fun s => (actOf T q (some s)).map fun x => (s, x.1, x.2)

/-- The tables without default productions. -/
def eager (T : Tables) : Tables :=
  { T with actions := (List.range T.actions.length).map (eagerRow T)
           defProd := [] }

theorem findRow_filterMap (f : Nat → Option (Nat × Nat)) (k : Nat) : ∀ l : List Nat,
    findRow (l.filterMap fun s => (f s).map fun x => (s, x.1, x.2)) k = if k ∈ l then f k else none
  | [] => rfl
  | s :: l => by
    have ih := findRow_filterMap f k l
    rw [List.filterMap_cons]
    cases hs : f s with
    | none =>
      simp only [Option.map_none]
      rw [ih]
      by_cases hk : k = s
      · subst hk; simp [hs]
      · simp [hk]
    | some x =>
      simp only [Option.map_some, findRow]
      by_cases hk : s = k
      · subst hk; simp [hs]
      · rw [if_neg hk, ih]
        have hk' : ¬ k = s := fun h => hk h.symm
        simp [hk']

theorem findRow_eager (T : Tables) (q k : Nat) :
    findRow (eagerRow T q) k = if k < firstNT then actOf T q (some k) else none := by
  unfold eagerRow
  rw [findRow_filterMap]
  simp

theorem actOf_ne {T : Tables} {q : Nat} {sym : Option Nat} {x : Nat × Nat} (h : actOf T q sym = some x) : x.1 ≠ 0 := by
  unfold actOf at h
  split at h
  · split at h
    · cases h
    · cases h; assumption
  · cases hd : (T.defProd[q]?).getD none with
    | none => rw [hd] at h; cases h
    | some p => rw [hd] at h; cases h; simp

theorem actions_eager {T : Tables} {q : Nat} (hq : q < T.actions.length) :
    ((eager T).actions[q]?).getD [] = eagerRow T q := by
  simp [eager, hq]

theorem actOf_eager {T : Tables} {q k : Nat} (hq : q < T.actions.length) (hk : k < firstNT) :
    actOf (eager T) q (some k) = actOf T q (some k) := by
  have h : actOf (eager T) q (some k) = match findRow (((eager T).actions[q]?).getD []) k with
    | some (a, i) => if a = 0 then none else some (a, i)
    | none => (((eager T).defProd[q]?).getD none).map fun p => (1, p) := rfl
  rw [h, actions_eager hq, findRow_eager, if_pos hk]
  cases ha : actOf T q (some k) with
  | none => rfl
  | some x =>
    obtain ⟨a, i⟩ := x
    have : a ≠ 0 := actOf_ne ha
    simp [this]

theorem actOf_eager_none {T : Tables} {q : Nat} : actOf (eager T) q none = none := rfl

/-! ## The certificate fits them too -/

theorem narsese_lookaheads : ((List.range 176).all fun q => (narseseItems.at_ q).all fun it =>
    Nat.ble (it.2.2.2 + 1) (2 ^ 60)) = true := by
  decide +kernel

theorem narsese_targets : ∀ q < narseseItems.items.length, ∀ x ∈ (narsese.actions[q]?).getD [] ++ (narsese.gos[q]?).getD [],
    x.2.1 = 2 → x.2.2 < narseseItems.items.length := by
  decide +kernel

theorem narsese_states : narseseItems.items.length = 176 ∧ narsese.actions.length = 176 ∧ goalSym = 59 ∧ firstNT = 59 := by
  decide +kernel

theorem lookahead_lt {q : Nat} (hq : q < narseseItems.items.length) {it : LItem} (hit : it ∈ narseseItems.at_ q) {s : Nat}
    (hs : it.2.2.2.testBit s = true) : s < 60 := by
  have h := List.all_eq_true.mp narsese_lookaheads q (List.mem_range.mpr (narsese_states.1 ▸ hq))
  have h := Nat.le_of_ble_eq_true (List.all_eq_true.mp h it hit)
  rcases Nat.lt_or_ge s 60 with h' | h'
  · exact h'
  · have : it.2.2.2 < 2 ^ s := Nat.lt_of_lt_of_le (by omega) (Nat.pow_le_pow_right (by omega) h')
    rw [Nat.testBit_lt_two_pow this] at hs
    cases hs

theorem lexPure_eager (T : Tables) (q : Nat) (text : List WChar) : lexPure (eager T) q text = lexPure T q text := rfl

theorem awaits_eager {T : Tables} {K : Items} {q s : Nat} (h : Awaits (eager T) K q s) : Awaits T K q s := h

theorem expects_eager {T : Tables} {K : Items} {q s x : Nat} (h : Expects (eager T) K q s x) : Expects T K q s x := h

theorem eager_fits {T : Tables} {K : Items} {q : Nat} (hqa : q < T.actions.length) {it : LItem}
    (hla : ∀ s, it.2.2.2.testBit s = true → s ≠ goalSym → s < firstNT)
    (h : ItemFits T K q it) : ItemFits (eager T) K q it := by
  refine ⟨fun X hX => ?_, fun hd s hs => ?_⟩
  · obtain ⟨h1, ⟨y, hy, h2⟩, h3⟩ := h.1 X hX
    refine ⟨h1, ⟨y, ?_, h2⟩, h3⟩
    by_cases hx : X < firstNT
    · have e : rowFor (eager T) q X = eagerRow T q := by
        unfold rowFor
        rw [if_pos hx, actions_eager hqa]
      rw [e, findRow_eager, if_pos hx]
      have hy' : findRow ((T.actions[q]?).getD []) X = some y := by
        unfold rowFor at hy
        rw [if_pos hx] at hy
        exact hy
      have hy0 : y.1 ≠ 0 := by rcases h2 with ⟨h, _⟩ | ⟨h, _⟩ <;> omega
      obtain ⟨a, i⟩ := y
      have : actOf T q (some X) = some (a, i) := by
        unfold actOf
        rw [Option.bind_some, hy']
        simp only
        rw [if_neg hy0]
      rw [this]
      rfl
    · unfold rowFor at hy ⊢
      rw [if_neg hx] at hy ⊢
      exact hy
  · obtain ⟨h1, h2⟩ := h.2 hd s hs
    exact ⟨h1, by rw [actOf_eager hqa (hla s hs h1)]; exact h2⟩

theorem eager_itemsOk {T : Tables} {K : Items} (h : ItemsOk T K) (hn : K.items.length ≤ T.actions.length)
    (hla : ∀ q < K.items.length, ∀ it ∈ K.at_ q, ∀ s, it.2.2.2.testBit s = true → s ≠ goalSym → s < firstNT) :
    ItemsOk (eager T) K where
  leaf := h.leaf
  null := h.null
  first := h.first
  start := h.start
  fits := fun q hq it hit => eager_fits (by omega) (hla q hq it hit) (h.fits q hq it hit)

theorem eager_targets {T : Tables} {n : Nat} (hn : n ≤ T.actions.length)
    (h : ∀ q < n, ∀ x ∈ (T.actions[q]?).getD [] ++ (T.gos[q]?).getD [], x.2.1 = 2 → x.2.2 < n) :
    ∀ q < n, ∀ x ∈ ((eager T).actions[q]?).getD [] ++ ((eager T).gos[q]?).getD [], x.2.1 = 2 → x.2.2 < n := by
  intro q hq x hx h2
  have hqa : q < T.actions.length := by omega
  rw [actions_eager hqa, List.mem_append] at hx
  rcases hx with hx | hx
  · unfold eagerRow at hx
    obtain ⟨s, _, hs⟩ := List.mem_filterMap.mp hx
    cases ha : actOf T q (some s) with
    | none => rw [ha] at hs; cases hs
    | some y =>
      rw [ha] at hs
      cases hs
      unfold actOf at ha
      rw [Option.bind_some] at ha
      split at ha
      · rename_i a i hf
        split at ha
        · cases ha
        · cases ha
          exact h q hq _ (List.mem_append.mpr (.inl (findRow_mem hf))) h2
      · cases hd : (T.defProd[q]?).getD none with
        | none => rw [hd] at ha; cases ha
        | some p => rw [hd] at ha; cases ha; simp at h2
  · exact h q hq x (List.mem_append.mpr (.inr hx)) h2

theorem eager_items : ItemsOk (eager narsese) narseseItems := by
  obtain ⟨n1, n2, n3, n4⟩ := narsese_states
  refine eager_itemsOk narsese_items (by omega) fun q hq it hit s hs hg => ?_
  have := lookahead_lt hq hit hs
  omega

/-! ## The lexer finds something before every token -/

/-- The machine, being in state `x.1` and having still to read a text of `x.2`, gets to pairs of the list again, and at the end
is in a state that accepts something. -/
def reachOk (m : Machine) (rel : List (Nat × Rx)) (x : Nat × Rx) : Bool :=
  match m[x.1]? with
  | none => false
  | some (row, a) =>
    (!x.2.nullable || !(Nat.beq a 0)) &&
    x.2.lf.all fun y => y.1.all fun z =>
      covers row (fun t => rel.any fun w => Nat.beq w.1 t && decide (w.2 = y.2)) z.1 z.2

/-- The check. -/
def foundOk (m : Machine) (r : Rx) : Bool :=
  let rel := explore m 200 [(0, r)] []
  (rel.any fun w => Nat.beq w.1 0 && decide (w.2 = r)) && rel.all (reachOk m rel)

theorem reachOk_run {m : Machine} {rel : List (Nat × Rx)} (h : ∀ x ∈ rel, reachOk m rel x = true) :
    ∀ (u : List WChar) (q : Nat) (r : Rx), (q, r) ∈ rel → r.Matches u →
      ∃ t row a, dfaRun m q u = some t ∧ m[t]? = some (row, a) ∧ 0 < a
  | [], q, r, hm, hr => by
    have := h _ hm
    unfold reachOk at this
    split at this
    · cases this
    · rename_i row a hq
      simp only [Bool.and_eq_true, Bool.or_eq_true, Rx.nullable_complete hr] at this
      rcases this.1 with h' | h1
      · cases h'
      · refine ⟨q, row, a, rfl, hq, ?_⟩
        rcases Nat.eq_zero_or_pos a with h0 | h0
        · subst h0; simp at h1
        · exact h0
  | c :: u, q, r, hm, hr => by
    have := h _ hm
    unfold reachOk at this
    split at this
    · cases this
    · rename_i row a hq
      rw [Bool.and_eq_true] at this
      obtain ⟨x, hx, h1, n, lo, hi, rfl, h2, h3, h4⟩ := Rx.lf_complete hr rfl
      have h5 := List.all_eq_true.mp (List.all_eq_true.mp this.2 x hx) _ h2
      obtain ⟨t, h6, h7⟩ := covers_sound h5 h3 h4
      obtain ⟨⟨w1, w2⟩, hw, h8⟩ := List.any_eq_true.mp h7
      rw [Bool.and_eq_true] at h8
      have h9 : w1 = t := Nat.eq_of_beq_eq_true h8.1
      have h10 : w2 = x.2 := of_decide_eq_true h8.2
      subst h9; subst h10
      obtain ⟨t', row', a', h11, h12⟩ := reachOk_run h u _ _ hw h1
      refine ⟨t', row', a', ?_, h12⟩
      unfold dfaRun
      simp only at hq
      rw [hq]
      simp only [h6, h11]

theorem foundOk_sound {m : Machine} {r : Rx} (h : foundOk m r = true) {u : List WChar} (hu : r.Matches u) :
    ∃ t row a, dfaRun m 0 u = some t ∧ m[t]? = some (row, a) ∧ 0 < a := by
  unfold foundOk at h
  simp only [Bool.and_eq_true, List.any_eq_true, decide_eq_true_eq] at h
  obtain ⟨⟨⟨w1, w2⟩, hw, h1, h2⟩, h3⟩ := h
  have h4 : w1 = 0 := Nat.eq_of_beq_eq_true h1
  have h2 : w2 = r := h2
  rw [h4, h2] at hw
  exact reachOk_run (List.all_eq_true.mp h3) u 0 r hw hu

theorem accepted_some {a len : Nat} {best : Option (Nat × Nat)} (h : best ≠ none) : accepted a len best ≠ none := by
  unfold accepted
  split
  · simp
  · exact h

theorem scanM_some {m : Machine} : ∀ (cs : List WChar) (q len : Nat) (best : Option (Nat × Nat)), best ≠ none →
    scanM m q cs len best ≠ none
  | [], _, _, _, h => h
  | c :: cs, q, len, best, h => by
    unfold scanM
    split
    · exact h
    · split
      · exact h
      · split
        · exact h
        · exact scanM_some cs _ _ _ (accepted_some h)

/-- A word that leads to an accepting state is enough. -/
theorem scanM_found {m : Machine} : ∀ (u rest : List WChar) (q len : Nat) (best : Option (Nat × Nat)) (t : Nat)
    (row : List (Nat × Nat × Nat)) (a : Nat), u ≠ [] → dfaRun m q u = some t → m[t]? = some (row, a) → 0 < a →
    scanM m q (u ++ rest) len best ≠ none
  | [], _, _, _, _, _, _, _, h, _, _, _ => absurd rfl h
  | c :: u, rest, q, len, best, t, row, a, _, hr, ht, ha => by
    unfold dfaRun at hr
    rw [List.cons_append]
    unfold scanM
    cases hq : m[q]? with
    | none => rw [hq] at hr; cases hr
    | some x =>
      rw [hq] at hr
      obtain ⟨rw', a'⟩ := x
      simp only at hr ⊢
      cases htr : transition rw' c with
      | none => rw [htr] at hr; cases hr
      | some t' =>
        rw [htr] at hr
        simp only at hr ⊢
        cases u with
        | nil =>
          simp only [dfaRun, Option.some.injEq] at hr
          subst hr
          rw [ht]
          simp only
          apply scanM_some
          simp [accepted, ha]
        | cons d u =>
          cases hm : m[t']? with
          | none =>
            unfold dfaRun at hr
            rw [hm] at hr
            cases hr
          | some y => exact scanM_found (d :: u) rest t' _ _ t row a (by simp) hr ht ha

theorem lexPure_found {q : Nat} {r : Rx} {m : Machine} (hm : machineOf q = some m) (hs : foundOk m r = true)
    {u rest : List WChar} (hu : u ≠ []) (hp : r.Matches u) : (lexPure narsese q (u ++ rest)).1 ≠ none := by
  obtain ⟨t, row, a, h1, h2, h3⟩ := foundOk_sound hs hp
  have hsc := scanM_found u rest 0 0 none t row a hu h1 h2 h3
  unfold machineOf at hm
  cases u with
  | nil => exact absurd rfl hu
  | cons c u =>
    rw [List.cons_append] at hsc ⊢
    unfold lexPure
    split at hm
    · rename_i k hk
      rw [hk]
      simp only [hm]
      split
      · simp
      · rename_i h; exact absurd h hsc
    · cases hm

theorem narsese_found : ((List.range 176).all fun q => (narseseItems.at_ q).all fun it =>
    !(Nat.beq it.2.2.1 (rhsOf narsese it.1).length) || (List.range 59).all fun s => Nat.beq s 0 || !(it.2.2.2.testBit s) ||
      match machineOf q with
      | none => false
      | some m => foundOk m (plainRx s)) = true := by
  decide +kernel

/-- Where something is to be reduced before a token, the lexer finds something. -/
theorem lex_found {q s : Nat} {u rest : List WChar} (hu : RxTok s u) (hs : s ≠ 0) (h9 : (9 : WChar) ∉ u)
    (he : Awaits narsese narseseItems q s) : (lexPure narsese q (u ++ rest)).1 ≠ none := by
  obtain ⟨hq, it, hit, hd, hla⟩ := he
  have h := List.all_eq_true.mp narsese_found q (List.mem_range.mpr (narsese_states.1 ▸ hq))
  have h := List.all_eq_true.mp h it hit
  rw [Bool.or_eq_true] at h
  rcases h with h | h
  · rw [hd] at h; simp at h
  · have h := List.all_eq_true.mp h s (List.mem_range.mpr hu.lt)
    simp only [Bool.or_eq_true, hla, Bool.not_true, Bool.false_eq_true, or_false] at h
    rcases h with h | h
    · exact absurd (Nat.eq_of_beq_eq_true h) hs
    · split at h
      · cases h
      · rename_i m hm
        exact lexPure_found hm h (hu.ne_nil hs) (hu.plain h9)

theorem eager_awaits {q s : Nat} {u : List WChar} {ws : List Tok}
    (ht : ∀ x ∈ (s, u) :: ws, RxTok x.1 x.2) (h9 : (9 : WChar) ∉ Tok.flat ((s, u) :: ws))
    (hch : Chained followTable ((s, u) :: ws)) (he' : Awaits narsese narseseItems q s) :
    actOf (eager narsese) q (lexPure narsese q (u ++ Tok.flat ws)).1 = actOf (eager narsese) q (some s) := by
  have hqa : q < narsese.actions.length := by have := narsese_states; have := he'.1; omega
  have hu : RxTok s u := ht (s, u) (by simp)
  have h := lex_awaits ht h9 hch he'
  cases hl : (lexPure narsese q (u ++ Tok.flat ws)).1 with
  | none =>
    exfalso
    by_cases hs : s = 0
    · subst hs
      rw [chained_end hch (fun x hx => ht x (by simp [hx])), hu.zero] at hl
      cases hl
    · refine lex_found hu hs ?_ he' hl
      intro h; exact h9 (by simp only [Tok.flat, List.flatMap_cons, List.mem_append]; exact .inl h)
  | some x =>
    have hx := lexTok_lt narsese_ok (lexPure_tok narsese_ok hl).1
    rw [actOf_eager hqa hx, actOf_eager hqa hu.lt, ← hl]
    exact h

theorem lexFits_eager : ∀ {ws : List Tok}, (∀ x ∈ ws, RxTok x.1 x.2) → (9 : WChar) ∉ Tok.flat ws →
    Chained followTable ws → LexFits (eager narsese) narseseItems ws
  | [], _, _, _ => trivial
  | (s, u) :: ws, ht, h9, hc =>
    ⟨fun _ he => by rw [lexPure_eager]; exact lex_expects ht h9 hc (expects_eager he),
      fun _ he => by rw [lexPure_eager]; exact eager_awaits ht h9 hc (awaits_eager he), lexFits_eager (fun x hx => ht x (by simp [hx]))
        (fun h => h9 (by simp only [Tok.flat, List.flatMap_cons, List.mem_append]; exact .inr h))
        hc.2⟩

theorem valid_eager {T : Tables} {tok : Nat → List WChar → Prop} {t : PTree} (hv : t.Valid T tok) : t.Valid (eager T) tok := by
  induction hv with
  | leaf h => exact .leaf h
  | @node p cs h1 h2 _ ih => exact .node (T := eager T) h1 h2 ih

theorem root_eager (T : Tables) (t : PTree) : t.root (eager T) = t.root T := by cases t <;> rfl

theorem lhs_eager {T : Tables} (h : ∀ p < T.prods.length, firstNT ≤ lhsOf T p) :
    ∀ p < (eager T).prods.length, firstNT ≤ lhsOf (eager T) p := h

/-- Also with the changed tables the tree is found. -/
theorem eager_accepts {t : PTree} (hv : t.Valid narsese RxTok) (hr : t.root narsese = goalSym)
    (hf : t.fits narseseItems 0 = true) (h9 : (9 : WChar) ∉ t.yield) :
    ∃ n, prun (eager narsese) n (PC.init t.yield) = some (.accept t) := by
  have hlt : ∀ s w, RxTok s w → s < firstNT := fun _ _ h => h.lt
  have h0 : 0 < narseseItems.items.length := by have := narsese_states; omega
  have hnt : ∀ p < narsese.prods.length, firstNT ≤ lhsOf narsese p := by decide +kernel
  have hn : narseseItems.items.length ≤ narsese.actions.length := by have := narsese_states; omega
  refine run_complete eager_items hlt (lhs_eager hnt) (eager_targets hn narsese_targets) h0
    (valid_eager hv) (by rw [root_eager]; exact hr) hf (lexFits_eager (valid_toks hv) (by rw [PTree.flat_toks]; exact h9) ?_)
  have := valid_chained narsese_items hlt narsese_followFits hv []
    (by rw [hr]; decide +kernel) trivial
  rwa [List.append_nil] at this

theorem isNarsese_eager {line : List WChar} {a : List Ast} (h : IsNarsese line a) (h9 : (9 : WChar) ∉ line) :
    ∃ n t, prun (eager narsese) n (PC.init line) = some (.accept t) := by
  obtain ⟨t, hv, hr, hy, hf⟩ := isNarsese_fitting h
  obtain ⟨n, hn⟩ := eager_accepts hv hr hf (by rw [hy]; exact h9)
  rw [hy] at hn
  exact ⟨n, t, hn⟩

/-! ## The value of `error_delay` makes no difference then -/

theorem getSym_skip {T : Tables} {strict : Bool} {q fuel x len : Nat} {s s' : Scan}
    (h : getSym T strict q s = .ok (some x, len, s')) : skipSym T strict q (fuel + 1) s = .ok (some x, len, s') := by
  rw [skipSym, h]
  rfl

/-- A step that is not given up with the changed tables. -/
theorem eager_step {T : Tables} {C : Cert} (hT : TablesOk T C) {s s0 : St} {c : PC} {l : List WChar}
    (h : Sim T C s0 c l) (hs : StRel s s0) {o : POut} (ho : pstep (eager T) c = some o) (hr : o ≠ .reject) (strict : Bool)
    (y : Nat) : pstep T c = some o ∧
      Res.Rel false (OutLike s.errorDelay y) (step T strict s) (step T strict { s with errorDelay := y }) := by
  obtain ⟨r1, r2, r3, r4, r5, r6, r7⟩ := hs
  by_cases ha : s.act % 2 = 1
  · refine ⟨?_, ?_⟩
    · have hred : c.red = some s0.idx := by rw [h.red, follow, if_pos (r4 ▸ ha)]
      unfold pstep at ho ⊢
      rw [hred] at ho ⊢
      exact ho
    · unfold step
      rw [if_pos ha, if_pos ha]
      exact reduceStep_like T strict s y
  · have hred : c.red = none := by rw [h.red, follow, if_neg (r4 ▸ ha)]
    obtain ⟨q, hq⟩ := h.top hred
    have htop : topState s0.stack = some q := by rw [topState_eq h.states, hq]
    have hql : q < T.actions.length := h.chain.state_lt hT htop
    obtain ⟨s1, l1, hg, _⟩ := getSym_is hT.lex (by rw [hT.nsel]; exact hql) h.scan
    have hps : pstep (eager T) c = preadStep (eager T) c := by simp only [pstep, hred]
    have hps' : pstep T c = preadStep T c := by simp only [pstep, hred]
    rw [hps] at ho
    rw [hps']
    unfold preadStep at ho ⊢
    simp only [hq, lexPure_eager] at ho ⊢
    have hg := hg strict
    cases hl : (lexPure T q c.text).1 with
    | none =>
      rw [hl, actOf_eager_none] at ho
      simp only [Option.some.injEq] at ho
      exact absurd ho.symm hr
    | some x =>
      have hx := lexTok_lt hT (lexPure_tok hT hl).1
      rw [hl, actOf_eager hql hx] at ho
      refine ⟨ho, ?_⟩
      rw [hl] at hg
      have hrel := getSym_rel (u := false) (b1 := strict) (b2 := strict) (.inl rfl) (T := T) q r3
      rw [hg] at hrel
      obtain ⟨s2, hg2⟩ : ∃ s2, getSym T strict q s.scan = .ok (some x, (lexPure T q c.text).2, s2) := by
        cases h3 : getSym T strict q s.scan with
        | ok z =>
          rw [h3] at hrel
          obtain ⟨z1, z2, z3⟩ := z
          obtain ⟨e1, e2, _⟩ := hrel
          simp only at e1 e2
          exact ⟨z3, by rw [e1, e2]⟩
        | throw m => rw [h3] at hrel; simp [Res.Rel] at hrel
        | ub => rw [h3] at hrel; simp [Res.Rel] at hrel
        | outOfFuel => rw [h3] at hrel; simp [Res.Rel] at hrel
      have hn : ∀ d, nextSym T strict q { s with errorDelay := d } = .ok (some x, (lexPure T q c.text).2, s2) := by
        intro d
        unfold nextSym
        split
        · exact getSym_skip hg2
        · exact hg2
      have hd : ∀ d, step T strict { s with errorDelay := d } = actStep T strict q { s with errorDelay := d } (some x)
          (lexPure T q c.text).2 s2 := by
        intro d
        unfold step
        rw [if_neg ha]
        unfold readStep
        simp only
        rw [← r1] at htop
        cases hstk : s.stack with
        | nil => rw [hstk] at htop; simp [topState] at htop
        | cons e es =>
          have hes : e.state = some q := by rw [hstk, topState_cons] at htop; exact htop
          have := hn d
          rw [hstk] at this
          simp only [hes, Res.ofOption_some, Res.ok_bind, this]
      rw [hd y]
      have h0 := hd s.errorDelay
      have hs : { s with errorDelay := s.errorDelay } = s := rfl
      rw [hs] at h0
      rw [h0]
      exact actStep_like T strict q s y (some x) _ s2

/-- A run that is accepted with the changed tables. -/
theorem eager_run {T : Tables} {C : Cert} {S : List Nat} (hT : TablesOk T C) (hS : EofOk T S) (strict : Bool) {t : PTree} :
    ∀ (fuel n : Nat) (s s0 : St) (c : PC) (l : List WChar) (y : Nat), Sim T C s0 c l → StRel s s0 →
      prun (eager T) n c = some (.accept t) → run T strict fuel { s with errorDelay := y } = run T strict fuel s
  | 0, _, _, _, _, _, _, _, _, _ => rfl
  | _ + 1, 0, _, _, _, _, _, _, _, h => by cases h
  | fuel + 1, n + 1, s, s0, c, l, y, hsim, hs, h => by
    cases hp : pstep (eager T) c with
    | none => rw [prun, hp] at h; cases h
    | some po =>
      have hpo : po ≠ .reject := by
        rintro rfl
        rw [prun, hp] at h
        cases h
      obtain ⟨h1, h2⟩ := eager_step hT hsim hs hp hpo strict y
      obtain ⟨o0, h3, h4, _⟩ := step_sim hT hS hsim
      have h5 : Res.Rel true OutRel (step T strict s) (step T false s0) := step_rel (by cases strict <;> simp [Flags]) hs
      rw [h3] at h5
      rw [h1] at h4
      rw [run, run]
      cases ha : step T strict s with
      | ok o =>
        cases hb : step T strict { s with errorDelay := y } with
        | ok o' =>
          rw [ha] at h5 h2
          rw [hb] at h2
          have h5 : OutRel o o0 := h5
          have h2 : OutLike s.errorDelay y o o' := h2
          simp only [Res.ok_bind]
          cases o with
          | go s1 =>
            cases o' with
            | go s2 =>
              cases o0 with
              | go s3 =>
                cases h4 with
                | @go _ c' l' h6 =>
                  rw [prun, hp] at h
                  have e : s2 = { s1 with errorDelay := s2.errorDelay } := by
                    have := h2.1
                    cases s1; cases s2; simp_all
                  have := eager_run hT hS strict fuel n s1 s3 c' l' s2.errorDelay h6 h5 h
                  rw [← e] at this
                  exact this
              | accept => exact h5.elim
              | reject => exact h5.elim
            | accept => exact h2.elim
            | reject => exact h2.elim
          | accept a1 c1 =>
            cases o' with
            | accept a2 c2 => obtain ⟨rfl, rfl⟩ := h2; rfl
            | go => exact h2.elim
            | reject => exact h2.elim
          | reject a1 c1 =>
            cases o' with
            | reject a2 c2 => obtain ⟨rfl, rfl⟩ := h2; rfl
            | go => exact h2.elim
            | accept => exact h2.elim
        | throw m => rw [ha, hb] at h2; simp [Res.Rel] at h2
        | ub => rw [ha, hb] at h2; simp [Res.Rel] at h2
        | outOfFuel => rw [ha, hb] at h2; simp [Res.Rel] at h2
      | ub =>
        rw [ha] at h2
        cases hb : step T strict { s with errorDelay := y } <;> rw [hb] at h2 <;> simp [Res.Rel] at h2
      | throw m => rw [ha] at h5; simp [Res.Rel] at h5
      | outOfFuel => rw [ha] at h5; simp [Res.Rel] at h5

/-- A line of Narsese without tabs is parsed in the same way whatever `error_delay` is. -/
theorem parseText_anyDelay {b : Buf} (hb : BufIs b []) {text : List WChar} {a : List Ast} (h : IsNarsese (firstLine text) a)
    (h9 : (9 : WChar) ∉ firstLine text) (strict : Bool) (fuel d : Nat) :
    parseText strict fuel b text d = parseText strict fuel b text 0 := by
  obtain ⟨n, t, hn⟩ := isNarsese_eager h h9
  have hsim : Sim narsese narseseCert (initSt ⟨b, fill text, false⟩ 0) (PC.init (firstLine text)) [] :=
    sim_init (by omega) (fill_is hb text)
  have := eager_run narsese_ok narsese_eof strict fuel n _ _ _ _ d hsim ⟨rfl, rfl, .refl _, rfl, rfl, rfl, rfl⟩ hn
  unfold parseText parse
  rw [← this]
  rfl

end Cnars.Parser
