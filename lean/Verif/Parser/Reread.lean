import Verif.Parser.Unparse
import Verif.Parser.Sugar
import Verif.Parser.Ranges
import Verif.Parser.Session
import Verif.Narsese.Steady
import Verif.Narsese.Heap
import Verif.Interp.WorldLemmas

/-!
# Reading a printed term

The actions for the syntax tree of a printed term make that term again.  Nothing of `/repo` is modelled
here.
-/

namespace Cnars.Parser
open Cnars Term Print

/-! ## What the caches of a good term are -/

theorem Good.atom_info {a : Word} {i : Info} (h : Good (.atom a i)) :
    i = leafInfo (atomHash a) i.isOperation := by
  generalize ht : Term.atom a i = t at h
  cases h <;> simp [mkAtom, mkOperation, mkInterval, mkVar, mkStmt, finishComp] at ht
  all_goals obtain ⟨rfl, rfl⟩ := ht; rfl

theorem Good.interval_info {n : Int} {i : Info} (h : Good (.interval n i)) :
    Term.interval n i = mkInterval n := by
  generalize ht : Term.interval n i = t at h
  cases h <;> simp [mkAtom, mkOperation, mkInterval, mkVar, mkStmt, finishComp] at ht
  obtain ⟨rfl, rfl⟩ := ht; rfl

theorem Good.var_info {k : VarKind} {x : String} {i : Info} (h : Good (.var k x i)) :
    Term.var k x i = mkVar k x (varIdx k i) := by
  generalize ht : Term.var k x i = t at h
  cases h <;> simp [mkAtom, mkOperation, mkInterval, mkVar, mkStmt, finishComp] at ht
  obtain ⟨rfl, rfl, rfl⟩ := ht
  rw [mkVar]
  congr 1
  cases k <;> rfl

theorem Good.stmt_info {s p : Term} {c : Copula} {i : Info} (h : Good (.stmt s c p i)) :
    Term.stmt s c p i = mkStmt s c p := by
  generalize ht : Term.stmt s c p i = t at h
  cases h <;> simp [mkAtom, mkOperation, mkInterval, mkVar, mkStmt, finishComp] at ht
  obtain ⟨rfl, rfl, rfl, rfl⟩ := ht; rfl

theorem Good.comp_info {ts : List Term} {c : Connector} {i : Info} (h : Good (.comp c ts i)) :
    Term.comp c ts i = finishComp c ts := by
  generalize ht : Term.comp c ts i = t at h
  cases h <;> simp [mkAtom, mkOperation, mkInterval, mkVar, mkStmt, finishComp] at ht
  obtain ⟨rfl, rfl, rfl⟩ := ht; rfl

/-! ## Hypotheses -/

/-- Forget the names of variables. -/
def blank : VarKind → String → String := fun _ _ => ""

/-- The name of a variable as it is printed. -/
def vname (k : VarKind) (m : Int) : String := k.symbol ++ String.ofList (Print.decimal m)

/-- The names in the dictionaries still denote the atoms of the term; intervals are numbers of type
`int`; variables have the numbers of their printed names in the lists; no copula is an abbreviation. -/
structure Known (w : World) (N : VarKind → List String) (t : Term) : Prop where
  held : ∀ a i, .atom a i ∈ leafTerms t → ∃ j ∈ w.dictH, ∃ n, w.atoms[j]? = some ⟨a, n, i.isOperation⟩ ∧
    (i.isOperation = true → ∀ v, n = "^" ++ v → w.store.checkByName v = true)
  interval : ∀ n i, .interval n i ∈ leafTerms t → n ≤ 2147483647
  var : ∀ k x i, .var k x i ∈ leafTerms t → ((N k).idxOf (vname k (varIdx k i)) : Int) = varIdx k i
  copula : ∀ c ∈ copulas t, c ≠ .instance ∧ c ≠ .property ∧ c ≠ .instanceProperty

theorem Known.mono {w : World} {N : VarKind → List String} {t u : Term} (h : Known w N t)
    (h1 : ∀ l ∈ leafTerms u, l ∈ leafTerms t) (h2 : ∀ c ∈ copulas u, c ∈ copulas t) : Known w N u :=
  ⟨fun a i hl => h.held a i (h1 _ hl), fun n i hl => h.interval n i (h1 _ hl),
    fun k x i hl => h.var k x i (h1 _ hl), fun c hc => h.copula c (h2 c hc)⟩

theorem Known.stmt {w : World} {N : VarKind → List String} {s p : Term} {c : Copula} {i : Info}
    (h : Known w N (.stmt s c p i)) : Known w N s ∧ Known w N p :=
  ⟨h.mono (fun l hl => by simp [leafTerms, hl]) (fun l hl => by simp [copulas, hl]),
    h.mono (fun l hl => by simp [leafTerms, hl]) (fun l hl => by simp [copulas, hl])⟩

theorem Known.comp {w : World} {N : VarKind → List String} {ts : List Term} {c : Connector} {i : Info}
    (h : Known w N (.comp c ts i)) : ∀ t ∈ ts, Known w N t := fun t ht =>
  h.mono (fun l hl => by rw [leafTerms, mem_leafTermsAll]; exact ⟨t, ht, hl⟩)
    (fun l hl => by rw [copulas, mem_copulasAll]; exact ⟨t, ht, hl⟩)

/-- Natural numbers of type `int` are read without rounding. -/
def ExactInts (M : Mach) : Prop :=
  ∀ n : Nat, n ≤ 2147483647 → M.erange n = false ∧ M.R.d n = n

/-- Only handles differ. -/
def OnlyHandles (w w' : World) : Prop := World.Tidy w' ∧ ∃ hs, w' = { w with handles := hs }

/-! ## Leaves -/

theorem OnlyHandles.lookup {w w' : World} (h : OnlyHandles w w') {j : Nat} (hj : j ∈ w.dictH) {a : Word}
    {n : String} {b : Bool} (ha : w.atoms[j]? = some ⟨a, n, b⟩) :
    w'.lookup n = .ok { w' with handles := w'.handles ++ [j] } ∧
      OnlyHandles w { w' with handles := w'.handles ++ [j] } ∧
      lastAtom { w' with handles := w'.handles ++ [j] } =
        .ok (if b then mkOperation a else mkAtom a) ∧ w'.store.checkByName n = true := by
  obtain ⟨ht, hs, rfl⟩ := h
  have hn : World.nameOf { w with handles := hs } j = some n := by simp [World.nameOf, ha]
  refine ⟨ht.lookup_ok hj hn, ⟨ht.add_handle ?_, _, rfl⟩, ?_, ?_⟩
  · intro t ht'
    rcases List.mem_append.mp ht' with h | h
    · exact ht.sub t h
    · obtain rfl := List.mem_singleton.mp h
      exact hj
  · simp [lastAtom, ha]
  · have := (ht.inv n _).2 ⟨j, hj, rfl, hn⟩
    change (Option.isSome _) = true
    rw [this]; rfl

theorem digits_toDigits (n : Nat) : Action.digits (Nat.toDigits 10 n) = n := by
  induction n using Nat.strongRecOn with
  | _ n ih =>
    by_cases h : n < 10
    · rw [Nat.toDigits_of_lt_base h]
      have : ∀ m : Fin 10, Action.digits [Nat.digitChar m] = m := by decide
      exact this ⟨n, h⟩
    · have e := Nat.toDigits_append_toDigits (b := 10) (n := n / 10) (d := n % 10) (by omega)
        (by omega) (Nat.mod_lt _ (by omega))
      have : 10 * (n / 10) + n % 10 = n := by omega
      rw [this] at e
      rw [← e, digits_append, ih (n / 10) (by omega), Nat.toDigits_of_lt_base (Nat.mod_lt _ (by omega))]
      have hd : ∀ m : Fin 10, Action.digits [Nat.digitChar m] = m := by decide
      have := hd ⟨n % 10, Nat.mod_lt _ (by omega)⟩
      simp only at this
      rw [this]
      simp only [List.length_singleton, Nat.pow_one]
      omega

theorem toDigits_ne (n : Nat) : Nat.toDigits 10 n ≠ [] := by
  intro h
  have := digits_toDigits n
  by_cases hn : n < 10
  · rw [Nat.toDigits_of_lt_base hn] at h; cases h
  · rw [h] at this
    simp [Action.digits] at this
    omega

theorem stod_nat {M : Mach} (hM : ExactInts M) {n : Nat} (hn : n ≤ 2147483647) :
    Action.stod M (Nat.toDigits 10 n) = .ok (n : ℚ) := by
  have h : Action.decimal (Nat.toDigits 10 n) = some (n : ℚ) := by
    rw [decimal_digits _ (toDigits_ne n), digits_toDigits]
    intro c hc
    have := digits_dec hc
    exact Nat.isDigit_of_mem_toDigits (by omega) (by omega) hc
  simp [Action.stod, h, hM n hn]

theorem toInt_nat {n : Nat} (hn : n ≤ 2147483647) : Action.toInt (n : ℚ) = .ok (n : Int) := by
  have h1 : (0 : ℚ) ≤ (n : ℚ) := Nat.cast_nonneg n
  have h2 : ⌊(n : ℚ)⌋ = (n : Int) := by simp
  unfold Action.toInt
  simp only [h1, if_true, h2]
  rw [if_pos (by omega)]

/-! ## The induction -/

/-- Reading back in a state. -/
def Rereads (M : Mach) (w : World) (N : VarKind → List String) (d : Map Key String) (t : Term) : Prop :=
  ∀ e : Env, OnlyHandles w e.world → (∀ k, seen (e.names k) ((synOf d t).vars k) <+: N k) →
    ∃ t' e', (synOf d t).eval M e = (.ok t', e') ∧ t'.relabel blank = t.relabel blank ∧
      OnlyHandles w e'.world ∧ (∀ k, e'.names k = seen (e.names k) ((synOf d t).vars k)) ∧
      e'.globals = e.globals

theorem rereads_all {M : Mach} {w : World} {N : VarKind → List String} {d : Map Key String} :
    ∀ {ts : List Term}, (∀ t ∈ ts, Rereads M w N d t) → ∀ e : Env, OnlyHandles w e.world →
    (∀ k, seen (e.names k) (Syn.varsAll k (synsOf d ts)) <+: N k) →
    ∃ ts' e', Syn.evalAll M (synsOf d ts) e = (.ok ts', e') ∧
      ts'.map (Term.relabel blank) = ts.map (Term.relabel blank) ∧
      OnlyHandles w e'.world ∧ (∀ k, e'.names k = seen (e.names k) (Syn.varsAll k (synsOf d ts))) ∧
      e'.globals = e.globals
  | [], _, e, hw, _ => ⟨[], e, by rw [synsOf, Syn.evalAll]; rfl, rfl, hw,
      fun k => by rw [synsOf, Syn.varsAll, seen_nil], rfl⟩
  | t :: ts, h, e, hw, hN => by
    have hN1 : ∀ k, seen (e.names k) ((synOf d t).vars k) <+: N k := fun k => by
      have := hN k
      rw [synsOf, Syn.varsAll, seen_append] at this
      exact (seen_prefix _ _).trans this
    obtain ⟨t', e1, h1, r1, w1, n1, g1⟩ := h t (by simp) e hw hN1
    obtain ⟨ts', e2, h2, r2, w2, n2, g2⟩ := rereads_all (ts := ts) (fun u hu => h u (by simp [hu])) e1 w1
      (fun k => by
        have := hN k
        rw [synsOf, Syn.varsAll, seen_append] at this
        rw [n1]; exact this)
    refine ⟨t' :: ts', e2, ?_, by simp [r1, r2], w2, fun k => ?_, by rw [g2, g1]⟩
    · rw [synsOf, Syn.evalAll, Act.bind_of_ok h1, Act.bind_of_ok h2]; rfl
    · rw [n2, n1, synsOf, Syn.varsAll, seen_append]

/-- The end of an action whose result has the atoms of the arguments. -/
theorem making_same {args : List Term} {r : Res Term} {t : Term} (h : r = .ok t)
    (ha : (addrsAll args).Perm (addrs t)) (e : Env) : makingTerm args r e = (.ok t, e) := by
  rw [makingTerm_of_ok h, Act.bind_of_ok (settle_none (diff_nil_of_perm ha) e)]
  rfl

theorem addrs_of_relabel {t u : Term} (h : t.relabel blank = u.relabel blank) : addrs t = addrs u := by
  rw [← addrs_relabel blank t, h, addrs_relabel]

theorem addrsAll_of_relabel {ts us : List Term}
    (h : ts.map (Term.relabel blank) = us.map (Term.relabel blank)) : addrsAll ts = addrsAll us := by
  rw [← addrsAll_relabel blank ts, relabelAll_eq, h, ← relabelAll_eq, addrsAll_relabel]

theorem rereads {M : Mach} (hord : ∀ l, (M.ord l).Perm l) (hM : ExactInts M) {w : World}
    (hw0 : World.Tidy w) {N : VarKind → List String} {t : Term} (h : Legible w.store.dict t) (g : Good t)
    (st : Steady t) (rd : Known w N t) : Rereads M w N w.store.dict t := by
  -- the name in the dictionary is the one the atom was made under
  have names : ∀ {a i n j m}, Good (.atom a i) → w.store.dict (keyOf i.hash) = some n → j ∈ w.dictH →
      w.atoms[j]? = some ⟨a, m, i.isOperation⟩ → n = m := by
    intro a i n j m g hn hj ha
    have hk : w.key j = keyOf i.hash := by
      simp only [World.key, ha]
      rw [Good.atom_info g]; rfl
    have : w.nameOf j = some m := by simp [World.nameOf, ha]
    have := (hw0.dict (keyOf i.hash) m).2 ⟨j, hj, hk, this⟩
    rw [hn] at this
    exact Option.some.inj this
  induction h with
  | @name a i n hi hn hword =>
    intro e hw hN
    obtain ⟨j, hj, m, ha, _⟩ := rd.held a i (by simp [leafTerms])
    obtain rfl := names g hn hj ha
    obtain ⟨h1, h2, h3, h4⟩ := hw.lookup hj ha
    rw [synOf, if_neg (by simp [hi]), label_name hn] at *
    refine ⟨.atom a i, { e with world := { e.world with handles := e.world.handles ++ [j] } }, ?_, rfl, h2,
      fun k => by rw [Syn.vars, seen_nil], rfl⟩
    rw [Syn.eval]
    have hc : e.world.create (String.ofList n.toList) (M.addr e.world) =
        .ok { e.world with handles := e.world.handles ++ [j] } := by
      rw [World.create, String.ofList_toList, h4, if_pos rfl, h1]
    have : Act.onWorld (fun w => w.create (String.ofList n.toList) (M.addr w)) e =
        (.ok (), { e with world := { e.world with handles := e.world.handles ++ [j] } }) := by
      unfold Act.onWorld; simp only; rw [hc]
    rw [Act.bind_of_ok this]
    simp only [lastTerm, h3]
    rw [Good.atom_info g, hi]
    rfl
  | @op a i n v hi hn hv hword =>
    intro e hw hN
    obtain ⟨j, hj, m, ha, hop⟩ := rd.held a i (by simp [leafTerms])
    obtain rfl := names g hn hj ha
    obtain ⟨h1, h2, h3, h4⟩ := hw.lookup hj ha
    have hnv : n = "^" ++ String.ofList v := by
      apply String.toList_injective
      simp [hv]
    rw [synOf, if_pos hi, label_name hn, hv, List.tail_cons] at *
    refine ⟨.atom a i, { e with world := { e.world with handles := e.world.handles ++ [j] } }, ?_, rfl, h2,
      fun k => by rw [Syn.vars, seen_nil], rfl⟩
    rw [Syn.eval]
    have hc : e.world.operation (String.ofList v) (M.addr e.world) =
        .ok { e.world with handles := e.world.handles ++ [j] } := by
      have hb : e.world.store.checkByName (String.ofList v) = true := by
        obtain ⟨_, hs, hws⟩ := hw
        rw [hws]
        exact hop hi _ hnv
      rw [World.operation, hb, if_pos rfl, ← hnv, h1]
    have : Act.onWorld (fun w => w.operation (String.ofList v) (M.addr w)) e =
        (.ok (), { e with world := { e.world with handles := e.world.handles ++ [j] } }) := by
      unfold Act.onWorld; simp only; rw [hc]
    rw [Action.theOperation, Act.bind_of_ok this]
    simp only [lastTerm, h3]
    rw [Good.atom_info g, hi]
    rfl
  | @interval n i =>
    intro e hw hN
    have hb := rd.interval n i (by simp [leafTerms])
    have hd : (signed n).tail = Nat.toDigits 10 n := by simp [signed]
    refine ⟨mkInterval n, e, ?_, by rw [Good.interval_info g], hw,
      fun k => by rw [synOf, Syn.vars, seen_nil], rfl⟩
    rw [synOf, Syn.eval, hd, stod_nat hM (by omega)]
    rw [Act.bind_of_ok (show Act.lift (.ok (n : ℚ)) e = (.ok (n : ℚ), e) from rfl), toInt_nat (by omega)]
    rfl
  | @var k x i m hm =>
    intro e hw hN
    have hb := rd.var k x i (by simp [leafTerms])
    have hv : varIdx k i = m := by simp [varIdx, hm]
    have ev : (Syn.eval M (synOf w.store.dict (.var k x i)) e) =
        (.ok (mkVar k (vname k m) ((seen (e.names k) [vname k m]).idxOf (vname k m))),
          { e with names := fun k' => if k' = k then seen (e.names k) [vname k m] else e.names k' }) := by
      rw [synOf, Syn.eval, hv]
      rfl
    have hvars : ∀ k', (synOf w.store.dict (.var k x i)).vars k' = if k = k' then [vname k m] else [] := by
      intro k'
      rw [synOf, Syn.vars, hv]
      split
      · rename_i hk; subst hk; rfl
      · rfl
    have hidx : ((seen (e.names k) [vname k m]).idxOf (vname k m) : Int) = m := by
      have := hN k
      rw [hvars, if_pos rfl] at this
      rw [← idxOf_prefix this (mem_seen.mpr (.inr (by simp)))]
      rw [hv] at hb
      exact hb
    refine ⟨_, _, ev, ?_, hw, ?_, rfl⟩
    · rw [hidx, Good.var_info g, hv]
      rfl
    · intro k'
      rw [hvars]
      by_cases hk : k = k'
      · subst hk; simp
      · have : ¬ k' = k := fun h => hk h.symm
        simp [hk, this, seen_nil]
  | @stmt s p c i hop hs hp ihs ihp =>
    obtain ⟨gs, gp⟩ := g.stmt_inv
    cases st with
    | stmt _ _ ss sp =>
      obtain ⟨rs, rp⟩ := rd.stmt
      intro e hw hN
      have hvars : ∀ k, (synOf w.store.dict (.stmt s c p i)).vars k =
          (synOf w.store.dict s).vars k ++ (synOf w.store.dict p).vars k := by
        intro k; rw [synOf, hop]; simp [Syn.vars]
      obtain ⟨s', e1, h1, r1, w1, n1, g1⟩ := ihs gs ss rs e hw (fun k => by
        have := hN k
        rw [hvars, seen_append] at this
        exact (seen_prefix _ _).trans this)
      obtain ⟨p', e2, h2, r2, w2, n2, g2⟩ := ihp gp sp rp e1 w1 (fun k => by
        have := hN k
        rw [hvars, seen_append, ← n1] at this
        exact this)
      have hns : Action.newStatement M s' c p' = .ok (mkStmt s' c p') := by
        obtain ⟨c1, c2, c3⟩ := rd.copula c (by simp [copulas])
        unfold Action.newStatement
        split <;> first | contradiction | exact newStmt_input _ _ _
      refine ⟨mkStmt s' c p', e2, ?_, ?_, w2, fun k => by rw [n2, n1, hvars, seen_append], by rw [g2, g1]⟩
      · rw [synOf, hop]
        simp only [Bool.false_eq_true, if_false]
        rw [Syn.eval, Act.bind_of_ok h1, Act.bind_of_ok h2]
        refine making_same hns ?_ e2
        rw [addrs_mkStmt, addrsAll_two]
      · rw [Good.stmt_info g, ← mkStmt_relabel, ← mkStmt_relabel, r1, r2]
  | @opStmt ts a i j k hop hne hts hp ih ihp =>
    obtain ⟨gs, gp⟩ := g.stmt_inv
    cases st with
    | stmt _ _ ss sp =>
      obtain ⟨rs, rp⟩ := rd.stmt
      cases ss with
      | comp _ _ sts _ _ =>
        intro e hw hN
        have hsyn : synOf w.store.dict (.stmt (.comp .product ts j) .inheritance (.atom a k) i) =
            .call (synOf w.store.dict (.atom a k)) (synsOf w.store.dict ts) := by
          have ho : operational (.atom a k) = true := hop
          conv => lhs; rw [synOf, if_pos ho, synArgs]
        rw [hsyn] at hN ⊢
        obtain ⟨f', e1, h1, r1, w1, n1, g1⟩ := ihp gp sp rp e hw (fun k => by
          have := hN k
          rw [Syn.vars, seen_append] at this
          exact (seen_prefix _ _).trans this)
        obtain ⟨ts', e2, h2, r2, w2, n2, g2⟩ := rereads_all
          (fun t ht => ih t ht (gs.comp_inv.1 t ht) (sts t ht) (rs.comp t ht)) e1 w1 (fun k => by
            have := hN k
            rw [Syn.vars, seen_append, ← n1] at this
            exact this)
        have hno : Action.newOperation M f' ts' =
            .ok (mkStmt (finishComp .product ts') .inheritance f') := by
          simp [Action.newOperation, product_true, newStmt_input]
        refine ⟨mkStmt (finishComp .product ts') .inheritance f', e2, ?_, ?_, w2,
          fun k => by rw [n2, n1, Syn.vars, seen_append], by rw [g2, g1]⟩
        · rw [Syn.eval, Act.bind_of_ok h1, Act.bind_of_ok h2]
          refine making_same hno ?_ e2
          rw [addrs_mkStmt, addrsAll]
          simp only [finishComp, addrs]
          exact List.perm_append_comm
        · rw [Good.stmt_info g, ← mkStmt_relabel, ← mkStmt_relabel, r1, ← finishComp_relabel, r2,
            finishComp_relabel, Good.comp_info gs]
  | @comp ts c i hn hts ih =>
    cases st with
    | comp _ _ sts h1 h2 =>
      have st : Steady (.comp c ts i) := .comp c i sts h1 h2
      intro e hw hN
      have hsyn : synOf w.store.dict (.comp c ts i) = .comp c (synsOf w.store.dict ts) := by rw [synOf]
      rw [hsyn] at hN ⊢
      obtain ⟨ts', e2, h2, r2, w2, n2, g2⟩ := rereads_all
        (fun t ht => ih t ht (g.comp_inv.1 t ht) (sts t ht) (rd.comp t ht)) e hw
        (fun k => by have := hN k; rw [Syn.vars] at this; exact this)
      have hmk : ∃ t', mkComp M.ord c ts' true = .ok t' ∧ t'.relabel blank = (Term.comp c ts i).relabel blank := by
        have e1 := mkComp_relabel blank M.ord c ts' true
        rw [r2, mkComp_relabel, st.mkComp g hord] at e1
        exact Res.map_eq_ok.mp e1.symm
      obtain ⟨t', hmk, hr⟩ := hmk
      refine ⟨t', e2, ?_, hr, w2, fun k => by rw [n2, Syn.vars], g2⟩
      rw [Syn.eval, Act.bind_of_ok h2]
      refine making_same hmk ?_ e2
      rw [addrsAll_of_relabel r2, addrs_of_relabel hr, addrs]

/-! ## Numbers of variables -/

/-- The numbers of the variables of a kind, in the order in which they are printed. -/
def varNums (k : VarKind) (t : Term) : List Int :=
  (leafTerms t).filterMap fun l =>
    match l with
    | .var k' _ i => if k' = k then some (varIdx k i) else none
    | _ => none

/-- Variables of every kind are numbered in the order of their first occurrence. -/
def InOrder (t : Term) : Prop := ∀ k, ∃ n : Nat, (varNums k t).eraseDups = (List.range n).map Int.ofNat

theorem varNums_all {d : Map Key String} {k : VarKind} : ∀ {ts : List Term},
    (∀ t ∈ ts, (synOf d t).vars k = (varNums k t).map (vname k)) → ∀ {c i},
    Syn.varsAll k (synsOf d ts) = (varNums k (.comp c ts i)).map (vname k)
  | [], _, _, _ => rfl
  | t :: ts, h, c, i => by
    have ih := varNums_all (ts := ts) (fun u hu => h u (by simp [hu])) (c := c) (i := i)
    rw [synsOf, Syn.varsAll, h t (by simp), ih]
    simp [varNums, leafTerms, leafTermsAll]

theorem vars_synOf {d : Map Key String} {t : Term} (h : Legible d t) (k : VarKind) :
    (synOf d t).vars k = (varNums k t).map (vname k) := by
  induction h with
  | @name a i n hi hn hw => rw [synOf, if_neg (by simp [hi]), Syn.vars]; simp [varNums, leafTerms]
  | @op a i n v hi hn hv hw => rw [synOf, if_pos hi, Syn.vars]; simp [varNums, leafTerms]
  | interval => rw [synOf, Syn.vars]; simp [varNums, leafTerms]
  | @var k' x i m hm =>
    rw [synOf, Syn.vars]
    by_cases hk : k' = k
    · subst hk; simp [varNums, leafTerms, vname]
    · simp [varNums, leafTerms, hk]
  | @stmt s p c i hop hs hp ihs ihp =>
    rw [synOf, if_neg (by simp [hop]), Syn.vars, ihs, ihp]
    simp [varNums, leafTerms]
  | @opStmt ts a i j k' hop hne hts hp ih ihp =>
    have ho : operational (.atom a k') = true := hop
    rw [synOf, if_pos ho, Syn.vars, ihp, synArgs, varNums_all ih (c := .product) (i := j)]
    simp [varNums, leafTerms]
  | @comp ts c i hn hts ih =>
    rw [synOf, Syn.vars, varNums_all ih (c := c) (i := i)]

theorem vname_inj {k : VarKind} {m n : Int} (h : vname k m = vname k n) : m = n := by
  have h1 := congrArg String.toList h
  simp only [vname, String.toList_append, String.toList_ofList, List.append_cancel_left_eq] at h1
  exact decimal_inj h1

theorem eraseDups_map {α β : Type} [BEq α] [LawfulBEq α] [BEq β] [LawfulBEq β] {f : α → β}
    (hf : ∀ x y, f x = f y → x = y) : ∀ (n : Nat) (l : List α), l.length ≤ n →
    (l.map f).eraseDups = l.eraseDups.map f
  | _, [], _ => by simp
  | 0, a :: l, h => by simp at h
  | n + 1, a :: l, h => by
    have hl : (l.filter fun b => !b == a).length ≤ n :=
      Nat.le_trans (List.length_filter_le _ _) (by simpa using h)
    rw [List.map_cons, List.eraseDups_cons, List.eraseDups_cons, List.map_cons, List.filter_map,
      ← eraseDups_map hf n _ hl]
    congr 4
    funext x
    by_cases hx : x = a
    · simp [hx]
    · have : ¬ f x = f a := fun h => hx (hf _ _ h)
      simp [hx, this]

theorem idxOf_vname {k : VarKind} {n m : Nat} (h : m < n) :
    (((List.range n).map Int.ofNat).map (vname k)).idxOf (vname k m) = m := by
  have hnd : (((List.range n).map Int.ofNat).map (vname k)).Nodup := by
    refine List.Nodup.map (fun _ _ h => vname_inj h) (List.Nodup.map (fun _ _ h => Int.ofNat.inj h) ?_)
    exact List.nodup_range
  have hlt : m < (((List.range n).map Int.ofNat).map (vname k)).length := by simpa using h
  have he : (((List.range n).map Int.ofNat).map (vname k))[m] = vname k m := by simp
  rw [← he]
  exact hnd.idxOf_getElem m hlt

/-- Canonical numbers are those of the printed names. -/
theorem InOrder.idx {d : Map Key String} {t : Term} (h : InOrder t) (hl : Legible d t) {k : VarKind}
    {x : String} {i : Info} (hx : Term.var k x i ∈ leafTerms t) :
    ((seen [] ((synOf d t).vars k)).idxOf (vname k (varIdx k i)) : Int) = varIdx k i := by
  obtain ⟨n, hn⟩ := h k
  have hs : seen [] ((synOf d t).vars k) = ((List.range n).map Int.ofNat).map (vname k) := by
    rw [seen_eq, vars_synOf hl k]
    simp only [List.not_mem_nil, not_false_eq_true, decide_true, List.filter_true, List.nil_append]
    rw [eraseDups_map (fun _ _ h => vname_inj h) _ _ (Nat.le_refl _), hn]
  have hm : varIdx k i ∈ (varNums k t).eraseDups := by
    rw [List.mem_eraseDups]
    simp only [varNums, List.mem_filterMap]
    exact ⟨_, hx, by simp⟩
  rw [hn] at hm
  obtain ⟨m, hm, e⟩ := List.mem_map.mp hm
  rw [← e, hs]
  exact congrArg Int.ofNat (idxOf_vname (k := k) (List.mem_range.mp hm))

/-! ## The task -/

theorem judgement_task {M : Mach} {t : Syn} {u : Term} {e e1 : Env} (h : t.eval M e = (.ok u, e1)) :
    ∃ tk e2, evalTaskPart M none .judgement t [] e = (.ok (.task tk), e2) ∧ tk.sentence.term = u ∧
      tk.sentence.punct = .judgement ∧ e2.world = e1.world := by
  have hs : ∃ s e2, evalSentence M .judgement t [] e = (.ok (.sentence s), e2) ∧ s.term = u ∧
      s.punct = .judgement ∧ s.truth ≠ none ∧ e2.world = e1.world := by
    rw [evalSentence, Act.bind_of_ok h]
    exact ⟨_, _, rfl, rfl, rfl, by simp [Sentence.judgement], rfl⟩
  obtain ⟨s, e2, h1, h2, h3, h4, h5⟩ := hs
  have hb : ∀ b, ∃ b', Action.finishBudget M b s = .ok b' := by
    intro b
    cases ht : s.truth with
    | none => exact absurd ht h4
    | some tr =>
      unfold Action.finishBudget
      rw [h3]
      simp only [ht, Res.ofOption]
      split
      · exact ⟨_, rfl⟩
      · exact ⟨_, rfl⟩
  obtain ⟨b', hb⟩ := hb ⟨M.cfg.priority, M.cfg.durability, M.cfg.quality⟩
  refine ⟨⟨b', s⟩, e2, ?_, h2, h3, h5⟩
  rw [evalTaskPart, Act.bind_of_ok h1]
  simp only [Action.task, Option.getD_some, hb]
  rfl

/-- A printed term, read. -/
theorem reread_task {M : Mach} (hord : ∀ l, (M.ord l).Perm l) (hM : ExactInts M) {s : Session}
    (hw : World.Tidy s.env.world) {t : Term} (hl : Legible s.env.world.store.dict t) (hv : Sayable t)
    (g : Good t) (st : Steady t) (ho : InOrder t)
    (rd : ∀ N, (∀ k x i, .var k x i ∈ leafTerms t →
      ((N k).idxOf (vname k (varIdx k i)) : Int) = varIdx k i) → Known s.env.world N t)
    {strict : Bool} {fuel d : Nat} {scan : Scan}
    (hp : parseText strict fuel s.buf (codes ((treeOf s.env.world.store.dict t).text ++ ['.'])) d =
      .ok ⟨some (astLine s.env.world.store.dict t), 0, scan⟩) (bad : Act Val) :
    ∃ tk s', parseTask M bad strict fuel d s (codes ((treeOf s.env.world.store.dict t).text ++ ['.'])) =
        (.ok (some tk), s') ∧ tk.sentence.punct = .judgement ∧
      tk.sentence.term.relabel blank = t.relabel blank ∧ OnlyHandles s.env.world s'.env.world := by
  have hr := rereads hord hM hw hl g st (rd (fun k => seen [] ((synOf s.env.world.store.dict t).vars k))
    (fun k x i hx => ho.idx hl hx)) s.env.clearNames ⟨hw, _, rfl⟩ (fun k => List.prefix_rfl)
  obtain ⟨t', e1, h1, h2, h3, _, _⟩ := hr
  obtain ⟨tk, e2, h4, h5, h6, h7⟩ := judgement_task h1
  obtain ⟨b, p, t0, ms, h8, h9⟩ := evalTask_part (isNarsese_printed hl hv)
  rw [part_line hl] at h8
  simp only [Option.some.injEq, List.cons.injEq, Part.task.injEq, and_true] at h8
  obtain ⟨rfl, rfl, rfl, rfl⟩ := h8
  have hev : evalTask M bad (astLine s.env.world.store.dict t) s.env.clearNames = (.ok tk, e2) := by
    rw [h9, Act.bind_of_ok h4]
    rfl
  refine ⟨tk, ⟨scan.buf, .null, e2⟩, ?_, h6, by rw [h5, h2], by rw [h7]; exact h3⟩
  unfold parseTask
  rw [hp]
  simp only [Member.after, hev]

end Cnars.Parser
