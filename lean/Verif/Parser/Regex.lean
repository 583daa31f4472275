import Verif.Parser.LexLemmas

/-!
# Regular expressions

The terminals of `narsese.par` are given by regular expressions.  `Matches` is their meaning; the
rest is a checker that relates the state machines of the lexer to them (`machine_sound`), working
with partial derivatives.
-/

namespace Cnars.Parser

/-- Regular expressions over character classes; a class is a list of ranges. -/
inductive Rx where
  | eps
  | cls (ranges : List (Nat × Nat))
  | seq (a b : Rx)
  | alt (a b : Rx)
  | star (a : Rx)
  deriving DecidableEq

/-- The language of a regular expression. -/
inductive Rx.Matches : Rx → List WChar → Prop where
  | eps : Matches .eps []
  | cls {rs : List (Nat × Nat)} {lo hi n : Nat} : (lo, hi) ∈ rs → lo ≤ n → n ≤ hi →
      Matches (.cls rs) [(n : Int)]
  | seq {a b : Rx} {u v : List WChar} : Matches a u → Matches b v → Matches (.seq a b) (u ++ v)
  | altL {a b : Rx} {u : List WChar} : Matches a u → Matches (.alt a b) u
  | altR {a b : Rx} {u : List WChar} : Matches b u → Matches (.alt a b) u
  | starNil {a : Rx} : Matches (.star a) []
  | starCons {a : Rx} {u v : List WChar} : Matches a u → Matches (.star a) v →
      Matches (.star a) (u ++ v)

/-- Contains the empty text. -/
def Rx.nullable : Rx → Bool
  | .eps => true
  | .cls _ => false
  | .seq a b => a.nullable && b.nullable
  | .alt a b => a.nullable || b.nullable
  | .star _ => true

theorem Rx.nullable_sound : ∀ {r : Rx}, r.nullable = true → r.Matches []
  | .eps, _ => .eps
  | .cls _, h => by simp [nullable] at h
  | .seq a b, h => by
    simp only [nullable, Bool.and_eq_true] at h
    exact .seq (nullable_sound h.1) (nullable_sound h.2)
  | .alt a b, h => by
    simp only [nullable, Bool.or_eq_true] at h
    rcases h with h | h
    · exact .altL (nullable_sound h)
    · exact .altR (nullable_sound h)
  | .star _, _ => .starNil

/-- Sequence without superfluous `eps`. -/
def Rx.seq' (a b : Rx) : Rx := if a = .eps then b else .seq a b

theorem Rx.seq'_sound {a b : Rx} {w : List WChar} (h : (Rx.seq' a b).Matches w) :
    (Rx.seq a b).Matches w := by
  unfold seq' at h
  split at h
  · rename_i ha; subst ha; exact Rx.Matches.seq (u := []) .eps h
  · exact h

/-- Partial derivatives with respect to all characters of a range. -/
def Rx.pd (lo hi : Nat) : Rx → List Rx
  | .eps => []
  | .cls rs => if rs.any (fun x => decide (x.1 ≤ lo) && decide (hi ≤ x.2)) then [.eps] else []
  | .seq a b => (a.pd lo hi).map (fun x => Rx.seq' x b) ++ if a.nullable then b.pd lo hi else []
  | .alt a b => a.pd lo hi ++ b.pd lo hi
  | .star a => (a.pd lo hi).map (fun x => Rx.seq' x (.star a))

theorem Rx.pd_sound {lo hi n : Nat} (h1 : lo ≤ n) (h2 : n ≤ hi) :
    ∀ {r x : Rx} {v : List WChar}, x ∈ r.pd lo hi → x.Matches v → r.Matches ((n : Int) :: v)
  | .eps, x, v, hx, _ => by simp [pd] at hx
  | .cls rs, x, v, hx, hv => by
    simp only [pd] at hx
    split at hx
    · rename_i ha
      simp at hx; subst hx
      cases hv
      simp only [List.any_eq_true, Bool.and_eq_true, decide_eq_true_eq] at ha
      obtain ⟨⟨a, b⟩, hm, h3, h4⟩ := ha
      exact .cls hm (by simp only at h3; omega) (by simp only at h4; omega)
    · simp at hx
  | .seq a b, x, v, hx, hv => by
    simp only [pd, List.mem_append, List.mem_map] at hx
    rcases hx with ⟨y, hy, rfl⟩ | hx
    · have := Rx.seq'_sound hv
      cases this with
      | @seq _ _ u w hu hw =>
        exact Rx.Matches.seq (u := (n : Int) :: u) (pd_sound h1 h2 hy hu) hw
    · split at hx
      · rename_i hn
        exact Rx.Matches.seq (u := []) (Rx.nullable_sound hn) (pd_sound h1 h2 hx hv)
      · simp at hx
  | .alt a b, x, v, hx, hv => by
    simp only [pd, List.mem_append] at hx
    rcases hx with hx | hx
    · exact .altL (pd_sound h1 h2 hx hv)
    · exact .altR (pd_sound h1 h2 hx hv)
  | .star a, x, v, hx, hv => by
    simp only [pd, List.mem_map] at hx
    obtain ⟨y, hy, rfl⟩ := hx
    have := Rx.seq'_sound hv
    cases this with
    | @seq _ _ u w hu hw =>
      exact Rx.Matches.starCons (u := (n : Int) :: u) (pd_sound h1 h2 hy hu) hw

/-- `r` is the expression or what remains of it when optional beginnings are dropped. -/
def Rx.sub (r : Rx) : Rx → Bool
  | .seq a b => decide (r = .seq a b) || (a.nullable && r.sub b)
  | .alt a b => decide (r = .alt a b) || r.sub a || r.sub b
  | x => decide (r = x)

theorem Rx.sub_sound {r : Rx} {v : List WChar} (hv : r.Matches v) :
    ∀ {x : Rx}, r.sub x = true → x.Matches v
  | .seq a b, h => by
    simp only [sub, Bool.or_eq_true, decide_eq_true_eq, Bool.and_eq_true] at h
    rcases h with h | ⟨h1, h2⟩
    · exact h ▸ hv
    · exact Rx.Matches.seq (u := []) (Rx.nullable_sound h1) (sub_sound hv h2)
  | .alt a b, h => by
    simp only [sub, Bool.or_eq_true, decide_eq_true_eq] at h
    rcases h with (h | h) | h
    · exact h ▸ hv
    · exact .altL (sub_sound hv h)
    · exact .altR (sub_sound hv h)
  | .eps, h => by simp [sub] at h; exact h ▸ hv
  | .cls _, h => by simp [sub] at h; exact h ▸ hv
  | .star _, h => by simp [sub] at h; exact h ▸ hv

/-- What the texts accepted from each state of a machine look like: pairs of a symbol and (the index
of) an expression, per state. -/
abbrev MachineCert := List (List (Nat × Nat))

def MachineCert.at (c : MachineCert) (q : Nat) : List (Nat × Nat) := (c[q]?).getD []

/-- Look up an expression. -/
def rxAt (tab : List Rx) (i : Nat) : Rx := (tab[i]?).getD (.cls [])

/-- The finite check of one transition. -/
def edgeRx (tab : List Rx) (c : MachineCert) (q : Nat) (x : Nat × Nat × Nat) : Bool :=
  (c.at x.2.2).all fun y => (c.at q).any fun z => decide (z.1 = y.1) &&
    ((rxAt tab z.2).pd x.1 x.2.1).any (fun r => (rxAt tab y.2).sub r)

/-- The finite check of one state. -/
def stateRx (tab : List Rx) (c : MachineCert) (q : Nat) (st : List (Nat × Nat × Nat) × Nat) :
    Bool :=
  (decide (st.2 = 0) || (c.at q).any (fun z => decide (z.1 = st.2 - 1) &&
      (rxAt tab z.2).nullable)) &&
    st.1.all (edgeRx tab c q)

/-- The check of a machine against the expressions of the terminals. -/
def machineRx (tab : List Rx) (toks : List Rx) (c : MachineCert) (m : Machine) : Bool :=
  (c.at 0).all (fun z => match toks[z.1]? with
    | none => false
    | some r => (rxAt tab z.2).sub r) &&
  (List.range m.length).all fun q => match m[q]? with
    | none => true
    | some st => stateRx tab c q st

theorem stateRx_run {tab : List Rx} {c : MachineCert} {m : Machine}
    (h : ∀ q st, m[q]? = some st → stateRx tab c q st = true) :
    ∀ (w : List WChar) (q t s : Nat) (row : List (Nat × Nat × Nat)), dfaRun m q w = some t →
      m[t]? = some (row, s + 1) →
      ∃ i, (s, i) ∈ c.at q ∧ (rxAt tab i).Matches w
  | [], q, t, s, row, hr, ht => by
    simp only [dfaRun, Option.some.injEq] at hr
    subst hr
    have := h q _ ht
    simp only [stateRx, Bool.and_eq_true, Bool.or_eq_true, decide_eq_true_eq, List.any_eq_true] at this
    rcases this.1 with h' | ⟨z, hz, h1, h2⟩
    · simp at h'
    · refine ⟨z.2, ?_, Rx.nullable_sound h2⟩
      simp at h1
      rw [← h1]; exact hz
  | ch :: cs, q, t, s, row, hr, ht => by
    simp only [dfaRun] at hr
    cases hm : m[q]? with
    | none => simp [hm] at hr
    | some r =>
      simp only [hm] at hr
      cases htr : transition r.1 ch with
      | none => simp [htr] at hr
      | some u =>
        simp only [htr] at hr
        obtain ⟨lo, hi, h1, h2⟩ := transition_mem htr
        obtain ⟨i, hi1, hi2⟩ := stateRx_run h cs u t s row hr ht
        have hst := h q _ hm
        simp only [stateRx, Bool.and_eq_true, List.all_eq_true] at hst
        have he := hst.2 _ h1
        simp only [edgeRx, List.all_eq_true] at he
        have he' := he _ hi1
        simp only [List.any_eq_true, Bool.and_eq_true, decide_eq_true_eq] at he'
        obtain ⟨z, hz, hz1, x, hx, hsub⟩ := he'
        refine ⟨z.2, ?_, ?_⟩
        · rw [← hz1]; exact hz
        · unfold inRange at h2
          split at h2
          · rename_i n
            simp only [Bool.and_eq_true, decide_eq_true_eq] at h2
            exact Rx.pd_sound h2.1 h2.2 hx (Rx.sub_sound hi2 hsub)
          · simp at h2

/-- A checked machine accepts only texts of the terminal's expression. -/
theorem machine_sound {tab toks : List Rx} {c : MachineCert} {m : Machine}
    (h : machineRx tab toks c m = true) {s : Nat} {w : List WChar} (ha : Accepts m s w) :
    ∃ r, toks[s]? = some r ∧ r.Matches w := by
  simp only [machineRx, Bool.and_eq_true, List.all_eq_true] at h
  obtain ⟨t, row, hr, ht⟩ := ha
  have hs : ∀ q st, m[q]? = some st → stateRx tab c q st = true := by
    intro q st hq
    have hlt : q < m.length := by
      rcases Nat.lt_or_ge q m.length with h' | h'
      · exact h'
      · rw [List.getElem?_eq_none h'] at hq; simp at hq
    have := h.2 q (List.mem_range.mpr hlt)
    rw [hq] at this
    exact this
  obtain ⟨i, h1, h2⟩ := stateRx_run hs w 0 t s row hr ht
  have h3 := h.1 _ h1
  simp only at h3
  split at h3
  · simp at h3
  · rename_i r hr'
    exact ⟨r, hr', Rx.sub_sound h2 h3⟩

end Cnars.Parser
