import Verif.Parser.Run

/-!
# Every parse tree is found

The converse of what `Run.lean` shows: given LR(1) items that fit the tables, the automaton accepts
the text of a parse tree, with that tree, provided that in every state the lexer finds the next token
of the tree.  Where the grammar is ambiguous, tags say which trees are meant: `kids p g` gives the
tags of the children of a node with production `p` and tag `g`, or nothing if `p` is not meant there.
Helper lemmas.
-/

namespace Cnars.Parser

/-- An LR(1) item: production, tag, position of the dot, symbols that may follow.  Sets of symbols are
bit masks. -/
abbrev LItem := Nat × Nat × Nat × Nat

/-- The certificate. -/
structure Items where
  items : List (List LItem)
  null : List Bool
  first : List Nat
  kids : Nat → Nat → Option (List Nat)

namespace Items

def at_ (K : Items) (q : Nat) : List LItem := (K.items[q]?).getD []
def nul (K : Items) (X : Nat) : Bool := (K.null[X]?).getD false
def fst (K : Items) (X : Nat) : Nat := (K.first[X]?).getD 0

/-- What can follow at the beginning of a sequence of symbols. -/
def firsts (K : Items) : List Nat → Nat → Nat
  | [], la => la
  | X :: Xs, la => K.fst X ||| if K.nul X then K.firsts Xs la else 0

/-- The tag of a child. -/
def kid (K : Items) (p g d : Nat) : Nat := (((K.kids p g).getD [])[d]?).getD 0

end Items

/-- The row of a symbol. -/
def rowFor (T : Tables) (q X : Nat) : List (Nat × Nat × Nat) :=
  if X < firstNT then (T.actions[q]?).getD [] else (T.gos[q]?).getD []

/-- An item fits: what the dot can be moved over leads to a state with the item moved on (or reduces
at once), what can begin at the dot has its items, and at the end the production is reduced. -/
def ItemFits (T : Tables) (K : Items) (q : Nat) (it : LItem) : Prop :=
  (∀ X ∈ (rhsOf T it.1)[it.2.2.1]?, X ≠ goalSym ∧
    (∃ y ∈ (findRow (rowFor T q X) X),
      (y.1 = 2 ∧ ∃ j ∈ K.at_ y.2, j.1 = it.1 ∧ j.2.1 = it.2.1 ∧ j.2.2.1 = it.2.2.1 + 1 ∧
        ∀ s, it.2.2.2.testBit s = true → j.2.2.2.testBit s = true) ∨
      (y.1 = 3 ∧ y.2 = it.1 ∧ it.2.2.1 + 1 = (rhsOf T it.1).length)) ∧
    (∀ r < T.prods.length, lhsOf T r = X → K.kids r (K.kid it.1 it.2.1 it.2.2.1) ≠ none →
      ∃ j ∈ K.at_ q, j.1 = r ∧ j.2.1 = K.kid it.1 it.2.1 it.2.2.1 ∧ j.2.2.1 = 0 ∧
        ∀ s, (K.firsts ((rhsOf T it.1).drop (it.2.2.1 + 1)) it.2.2.2).testBit s = true →
          j.2.2.2.testBit s = true)) ∧
  (it.2.2.1 = (rhsOf T it.1).length → ∀ s, it.2.2.2.testBit s = true → s ≠ goalSym ∧
    actOf T q (some s) = some (1, it.1))

/-- The certificate fits the tables. -/
structure ItemsOk (T : Tables) (K : Items) : Prop where
  leaf : ∀ s < firstNT, (K.fst s).testBit s = true
  null : ∀ p < T.prods.length, (rhsOf T p).all K.nul = true → K.nul (lhsOf T p) = true
  first : ∀ p < T.prods.length, ∀ s, (K.firsts (rhsOf T p) 0).testBit s = true →
    (K.fst (lhsOf T p)).testBit s = true
  start : ∀ p < T.prods.length, lhsOf T p = goalSym → K.kids p 0 ≠ none →
    ∃ j ∈ K.at_ 0, j.1 = p ∧ j.2.1 = 0 ∧ j.2.2.1 = 0 ∧ j.2.2.2.testBit goalSym = true
  fits : ∀ q < K.items.length, ∀ it ∈ K.at_ q, ItemFits T K q it

mutual
/-- The tree is one of those that are meant, with tag `g` at the root. -/
def PTree.fits (K : Items) : Nat → PTree → Bool
  | _, .leaf _ _ => true
  | g, .node p cs =>
    match K.kids p g with
    | none => false
    | some gs => PTree.fitsAll K gs cs

/-- One tag for every tree (missing tags are 0). -/
def PTree.fitsAll (K : Items) : List Nat → List PTree → Bool
  | _, [] => true
  | gs, c :: cs => c.fits K (gs.headD 0) && PTree.fitsAll K gs.tail cs
end

/-- A token: symbol and text. -/
abbrev Tok := Nat × List WChar

mutual
/-- The tokens of a tree. -/
def PTree.toks : PTree → List Tok
  | .leaf s w => [(s, w)]
  | .node _ cs => PTree.toksAll cs

/-- Left to right. -/
def PTree.toksAll : List PTree → List Tok
  | [] => []
  | t :: ts => t.toks ++ PTree.toksAll ts
end

/-- The text of tokens. -/
def Tok.flat (l : List Tok) : List WChar := l.flatMap (·.2)

/-- The next symbol; `goalSym`, which is no token, stands for nothing. -/
def Tok.next : List Tok → Nat
  | [] => goalSym
  | (s, _) :: _ => s

mutual
theorem PTree.flat_toks : ∀ t : PTree, Tok.flat t.toks = t.yield
  | .leaf s w => by simp [PTree.toks, Tok.flat, PTree.yield]
  | .node _ cs => by
    rw [PTree.toks, PTree.yield]; exact PTree.flat_toksAll cs
theorem PTree.flat_toksAll : ∀ ts : List PTree, Tok.flat (PTree.toksAll ts) = PTree.yields ts
  | [] => by simp [PTree.toksAll, Tok.flat, PTree.yields]
  | t :: ts => by
    have h1 := PTree.flat_toks t
    have h2 := PTree.flat_toksAll ts
    unfold Tok.flat at h1 h2
    simp [PTree.toksAll, Tok.flat, PTree.yields, h1, h2]
end

/-- State `q` can shift the symbol `s`, and `x` can come next. -/
def Expects (T : Tables) (K : Items) (q s x : Nat) : Prop :=
  q < K.items.length ∧ ∃ it ∈ K.at_ q, (rhsOf T it.1)[it.2.2.1]? = some s ∧
    (K.firsts ((rhsOf T it.1).drop (it.2.2.1 + 1)) it.2.2.2).testBit x = true

/-- State `q` can reduce something before the symbol `s`. -/
def Awaits (T : Tables) (K : Items) (q s : Nat) : Prop :=
  q < K.items.length ∧ ∃ it ∈ K.at_ q, it.2.2.1 = (rhsOf T it.1).length ∧
    it.2.2.2.testBit s = true

/-- The lexer finds the tokens where they are to be shifted; where something is to be reduced before
them, it finds something for which the action is the same. -/
def LexFits (T : Tables) (K : Items) : List Tok → Prop
  | [] => True
  | (s, u) :: ws =>
    (∀ q, Expects T K q s (Tok.next ws) → lexPure T q (u ++ Tok.flat ws) = (some s, u.length)) ∧
    (∀ q, Awaits T K q s → actOf T q (lexPure T q (u ++ Tok.flat ws)).1 = actOf T q (some s)) ∧
    LexFits T K ws

theorem LexFits.append {T : Tables} {K : Items} : ∀ {a b : List Tok}, LexFits T K (a ++ b) →
    LexFits T K b
  | [], _, h => h
  | _ :: _, _, h => LexFits.append h.2.2

/-- Steps of the automaton. -/
inductive PSteps (T : Tables) : PC → PC → Prop where
  | refl {c : PC} : PSteps T c c
  | step {a b c : PC} : pstep T a = some (.go b) → PSteps T b c → PSteps T a c

theorem PSteps.trans {T : Tables} {a b c : PC} (h : PSteps T a b) (h' : PSteps T b c) :
    PSteps T a c := by
  induction h with
  | refl => exact h'
  | step h _ ih => exact .step h (ih h')

theorem PSteps.prun {T : Tables} {a b : PC} {o : POut} (h : PSteps T a b)
    (ho : pstep T b = some o) (hg : ∀ c, o ≠ .go c) : ∃ n, prun T n a = some o := by
  induction h with
  | refl =>
    refine ⟨1, ?_⟩
    unfold Cnars.Parser.prun
    rw [ho]
    cases o with
    | go c => exact absurd rfl (hg c)
    | accept t => rfl
    | reject => rfl
  | step h _ ih =>
    obtain ⟨n, hn⟩ := ih ho
    refine ⟨n + 1, ?_⟩
    unfold Cnars.Parser.prun
    rw [h]
    exact hn

theorem toksAll_null {T : Tables} {K : Items} {cs : List PTree}
    (h : ∀ c ∈ cs, c.toks = [] → K.nul (c.root T) = true) (hn : PTree.toksAll cs = []) :
    (cs.map (PTree.root T)).all K.nul = true := by
  induction cs with
  | nil => rfl
  | cons c cs ih =>
    simp only [PTree.toksAll, List.append_eq_nil_iff] at hn
    simp only [List.map_cons, List.all_cons, Bool.and_eq_true]
    exact ⟨h c (by simp) hn.1, ih (fun c hc => h c (by simp [hc])) hn.2⟩

theorem next_firsts {T : Tables} {K : Items} {cs : List PTree} {ws : List Tok} {la : Nat}
    (hn : ∀ c ∈ cs, c.toks = [] → K.nul (c.root T) = true)
    (hf : ∀ c ∈ cs, c.toks ≠ [] → (K.fst (c.root T)).testBit (Tok.next c.toks) = true)
    (hl : PTree.toksAll cs = [] → la.testBit (Tok.next ws) = true) :
    (K.firsts (cs.map (PTree.root T)) la).testBit (Tok.next (PTree.toksAll cs ++ ws)) = true := by
  induction cs with
  | nil => exact hl rfl
  | cons c cs ih =>
    simp only [PTree.toksAll, List.map_cons, Items.firsts, List.append_assoc, Nat.testBit_or,
      Bool.or_eq_true]
    cases hc : c.toks with
    | nil =>
      rw [if_pos (hn c (by simp) hc)]
      refine .inr ?_
      rw [List.nil_append]
      exact ih (fun c hc => hn c (by simp [hc])) (fun c hc => hf c (by simp [hc]))
        (fun h => hl (by simp [PTree.toksAll, hc, h]))
    | cons x xs =>
      refine .inl ?_
      have := hf c (by simp) (by simp [hc])
      rw [hc] at this
      exact this

/-- A tree without tokens has a nullable root; otherwise the first token is in the first set. -/
theorem valid_first {T : Tables} {K : Items} {tok : Nat → List WChar → Prop} (hK : ItemsOk T K)
    (ht : ∀ s w, tok s w → s < firstNT) {t : PTree} (hv : t.Valid T tok) :
    (t.toks = [] → K.nul (t.root T) = true) ∧
    (t.toks ≠ [] → (K.fst (t.root T)).testBit (Tok.next t.toks) = true) := by
  induction hv with
  | @leaf s w h =>
    refine ⟨fun h => by simp [PTree.toks] at h, fun _ => ?_⟩
    exact hK.leaf s (ht s w h)
  | @node p cs hp hr hc ih =>
    refine ⟨fun h => ?_, fun h => ?_⟩
    · refine hK.null p hp ?_
      rw [hr]
      exact toksAll_null (fun c hc => (ih c hc).1) h
    · refine hK.first p hp _ ?_
      rw [hr]
      have := next_firsts (ws := []) (la := 0) (fun c hc => (ih c hc).1) (fun c hc => (ih c hc).2)
        (fun h' => absurd h' h)
      rwa [List.append_nil] at this

/-- What can come after a symbol, by a table. -/
def followOf (F : List Nat) (X : Nat) : Nat := (F[X]?).getD 0

/-- Every token is followed by something that can come after it. -/
def Chained (F : List Nat) : List Tok → Prop
  | [] => True
  | (s, _) :: ws => (followOf F s).testBit (Tok.next ws) = true ∧ Chained F ws

/-- The table fits a production. -/
def FollowFits (T : Tables) (K : Items) (F : List Nat) (p : Nat) : Prop :=
  ∀ d X, (rhsOf T p)[d]? = some X →
    ∀ s, (K.firsts ((rhsOf T p).drop (d + 1)) (followOf F (lhsOf T p))).testBit s = true →
      (followOf F X).testBit s = true

theorem valid_chained {T : Tables} {K : Items} {F : List Nat} {tok : Nat → List WChar → Prop}
    (hK : ItemsOk T K) (ht : ∀ s w, tok s w → s < firstNT)
    (hF : ∀ p < T.prods.length, FollowFits T K F p) {t : PTree} (hv : t.Valid T tok) :
    ∀ ws, (followOf F (t.root T)).testBit (Tok.next ws) = true → Chained F ws →
      Chained F (t.toks ++ ws) := by
  induction hv with
  | @leaf s w h => exact fun ws h1 h2 => ⟨h1, h2⟩
  | @node p cs hp hr hc ih =>
    intro ws h1 h2
    have key : ∀ (b a : List PTree), cs = a ++ b → Chained F (PTree.toksAll b ++ ws) := by
      intro b
      induction b with
      | nil => intro a _; exact h2
      | cons c b ihb =>
        intro a hab
        have hb := ihb (a ++ [c]) (by simp [hab])
        rw [PTree.toksAll, List.append_assoc]
        have hmem : c ∈ cs := by simp [hab]
        refine ih c hmem _ (hF p hp a.length (c.root T) ?_ _ ?_) hb
        · rw [hr, hab]; simp
        · have hd : (rhsOf T p).drop (a.length + 1) = b.map (PTree.root T) := by
            rw [hr, hab]; simp [List.drop_append]
          rw [hd]
          have hbm : ∀ x ∈ b, x ∈ cs := fun x hx => by simp [hab, hx]
          exact next_firsts (fun x hx => (valid_first hK ht (hc x (hbm x hx))).1)
            (fun x hx => (valid_first hK ht (hc x (hbm x hx))).2) (fun _ => h1)
    exact key cs [] rfl

mutual
theorem valid_toks {T : Tables} {tok : Nat → List WChar → Prop} : ∀ {t : PTree}, t.Valid T tok →
    ∀ x ∈ t.toks, tok x.1 x.2
  | .leaf s w, h, x, hx => by
    simp only [PTree.toks, List.mem_singleton] at hx
    subst hx
    cases h with | leaf h => exact h
  | .node p cs, h, x, hx => by
    cases h with | node _ _ h => exact valids_toks h x hx
theorem valids_toks {T : Tables} {tok : Nat → List WChar → Prop} : ∀ {ts : List PTree},
    (∀ t ∈ ts, t.Valid T tok) → ∀ x ∈ PTree.toksAll ts, tok x.1 x.2
  | [], _, x, hx => by simp [PTree.toksAll] at hx
  | t :: ts, h, x, hx => by
    rw [PTree.toksAll, List.mem_append] at hx
    rcases hx with hx | hx
    · exact valid_toks (h t (by simp)) x hx
    · exact valids_toks (fun t ht => h t (by simp [ht])) x hx
end

/-- Reading a token. -/
theorem read_token {T : Tables} {K : Items} (hK : ItemsOk T K) {q : Nat} (hq : q < K.items.length)
    {it : LItem} (hit : it ∈ K.at_ q) {s : Nat} {u : List WChar} {ws : List Tok}
    (hs : s < firstNT) (hx : (rhsOf T it.1)[it.2.2.1]? = some s) {st : List (Option Nat × PTree)}
    (htop : topOf st = some q)
    (hnext : (K.firsts ((rhsOf T it.1).drop (it.2.2.1 + 1)) it.2.2.2).testBit (Tok.next ws) = true)
    (hl : LexFits T K ((s, u) :: ws)) :
    ∃ y, findRow (rowFor T q s) s = some y ∧
      PSteps T ⟨st, none, Tok.flat ((s, u) :: ws)⟩
        ⟨(target y.1 y.2, .leaf s u) :: st, follow y.1 y.2, Tok.flat ws⟩ := by
  obtain ⟨_, ⟨y, hy, hd⟩, _⟩ := (hK.fits q hq it hit).1 s hx
  have hy' : findRow ((T.actions[q]?).getD []) s = some y := by
    have : findRow (rowFor T q s) s = some y := hy
    rwa [rowFor, if_pos hs] at this
  have hlex := hl.1 q ⟨hq, it, hit, hx, hnext⟩
  refine ⟨y, hy, .step ?_ .refl⟩
  have hy2 : y.1 = 2 ∨ y.1 = 3 := by
    rcases hd with h | h
    · exact .inl h.1
    · exact .inr h.1
  have htext : Tok.flat ((s, u) :: ws) = u ++ Tok.flat ws := by simp [Tok.flat]
  unfold pstep
  dsimp only
  unfold preadStep
  dsimp only
  rw [htop]
  dsimp only
  rw [htext, hlex]
  have hact : actOf T q (some s) = some (y.1, y.2) := by
    unfold actOf
    simp only [Option.bind_some, hy']
    rw [if_neg (by omega)]
  simp only [hact]
  rw [if_pos (by omega)]
  simp

/-- Before a token something is reduced. -/
theorem read_reduce {T : Tables} {K : Items} (hK : ItemsOk T K) {q : Nat} (hq : q < K.items.length)
    {it : LItem} (hit : it ∈ K.at_ q) {ws : List Tok} (hd : it.2.2.1 = (rhsOf T it.1).length)
    (hn : it.2.2.2.testBit (Tok.next ws) = true) {st : List (Option Nat × PTree)} (htop : topOf st = some q)
    (hl : LexFits T K ws) :
    PSteps T ⟨st, none, Tok.flat ws⟩ ⟨st, some it.1, Tok.flat ws⟩ := by
  obtain ⟨h1, h2⟩ := (hK.fits q hq it hit).2 hd _ hn
  cases ws with
  | nil => exact absurd rfl h1
  | cons w ws =>
    obtain ⟨s, u⟩ := w
    have hl' := hl.2.1 q ⟨hq, it, hit, hd, hn⟩
    have htext : Tok.flat ((s, u) :: ws) = u ++ Tok.flat ws := by simp [Tok.flat]
    have hact : actOf T q (lexPure T q (u ++ Tok.flat ws)).1 = some (1, it.1) := by
      rw [← h2]
      exact hl'
    refine .step ?_ .refl
    unfold pstep
    dsimp only
    unfold preadStep
    dsimp only
    rw [htop]
    dsimp only
    rw [htext, hact]
    simp

mutual
/-- The automaton reads a tree. -/
theorem run_tree {T : Tables} {K : Items} {tok : Nat → List WChar → Prop} (hK : ItemsOk T K)
    (ht : ∀ s w, tok s w → s < firstNT)
    (hnt : ∀ p < T.prods.length, firstNT ≤ lhsOf T p)
    (hst : ∀ q < K.items.length, ∀ x ∈ (T.actions[q]?).getD [] ++ (T.gos[q]?).getD [],
      x.2.1 = 2 → x.2.2 < K.items.length) :
    ∀ (t : PTree), t.Valid T tok → ∀ {q : Nat}, q < K.items.length → ∀ {it : LItem},
      it ∈ K.at_ q → (rhsOf T it.1)[it.2.2.1]? = some (t.root T) →
      t.fits K (K.kid it.1 it.2.1 it.2.2.1) = true → ∀ {st : List (Option Nat × PTree)},
      topOf st = some q → ∀ {ws : List Tok},
      (K.firsts ((rhsOf T it.1).drop (it.2.2.1 + 1)) it.2.2.2).testBit (Tok.next ws) = true →
      LexFits T K (t.toks ++ ws) →
      ∃ y, findRow (rowFor T q (t.root T)) (t.root T) = some y ∧
        PSteps T ⟨st, none, Tok.flat (t.toks ++ ws)⟩
          ⟨(target y.1 y.2, t) :: st, follow y.1 y.2, Tok.flat ws⟩
  | .leaf s w, hv, q, hq, it, hit, hx, hf, st, htop, ws, hnext, hl => by
    cases hv with
    | leaf h => exact read_token hK hq hit (ht s w h) hx htop hnext hl
  | .node p cs, hv, q, hq, it, hit, hx, hf, st, htop, ws, hnext, hl => by
    cases hv with
    | node hp hr hc =>
      have hx' : (rhsOf T it.1)[it.2.2.1]? = some (lhsOf T p) := hx
      obtain ⟨hg, ⟨y, hy, hd⟩, hcl⟩ := (hK.fits q hq it hit).1 _ hx'
      rw [PTree.fits] at hf
      cases hk : K.kids p (K.kid it.1 it.2.1 it.2.2.1) with
      | none => rw [hk] at hf; cases hf
      | some gs =>
        rw [hk] at hf
        obtain ⟨j, hj, hj1, hj2, hj3, hj4⟩ := hcl p hp rfl (by rw [hk]; simp)
        obtain ⟨jp, jg, jd, jla⟩ := j
        dsimp only at hj1 hj2 hj3 hj4
        subst hj1 hj2 hj3
        obtain ⟨es, hes, hrun⟩ := run_trees hK ht hnt hst cs hc hq hj (Nat.zero_le _)
          (by rw [List.drop_zero, hr]) (gs := gs) (by dsimp only; rw [hk]; rfl)
          hf htop (hj4 _ hnext) hl
        refine ⟨y, hy, hrun.trans (.step ?_ .refl)⟩
        have hlen : es.length = (rhsOf T jp).length := by
          have := congrArg List.length hes
          rw [List.length_map, List.length_reverse] at this
          rw [hr, List.length_map, this]
        unfold pstep
        dsimp only
        unfold predStep
        dsimp only
        rw [if_neg (by simp [hlen]), if_neg (by
          rintro ⟨h, _⟩
          exact hg h)]
        rw [← hlen, List.drop_left, List.take_left, htop]
        dsimp only
        have hy' : findRow ((T.gos[q]?).getD []) (lhsOf T jp) = some y := by
          have : findRow (rowFor T q (lhsOf T jp)) (lhsOf T jp) = some y := hy
          rwa [rowFor, if_neg (by have := hnt jp hp; omega)] at this
        rw [hy']
        simp only [hes, List.reverse_reverse]

/-- The automaton reads the rest of a right-hand side and goes on to reduce. -/
theorem run_trees {T : Tables} {K : Items} {tok : Nat → List WChar → Prop} (hK : ItemsOk T K)
    (ht : ∀ s w, tok s w → s < firstNT)
    (hnt : ∀ p < T.prods.length, firstNT ≤ lhsOf T p)
    (hst : ∀ q < K.items.length, ∀ x ∈ (T.actions[q]?).getD [] ++ (T.gos[q]?).getD [],
      x.2.1 = 2 → x.2.2 < K.items.length) :
    ∀ (cs : List PTree), (∀ c ∈ cs, c.Valid T tok) → ∀ {q : Nat}, q < K.items.length →
      ∀ {it : LItem}, it ∈ K.at_ q → it.2.2.1 ≤ (rhsOf T it.1).length →
      (rhsOf T it.1).drop it.2.2.1 = cs.map (PTree.root T) →
      ∀ {gs : List Nat}, gs = ((K.kids it.1 it.2.1).getD []).drop it.2.2.1 →
      PTree.fitsAll K gs cs = true →
      ∀ {st : List (Option Nat × PTree)}, topOf st = some q → ∀ {ws : List Tok},
      it.2.2.2.testBit (Tok.next ws) = true → LexFits T K (PTree.toksAll cs ++ ws) →
      ∃ es : List (Option Nat × PTree), es.map (·.2) = cs.reverse ∧
        PSteps T ⟨st, none, Tok.flat (PTree.toksAll cs ++ ws)⟩ ⟨es ++ st, some it.1, Tok.flat ws⟩
  | [], _, q, hq, it, hit, hle, hr, gs, hgs, hf, st, htop, ws, hnext, hl => by
    refine ⟨[], rfl, ?_⟩
    have hd : it.2.2.1 = (rhsOf T it.1).length := by
      have := congrArg List.length hr
      simp only [List.length_drop, List.map_nil, List.length_nil] at this
      omega
    exact read_reduce hK hq hit hd hnext htop hl
  | c :: cs, hc, q, hq, it, hit, hle, hr, gs, hgs, hf, st, htop, ws, hnext, hl => by
    obtain ⟨p, g, d, la⟩ := it
    dsimp only at *
    have hx : (rhsOf T p)[d]? = some (c.root T) := by
      have := congrArg (·[0]?) hr
      simpa using this
    have hr' : (rhsOf T p).drop (d + 1) = cs.map (PTree.root T) := by
      have := congrArg (List.drop 1) hr
      simpa [List.drop_drop] using this
    have hdl : d < (rhsOf T p).length := by
      rcases Nat.lt_or_ge d (rhsOf T p).length with h | h
      · exact h
      · rw [List.getElem?_eq_none h] at hx; cases hx
    rw [PTree.fitsAll, Bool.and_eq_true] at hf
    have hkid : gs.headD 0 = K.kid p g d := by
      rw [hgs, Items.kid, List.headD_eq_head?_getD, List.head?_drop]
    rw [hkid] at hf
    simp only [PTree.toksAll, List.append_assoc] at hl ⊢
    have hnext' : (K.firsts ((rhsOf T p).drop (d + 1)) la).testBit
        (Tok.next (PTree.toksAll cs ++ ws)) = true := by
      rw [hr']
      exact next_firsts (fun x hx => (valid_first hK ht (hc x (by simp [hx]))).1)
        (fun x hx => (valid_first hK ht (hc x (by simp [hx]))).2) (fun _ => hnext)
    obtain ⟨y, hy, hrun⟩ := run_tree hK ht hnt hst c (hc c (by simp)) hq hit hx hf.1 htop hnext' hl
    obtain ⟨_, ⟨y', hy', hd⟩, _⟩ := (hK.fits q hq _ hit).1 _ hx
    obtain rfl : y = y' := by
      have : findRow (rowFor T q (c.root T)) (c.root T) = some y' := hy'
      rw [hy] at this
      exact Option.some.inj this
    rcases hd with ⟨h2, j, hj, hj1, hj2, hj3, hj4⟩ | ⟨h3, h4, h5⟩
    · obtain ⟨jp, jg, jd, jla⟩ := j
      dsimp only at hj1 hj2 hj3 hj4
      subst hj1 hj2 hj3
      have hlt : y.2 < K.items.length := by
        refine hst q hq (c.root T, y.1, y.2) ?_ h2
        have := findRow_mem hy
        unfold rowFor at this
        split at this
        · exact List.mem_append_left _ this
        · exact List.mem_append_right _ this
      have ht2 : target y.1 y.2 = some y.2 := by simp [target, h2]
      have hf2 : follow y.1 y.2 = none := by simp [follow, h2]
      rw [ht2, hf2] at hrun
      obtain ⟨es, hes, hrun'⟩ := run_trees hK ht hnt hst cs (fun x hx => hc x (by simp [hx])) hlt hj
        hdl hr' (gs := gs.tail) (by rw [hgs, List.tail_drop]) hf.2
        (st := (some y.2, c) :: st) rfl (hj4 _ hnext) hl.append
      exact ⟨es ++ [(some y.2, c)], by simp [hes], by simpa using hrun.trans hrun'⟩
    · dsimp only at h4 h5
      have hcs : cs = [] := by
        have := congrArg List.length hr'
        simp only [List.length_drop, List.length_map] at this
        exact List.eq_nil_of_length_eq_zero (by omega)
      subst hcs
      have ht2 : target y.1 y.2 = none := by simp [target, h3]
      have hf2 : follow y.1 y.2 = some p := by simp [follow, h3, h4]
      rw [ht2, hf2] at hrun
      exact ⟨[(none, c)], rfl, hrun⟩
end

/-- Completeness: a parse tree of the meant kind whose tokens the lexer finds is found. -/
theorem run_complete {T : Tables} {K : Items} {tok : Nat → List WChar → Prop} (hK : ItemsOk T K)
    (ht : ∀ s w, tok s w → s < firstNT) (hnt : ∀ p < T.prods.length, firstNT ≤ lhsOf T p)
    (hst : ∀ q < K.items.length, ∀ x ∈ (T.actions[q]?).getD [] ++ (T.gos[q]?).getD [],
      x.2.1 = 2 → x.2.2 < K.items.length) (h0 : 0 < K.items.length)
    {t : PTree} (hv : t.Valid T tok) (hr : t.root T = goalSym) (hf : t.fits K 0 = true)
    (hl : LexFits T K t.toks) : ∃ n, prun T n (PC.init t.yield) = some (.accept t) := by
  cases hv with
  | @leaf s w h =>
    have := ht s w h
    simp only [PTree.root] at hr
    rw [hr] at this
    exact absurd this (by decide)
  | @node p cs hp hrr hc =>
    have hr' : lhsOf T p = goalSym := hr
    rw [PTree.fits] at hf
    cases hk : K.kids p 0 with
    | none => rw [hk] at hf; cases hf
    | some gs =>
      rw [hk] at hf
      obtain ⟨j, hj, hj1, hj2, hj3, hj4⟩ := hK.start p hp hr' (by rw [hk]; simp)
      obtain ⟨jp, jg, jd, jla⟩ := j
      dsimp only at hj1 hj2 hj3 hj4
      subst hj1 hj2 hj3
      obtain ⟨es, hes, hrun⟩ := run_trees hK ht hnt hst cs hc h0 hj (Nat.zero_le _)
        (by rw [List.drop_zero, hrr]) (gs := gs) (by dsimp only; rw [hk]; rfl) hf (st := []) rfl
        (ws := []) hj4 (by rw [List.append_nil]; exact hl)
      rw [List.append_nil] at hrun
      have htext : Tok.flat (PTree.toksAll cs) = (PTree.node jp cs).yield := by
        rw [PTree.yield]; exact PTree.flat_toksAll cs
      rw [htext] at hrun
      refine hrun.prun (o := .accept (.node jp cs)) ?_ (by simp)
      have hlen : es.length = (rhsOf T jp).length := by
        have := congrArg List.length hes
        rw [List.length_map, List.length_reverse] at this
        rw [hrr, List.length_map, this]
      unfold pstep
      dsimp only
      unfold predStep
      dsimp only
      rw [List.append_nil, if_neg (by omega), if_pos ⟨hr', by rw [← hlen, List.drop_length]⟩]
      rw [← hlen, List.take_length, hes, List.reverse_reverse]

end Cnars.Parser
