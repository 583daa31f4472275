import Verif.Parser.Run
import Verif.Parser.DriverLemmas

/-!
# The height of the parse stack

How high the stack of the parser becomes is a property of the tree it builds, and how high it can
become is bounded by the nesting of the syntax tree, whatever the length of the line.  Helper lemmas;
the theorems are in `Props/Parsing.lean`.
-/

namespace Cnars.Parser

mutual
/-- The number of entries a shift-reduce parser needs to build a tree: while it builds child number
`i` the `i` children to the left of it are on the stack. -/
def PTree.height : PTree → Nat
  | .leaf _ _ => 1
  | .node _ cs => max 1 (PTree.heights 0 cs)

/-- Children that are built on top of `i` entries. -/
def PTree.heights : Nat → List PTree → Nat
  | _, [] => 0
  | i, t :: ts => max (i + t.height) (PTree.heights (i + 1) ts)
end

theorem PTree.height_pos (t : PTree) : 1 ≤ t.height := by
  cases t <;> simp [PTree.height] <;> omega

theorem PTree.heights_add {b M : Nat} (hb : b ≤ M) : ∀ (cs : List PTree) (i : Nat),
    PTree.heights (b + i) cs ≤ M ↔ b + PTree.heights i cs ≤ M
  | [], i => by simp [PTree.heights, hb]
  | c :: cs, i => by
    have := PTree.heights_add hb cs (i + 1)
    simp only [PTree.heights]
    rw [Nat.add_assoc b i 1]
    omega

/-- Every tree of the stack (top first) was built with at most `M` entries. -/
def Under (M : Nat) : List PTree → Prop
  | [] => True
  | t :: ts => ts.length + t.height ≤ M ∧ Under M ts

theorem Under.length {M : Nat} {ts : List PTree} (h : Under M ts) : ts.length ≤ M := by
  cases ts with
  | nil => simp
  | cons t ts =>
    have := t.height_pos
    have := h.1
    simp only [List.length_cons]
    omega

theorem under_reverse {M : Nat} : ∀ (cs rest : List PTree),
    Under M (cs.reverse ++ rest) ↔ PTree.heights rest.length cs ≤ M ∧ Under M rest
  | [], rest => by simp [PTree.heights]
  | c :: cs, rest => by
    rw [List.reverse_cons, List.append_assoc]
    show Under M (cs.reverse ++ (c :: rest)) ↔ _
    rw [under_reverse cs (c :: rest)]
    simp only [PTree.heights, List.length_cons, Under, Nat.max_le]
    exact ⟨fun ⟨a, b, c⟩ => ⟨⟨b, a⟩, c⟩, fun ⟨⟨a, b⟩, c⟩ => ⟨b, a, c⟩⟩

/-- A reduction keeps the bound, in both directions. -/
theorem under_node {M : Nat} {p : Nat} {cs rest : List PTree} :
    Under M (.node p cs :: rest) ↔ Under M (cs.reverse ++ rest) ∧ rest.length + 1 ≤ M := by
  rw [under_reverse]
  simp only [Under, PTree.height]
  by_cases hb : rest.length ≤ M
  · have := PTree.heights_add hb cs 0
    simp only [Nat.add_zero] at this
    exact ⟨fun ⟨a, b⟩ => ⟨⟨this.mpr (by omega), b⟩, by omega⟩,
      fun ⟨⟨a, b⟩, c⟩ => ⟨by have := this.mp a; omega, b⟩⟩
  · exact ⟨fun ⟨a, b⟩ => by omega, fun ⟨_, b⟩ => by omega⟩

/-- The stack after a step. -/
theorem pstep_stack {T : Tables} {c c' : PC} (h : pstep T c = some (.go c')) :
    c'.st = c.st ∨ (∃ q s w, c'.st = (q, PTree.leaf s w) :: c.st) ∨
      ∃ p n q, n ≤ c.st.length ∧
        c'.st = (q, PTree.node p ((c.st.take n).map (·.2)).reverse) :: c.st.drop n := by
  unfold pstep at h
  split at h
  · rename_i p hp
    unfold predStep at h
    dsimp only at h
    split at h
    · simp at h
    · split at h
      · simp at h
      · split at h
        · simp at h
        · split at h
          · simp at h
          · rename_i hl _ _ _ _ _ _
            simp only [Option.some.injEq, POut.go.injEq] at h; subst h
            exact Or.inr (Or.inr ⟨p, (rhsOf T p).length, _, by omega, rfl⟩)
  · unfold preadStep at h
    split at h
    · simp at h
    · dsimp only at h
      split at h
      · simp at h
      · split at h
        · split at h
          · simp at h
          · simp at h; subst h
            exact Or.inr (Or.inl ⟨_, _, _, rfl⟩)
        · simp at h; subst h
          exact Or.inl rfl

/-- The accepted tree. -/
theorem pstep_accepts {T : Tables} {c : PC} {t : PTree} (h : pstep T c = some (.accept t)) :
    ∃ p, t = .node p (c.st.map (·.2)).reverse := by
  unfold pstep at h
  split at h
  · rename_i p hp
    unfold predStep at h
    dsimp only at h
    split at h
    · simp at h
    · split at h
      · rename_i h2
        simp only [Option.some.injEq, POut.accept.injEq] at h
        refine ⟨p, ?_⟩
        rw [← h, List.take_of_length_le]
        have := congrArg List.length h2.2
        simp only [List.length_drop, List.length_nil] at this
        omega
      · split at h
        · simp at h
        · split at h <;> simp at h
  · unfold preadStep at h
    split at h
    · simp at h
    · dsimp only at h
      split at h
      · simp at h
      · split at h
        · split at h <;> simp at h
        · simp at h

theorem map_split (st : List (Option Nat × PTree)) (n : Nat) :
    st.map (·.2) = ((st.take n).map (·.2)) ++ (st.drop n).map (·.2) := by
  rw [← List.map_append, List.take_append_drop]

/-- On the way to an accepted tree no stack is higher than the tree says. -/
theorem under_accept {T : Tables} {M : Nat} {t : PTree} (ht : t.height ≤ M) :
    ∀ (fuel : Nat) (c : PC), prun T fuel c = some (.accept t) → Under M (c.st.map (·.2))
  | 0, _, h => by simp [prun] at h
  | fuel + 1, c, h => by
    unfold prun at h
    cases hp : pstep T c with
    | none => rw [hp] at h; simp at h
    | some o =>
      rw [hp] at h
      cases o with
      | go c' =>
        have ih := under_accept ht fuel c' h
        rcases pstep_stack hp with h1 | ⟨q, s, w, h1⟩ | ⟨p, n, q, hn, h1⟩
        · rwa [h1] at ih
        · rw [h1] at ih
          exact ih.2
        · rw [h1, List.map_cons, under_node, List.reverse_reverse] at ih
          rw [map_split c.st n]
          exact ih.1
      | accept t' =>
        simp only [Option.some.injEq, POut.accept.injEq] at h
        subst h
        obtain ⟨p, rfl⟩ := pstep_accepts hp
        have h1 : Under M [PTree.node p (c.st.map (·.2)).reverse] := ⟨by simpa using ht, trivial⟩
        rw [under_node, List.reverse_reverse, List.append_nil] at h1
        exact h1.1
      | reject => simp at h

/-- A tree that is not too high is built within the first allocation. -/
theorem low_accept {T : Tables} {t : PTree} (ht : t.height ≤ 127) :
    ∀ (fuel : Nat) (c : PC), prun T fuel c = some (.accept t) → Low T fuel c
  | 0, _, h => by simp [prun] at h
  | fuel + 1, c, h => by
    have h1 := (under_accept ht (fuel + 1) c h).length
    refine ⟨by simp only [List.length_map] at h1; unfold mallocStep; omega, fun c' hc' => ?_⟩
    unfold prun at h
    rw [hc'] at h
    exact low_accept ht fuel c' h

theorem Low.less {T : Tables} : ∀ {n k : Nat} {c : PC}, Low T (n + k) c → Low T n c
  | 0, _, _, h => h.here
  | n + 1, k, c, h => by
    rw [Nat.add_right_comm] at h
    exact ⟨h.1, fun c' hc' => Low.less (h.2 c' hc')⟩

/-- A tree that is built within the first allocation is not too high. -/
theorem accept_low {T : Tables} {t : PTree} :
    ∀ (fuel : Nat) (c : PC), Under 127 (c.st.map (·.2)) → prun T fuel c = some (.accept t) →
      Low T fuel c → t.height ≤ 127
  | 0, _, _, h, _ => by simp [prun] at h
  | fuel + 1, c, hu, h, hl => by
    unfold prun at h
    cases hp : pstep T c with
    | none => rw [hp] at h; simp at h
    | some o =>
      rw [hp] at h
      cases o with
      | go c' =>
        have hl' := hl.2 c' hp
        have hlen := hl'.here
        unfold mallocStep at hlen
        refine accept_low fuel c' ?_ h hl'
        rcases pstep_stack hp with h1 | ⟨q, s, w, h1⟩ | ⟨p, n, q, hn, h1⟩
        · rwa [h1]
        · rw [h1] at hlen ⊢
          refine ⟨?_, hu⟩
          simp only [PTree.height, List.length_map, List.length_cons] at hlen ⊢
          omega
        · rw [map_split c.st n] at hu
          rw [h1] at hlen ⊢
          rw [List.map_cons, under_node, List.reverse_reverse]
          refine ⟨hu, ?_⟩
          simp only [List.length_map, List.length_cons] at hlen ⊢
          omega
      | accept t' =>
        simp only [Option.some.injEq, POut.accept.injEq] at h
        subst h
        obtain ⟨p, rfl⟩ := pstep_accepts hp
        have h1 : Under 127 [PTree.node p (c.st.map (·.2)).reverse] := by
          rw [under_node, List.reverse_reverse, List.append_nil]
          exact ⟨hu, by simp⟩
        simpa [Under] using h1.1
      | reject => simp at h

/-! ## The stack of the code as it is -/

theorem push_len {n : Nat} {e : Entry} {st st' : List Entry} (h : push true n e st = .ok st') :
    st'.length ≤ n := by
  unfold push at h
  split at h
  · simp at h
  · rename_i hn
    simp only [true_and, Nat.not_le] at hn
    simp only [Res.ok.injEq] at h; subst h; exact hn

/-- A step of the code that is not undefined keeps the stack within its memory. -/
theorem step_within {T : Tables} {s s' : St} (h : step T true s = .ok (.go s'))
    (hs : s.stack.length ≤ s.stacksize) :
    s'.stacksize = s.stacksize ∧ s'.stack.length ≤ s'.stacksize := by
  unfold step at h
  split at h
  · simp only [reduceStep, Res.bind_eq_ok] at h
    obtain ⟨p, _, ⟨acc, st⟩, _, h⟩ := h
    cases st with
    | nil => simp at h
    | cons e below =>
      simp only at h
      split at h
      · simp only [Res.bind_eq_ok] at h
        obtain ⟨_, _, h⟩ := h
        simp at h
      · simp only [Res.bind_eq_ok] at h
        obtain ⟨_, _, _, _, st, hp, h⟩ := h
        simp at h
        rw [← h]
        exact ⟨rfl, push_len hp⟩
  · simp only [readStep] at h
    split at h
    · simp at h
    · rename_i e es hstk
      simp only [Res.bind_eq_ok] at h
      obtain ⟨_, _, h⟩ := h
      obtain ⟨x, _, h⟩ := h
      simp only [actStep, Res.bind_eq_ok] at h
      obtain ⟨a, _, hx⟩ := h
      cases a with
      | none => simp only at hx; split at hx <;> simp at hx
      | some ai =>
        simp only at hx
        split at hx
        · split at hx
          · simp only [shiftStep, Res.bind_eq_ok] at hx
            obtain ⟨_, _, _, _, _, _, st, hp, _, _, hx⟩ := hx
            simp at hx
            have h2 : allocStack s.stacksize s.stack = s.stacksize := by
              unfold allocStack
              rw [if_neg]
              rw [hstk] at hs ⊢
              simp only [List.length_cons] at hs ⊢
              omega
            have h3 := push_len hp
            rw [← hx]
            rw [h2] at h3
            simp only [h2]
            exact ⟨trivial, h3⟩
          · simp at hx
        · simp at hx
          rw [← hx]
          exact ⟨rfl, hs⟩

/-- Where the code is not undefined the stack stayed within the first allocation. -/
theorem strict_low {T : Tables} {C : Cert} {S : List Nat} (hT : TablesOk T C) (hS : EofOk T S) :
    ∀ (fuel : Nat) (s : St) (c : PC) (l : List WChar), Sim T C s c l → Chars c.text →
      l.length ≤ 127 → (∀ k, Spare T (c.text.drop k)) → s.stacksize = mallocStep →
      s.stack.length ≤ mallocStep → run T true fuel s ≠ .ub → Low T fuel c
  | fuel, s, c, l, h, hc, hl, hsp, hss, hlen, hrun => by
    have hst := congrArg List.length h.states
    simp only [List.length_map, List.length_append, List.length_cons, List.length_nil] at hst
    have h0 : c.st.length < mallocStep := by omega
    cases fuel with
    | zero => exact h0
    | succ fuel =>
      refine ⟨h0, fun c' hc' => ?_⟩
      obtain ⟨o, h1, h2, h3⟩ := step_sim hT hS h
      have hsub : ∃ n, c'.text = c.text.drop n := pstep_drop hc'
      rw [hc'] at h2
      cases h2 with
      | @go s' _ l' h' =>
        by_cases hfit : s'.stack.length ≤ s.stacksize
        · rcases h3 hc (by intro s2 hs2; simp only [Out.go.injEq] at hs2; rwa [← hs2]) hl
            (by simpa using hsp 0) with ⟨h4, h5⟩ | ⟨_, _, _, h4⟩
          · obtain ⟨n, hn⟩ := hsub
            have hw := step_within h4 (by omega)
            refine strict_low hT hS fuel s' c' l' h' ?_ ?_ ?_ (by omega) (by omega) ?_
            · intro x hx
              rw [hn] at hx
              exact hc x (List.mem_of_mem_drop hx)
            · rw [← h'.scan.buf.1]; exact h5 s' rfl
            · intro k
              rw [hn, List.drop_drop]
              exact hsp _
            · intro hu
              apply hrun
              simp only [run, h4, Res.ok_bind]
              exact hu
          · simp at h4
        · exfalso
          have hrel := step_rel (u := true) (b1 := true) (b2 := false) (T := T) (s1 := s) (s2 := s)
            (Or.inr ⟨rfl, rfl, rfl⟩) ⟨rfl, rfl, ScanRel.refl _, rfl, rfl, rfl, rfl⟩
          rw [h1] at hrel
          cases h4 : step T true s with
          | ok o =>
            rw [h4] at hrel
            cases o with
            | go s1 =>
              have hw := step_within h4 (by omega)
              have : s1.stack = s'.stack := hrel.1
              rw [this] at hw
              omega
            | accept a sc => exact hrel
            | reject a sc => exact hrel
          | throw m => rw [h4] at hrel; exact hrel
          | ub => exact hrun (by simp only [run, h4]; rfl)
          | outOfFuel => rw [h4] at hrel; exact hrel

/-! ## Nesting -/

mutual
/-- The nesting of a syntax tree. -/
def Ast.depth : Ast → Nat
  | .leaf _ _ => 1
  | .node _ cs => 1 + Ast.depths cs

/-- The greatest depth in a list. -/
def Ast.depths : List Ast → Nat
  | [] => 0
  | a :: as => max a.depth (Ast.depths as)
end

theorem Ast.depths_append : ∀ (l r : List Ast), Ast.depths (l ++ r) = max (Ast.depths l) (Ast.depths r)
  | [], r => by simp [Ast.depths]
  | a :: l, r => by
    simp only [List.cons_append, Ast.depths, Ast.depths_append l r]
    omega

/-- The bound of a symbol. -/
def capOf (b : List Nat) (X : Nat) : Nat := (b[X]?).getD 1

/-- Bounds that every production respects; one that makes a node has `A` entries more. -/
def HeightOk (T : Tables) (A : Nat) (b : List Nat) : Prop :=
  (∀ x ∈ b, 1 ≤ x) ∧ ∀ p < T.prods.length, ∀ i < (rhsOf T p).length,
    i + capOf b (((rhsOf T p)[i]?).getD 0) ≤
      (if prodEmit T p = .none then 0 else A) + capOf b (lhsOf T p)

theorem capOf_pos {b : List Nat} (h : ∀ x ∈ b, 1 ≤ x) (X : Nat) : 1 ≤ capOf b X := by
  unfold capOf
  cases hb : b[X]? with
  | none => simp
  | some x => exact h x (List.mem_of_getElem? hb)

theorem tree_heights_le {T : Tables} {A K : Nat} {b : List Nat} : ∀ (cs : List PTree) (i : Nat),
    (∀ c ∈ cs, c.height ≤ A * Ast.depths (c.ast T) + capOf b (c.root T)) →
    (∀ j < cs.length, i + j + capOf b (((cs.map (PTree.root T))[j]?).getD 0) ≤ K) →
    PTree.heights i cs ≤ A * Ast.depths (PTree.asts T cs) + K
  | [], _, _, _ => by simp [PTree.heights]
  | c :: cs, i, h1, h2 => by
    simp only [PTree.heights, PTree.asts, Ast.depths_append]
    have hc := h1 c (by simp)
    have h0 := h2 0 (by simp)
    simp only [List.map_cons, List.getElem?_cons_zero, Option.getD_some] at h0
    have ih := tree_heights_le (T := T) (A := A) (K := K) (b := b) cs (i + 1)
      (fun x hx => h1 x (by simp [hx]))
      (fun j hj => by
        have := h2 (j + 1) (by simp; omega)
        simp only [List.map_cons, List.getElem?_cons_succ] at this
        omega)
    have m1 : A * Ast.depths (c.ast T) ≤
        A * max (Ast.depths (c.ast T)) (Ast.depths (PTree.asts T cs)) :=
      Nat.mul_le_mul_left _ (Nat.le_max_left _ _)
    have m2 : A * Ast.depths (PTree.asts T cs) ≤
        A * max (Ast.depths (c.ast T)) (Ast.depths (PTree.asts T cs)) :=
      Nat.mul_le_mul_left _ (Nat.le_max_right _ _)
    omega

/-- The height of a tree, in terms of the nesting of its syntax tree. -/
theorem height_depth {T : Tables} {A : Nat} {b : List Nat} (hb : HeightOk T A b)
    {P : Nat → List WChar → Prop} {t : PTree} (hv : t.Valid T P) :
    t.height ≤ A * Ast.depths (t.ast T) + capOf b (t.root T) := by
  induction hv with
  | @leaf s w h =>
    have := capOf_pos hb.1 s
    simp only [PTree.height, PTree.root]
    omega
  | @node p cs hp hr hc ih =>
    have hpos := capOf_pos hb.1 (lhsOf T p)
    have h1 := tree_heights_le (T := T) (A := A) (b := b)
      (K := (if prodEmit T p = .none then 0 else A) + capOf b (lhsOf T p)) cs 0 ih
      (fun j hj => by
        have := hb.2 p hp j (by rw [hr]; simpa using hj)
        rw [hr] at this
        omega)
    simp only [PTree.height, PTree.root, PTree.ast, wrapNodes]
    split at h1
    · rename_i he
      rw [if_pos he]
      omega
    · rename_i he
      rw [if_neg he]
      simp only [Ast.depths, Ast.depth, Nat.max_zero, Nat.mul_add, Nat.mul_one]
      omega

end Cnars.Parser
