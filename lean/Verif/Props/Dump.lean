import Verif.Props.Generate

/-!
# C93: the printed syntax tree
-/

namespace Cnars.Props
open Cnars Cnars.Parser

theorem leading {c c' : Char} (hc : c ≠ ' ') (hc' : c' ≠ ' ') : ∀ {k j : Nat} {s s' : List Char},
    List.replicate k ' ' ++ c :: s = List.replicate j ' ' ++ c' :: s' → k = j ∧ c = c' ∧ s = s'
  | 0, 0, s, s', h => by simpa using h
  | 0, j + 1, s, s', h => by
    rw [List.replicate_succ] at h
    simp only [List.replicate_zero, List.nil_append, List.cons_append, List.cons.injEq] at h
    exact absurd h.1 hc
  | k + 1, 0, s, s', h => by
    rw [List.replicate_succ] at h
    simp only [List.replicate_zero, List.nil_append, List.cons_append, List.cons.injEq] at h
    exact absurd h.1.symm hc'
  | k + 1, j + 1, s, s', h => by
    rw [List.replicate_succ, List.replicate_succ] at h
    simp only [List.cons_append, List.cons.injEq, true_and] at h
    obtain ⟨h1, h2⟩ := leading hc hc' h
    exact ⟨by omega, h2⟩

/-- Up to the first `x`. -/
theorem split_at {x : Char} : ∀ {u u' v v' : List Char}, x ∉ u → x ∉ u' →
    u ++ x :: v = u' ++ x :: v' → u = u' ∧ v = v'
  | [], [], v, v', _, _, h => by simpa using h
  | [], c :: u', v, v', _, h2, h => by
    simp only [List.nil_append, List.cons_append, List.cons.injEq] at h
    exact absurd (h.1 ▸ List.mem_cons_self) h2
  | c :: u, [], v, v', h1, _, h => by
    simp only [List.nil_append, List.cons_append, List.cons.injEq] at h
    exact absurd (h.1 ▸ List.mem_cons_self) h1
  | c :: u, c' :: u', v, v', h1, h2, h => by
    simp only [List.cons_append, List.cons.injEq] at h
    obtain ⟨e1, e2⟩ := split_at (fun m => h1 (List.mem_cons_of_mem _ m))
      (fun m => h2 (List.mem_cons_of_mem _ m)) h.2
    exact ⟨by rw [h.1, e1], e2⟩

/-- What is printed after a list of siblings: lines further to the left. -/
def Left (d : Nat) (r : List Char) : Prop :=
  r = [] ∨ ∃ k < d, ∃ c s, c ≠ ' ' ∧ r = List.replicate k ' ' ++ c :: s

theorem Left.mono {d : Nat} {r : List Char} (h : Left d r) : Left (d + 1) r := by
  rcases h with h | ⟨k, hk, h⟩
  · exact .inl h
  · exact .inr ⟨k, by omega, h⟩

/-- What is written behind the name. -/
def noteOf : Ast → List Char
  | .leaf e token => if e.name = token then [] else ' ' :: '(' :: token ++ [')']
  | .node _ _ => []

/-- The name of the node. -/
def headOf : Ast → Emit
  | .leaf e _ => e
  | .node e _ => e

/-- The nodes below. -/
def belowOf : Ast → List Ast
  | .leaf _ _ => []
  | .node _ cs => cs

theorem dump_eq (d : Nat) (a : Ast) : a.dump d = List.replicate d ' ' ++
    ((headOf a).name ++ noteOf a ++ '\n' :: Ast.dumps (d + 1) (belowOf a)) := by
  cases a <;> simp [Ast.dump, headOf, noteOf, belowOf, Ast.dumps]

theorem toChar_newline {c : WChar} (h : toChar c = '\n') : c = 10 := by
  unfold toChar at h
  have h1 : (Char.ofNat c.toNat).toNat = 10 := by rw [h]; rfl
  unfold Char.ofNat at h1
  split at h1
  · have : c.toNat = 10 := by simpa [Char.toNat, Char.ofNatAux] using h1
    have key : ∀ z : Int, z.toNat = 10 → z = 10 := by intro z hz; omega
    exact key c this
  · simp [Char.toNat] at h1

/-- A line has no newline in it. -/
theorem FromTables.note {s : List WChar} (hs : (10 : WChar) ∉ s) {a : Ast} (ha : FromTables s a) :
    headOf a ≠ .none ∧ '\n' ∉ (headOf a).name ++ noteOf a := by
  have hn : headOf a ≠ .none := by cases ha <;> assumption
  refine ⟨hn, ?_⟩
  rw [List.mem_append]
  rintro (h | h)
  · exact ((name_form _ hn).2 _ h).2 rfl
  · cases ha with
    | node => simp [noteOf] at h
    | @leaf e w _ _ hw =>
      simp only [noteOf] at h
      split at h
      · simp at h
      · simp only [List.cons_append, List.mem_cons, List.mem_append, List.mem_map, List.not_mem_nil,
          or_false] at h
        rcases h with h | h | ⟨c, hc, h⟩ | h
        · exact absurd h (by decide)
        · exact absurd h (by decide)
        · exact hs (toChar_newline h ▸ hw c hc)
        · exact absurd h (by decide)

/-- The name and what is behind it. -/
theorem name_note {e e' : Emit} (he : e ≠ .none) (he' : e' ≠ .none) {n n' : List Char}
    (hn : n = [] ∨ ∃ t, n = ' ' :: t) (hn' : n' = [] ∨ ∃ t, n' = ' ' :: t)
    (h : e.name ++ n = e'.name ++ n') : e = e' ∧ n = n' := by
  have key : ∀ (e : Emit), e ≠ .none → ∀ n, (n = [] ∨ ∃ t, n = ' ' :: t) →
      (e.name ++ n).takeWhile (fun c => c ≠ ' ') = e.name := by
    intro e he n hn
    have h1 : ∀ c ∈ e.name, (decide (c ≠ ' ')) = true := by
      intro c hc; simpa using ((name_form e he).2 c hc).1
    rw [List.takeWhile_append_of_pos h1]
    rcases hn with rfl | ⟨t, rfl⟩ <;> simp
  have h1 := congrArg (List.takeWhile (fun c => c ≠ ' ')) h
  rw [key e he n hn, key e' he' n' hn'] at h1
  rw [h1] at h
  exact ⟨name_inj h1, List.append_cancel_left h⟩

theorem noteOf_form (a : Ast) : noteOf a = [] ∨ ∃ t, noteOf a = ' ' :: t := by
  cases a with
  | leaf e t =>
    simp only [noteOf]
    split
    · exact .inl rfl
    · exact .inr ⟨_, rfl⟩
  | node e cs => exact .inl rfl

/-- The same name and the same text behind it: the same leaf, or two inner nodes. -/
theorem FromTables.same {s s' : List WChar} {a b : Ast} (ha : FromTables s a) (hb : FromTables s' b)
    (h1 : headOf a = headOf b) (h2 : noteOf a = noteOf b) (h3 : belowOf a = belowOf b) : a = b := by
  have disj : ∀ e ∈ allEmits, e ≠ .none → e ∈ narsese.symbols.map (·.emit) →
      e ∈ narsese.prods.map (·.emit) → False := by decide +kernel
  cases ha with
  | leaf n1 m1 _ =>
    cases hb with
    | leaf n2 m2 _ =>
      simp only [headOf] at h1
      subst h1
      simp only [noteOf] at h2
      split at h2 <;> split at h2 <;> simp_all
    | node n2 m2 _ =>
      simp only [headOf] at h1
      subst h1
      exact absurd m2 (disj _ (mem_allEmits _) n1 m1)
  | node n1 m1 _ =>
    cases hb with
    | leaf n2 m2 _ =>
      simp only [headOf] at h1
      subst h1
      exact absurd m1 (disj _ (mem_allEmits _) n1 m2)
    | node n2 m2 _ =>
      simp only [headOf] at h1
      simp only [belowOf] at h3
      rw [h1, h3]

theorem dumps_start (d : Nat) {s : List WChar} {a : Ast} (ha : FromTables s a) (as : List Ast)
    (r : List Char) : ∃ c t, c ≠ ' ' ∧ Ast.dumps d (a :: as) ++ r = List.replicate d ' ' ++ c :: t := by
  have hn : headOf a ≠ .none := by cases ha <;> assumption
  obtain ⟨⟨c, t, h1⟩, h2⟩ := name_form _ hn
  refine ⟨c, t ++ (noteOf a ++ '\n' :: (Ast.dumps (d + 1) (belowOf a) ++ (Ast.dumps d as ++ r))),
    (h2 c (h1 ▸ List.mem_cons_self)).1, ?_⟩
  rw [Ast.dumps, dump_eq, h1]
  simp only [List.append_assoc, List.cons_append]

theorem FromTables.children {s : List WChar} {a : Ast} (ha : FromTables s a) :
    ∀ c ∈ belowOf a, FromTables s c := by
  cases ha with
  | leaf => simp [belowOf]
  | node _ _ h => exact h

theorem left_next {s : List WChar} {as : List Ast} (h : ∀ a ∈ as, FromTables s a) {d : Nat}
    {r : List Char} (hr : Left d r) : Left (d + 1) (Ast.dumps d as ++ r) := by
  cases as with
  | nil => simpa [Ast.dumps] using hr.mono
  | cons a as =>
    obtain ⟨c, t, hc, h1⟩ := dumps_start d (h a List.mem_cons_self) as r
    exact .inr ⟨d, by omega, c, t, hc, h1⟩

theorem dumps_inj {s s' : List WChar} (hs : (10 : WChar) ∉ s) (hs' : (10 : WChar) ∉ s') :
    ∀ (as : List Ast) (bs : List Ast) (d : Nat) (r r' : List Char),
      (∀ a ∈ as, FromTables s a) → (∀ b ∈ bs, FromTables s' b) → Left d r → Left d r' →
      Ast.dumps d as ++ r = Ast.dumps d bs ++ r' → as = bs ∧ r = r'
  | [], [], d, r, r', _, _, _, _, h => ⟨rfl, by simpa [Ast.dumps] using h⟩
  | [], b :: bs, d, r, r', _, hb, hr, _, h => by
    obtain ⟨c, t, hc, h1⟩ := dumps_start d (hb b List.mem_cons_self) bs r'
    rw [h1] at h
    simp only [Ast.dumps, List.nil_append] at h
    rcases hr with hr | ⟨k, hk, c', t', hc', hr⟩
    · rw [hr] at h; simp at h
    · rw [hr] at h
      have := (leading hc' hc h).1
      omega
  | a :: as, [], d, r, r', ha, _, _, hr, h => by
    obtain ⟨c, t, hc, h1⟩ := dumps_start d (ha a List.mem_cons_self) as r
    rw [h1] at h
    simp only [Ast.dumps, List.nil_append] at h
    rcases hr with hr | ⟨k, hk, c', t', hc', hr⟩
    · rw [hr] at h; simp at h
    · rw [hr] at h
      have := (leading hc hc' h).1
      omega
  | a :: as, b :: bs, d, r, r', ha, hb, hr, hr', h => by
    have ha0 := ha a List.mem_cons_self
    have hb0 := hb b List.mem_cons_self
    obtain ⟨na, la⟩ := ha0.note hs
    obtain ⟨nb, lb⟩ := hb0.note hs'
    have h' : List.replicate d ' ' ++ (((headOf a).name ++ noteOf a) ++
          '\n' :: (Ast.dumps (d + 1) (belowOf a) ++ (Ast.dumps d as ++ r))) =
        List.replicate d ' ' ++ (((headOf b).name ++ noteOf b) ++
          '\n' :: (Ast.dumps (d + 1) (belowOf b) ++ (Ast.dumps d bs ++ r'))) := by
      simpa only [Ast.dumps, dump_eq, List.append_assoc, List.cons_append] using h
    obtain ⟨h1, h2⟩ := split_at la lb (List.append_cancel_left h')
    obtain ⟨h3, h4⟩ := name_note na nb (noteOf_form a) (noteOf_form b) h1
    have has : ∀ a ∈ as, FromTables s a := fun x hx => ha x (List.mem_cons_of_mem _ hx)
    have hbs : ∀ b ∈ bs, FromTables s' b := fun x hx => hb x (List.mem_cons_of_mem _ hx)
    obtain ⟨h5, h6⟩ := dumps_inj hs hs' (belowOf a) (belowOf b) (d + 1) _ _ ha0.children hb0.children
      (left_next has hr) (left_next hbs hr') h2
    obtain ⟨h7, h8⟩ := dumps_inj hs hs' as bs d r r' has hbs hr hr' h6
    exact ⟨by rw [ha0.same hb0 h3 h4 h5, h7], h8⟩
termination_by as => sizeOf as
decreasing_by
  · cases a <;> simp [belowOf] <;> omega
  · simp

theorem firstLine_newline (text : List WChar) : (10 : WChar) ∉ firstLine text := by
  intro h
  have := mem_takeWhile_of h
  simp at this

/-- C93: the syntax tree `ast_print` prints for an accepted line can be told from the trees of all other
lines: the same printed text means the same tree. -/
theorem C93_dump {b b' : Buf} (hb : Reached b) (hb' : Reached b') {d d' : Nat} (hd : d < 3)
    (hd' : d' < 3) {strict strict' : Bool} {fuel fuel' : Nat} {text text' : List WChar}
    {r r' : Parsed} {as as' : List Ast} (h : parseText strict fuel b text d = .ok r)
    (ha : r.ast = some as) (h' : parseText strict' fuel' b' text' d' = .ok r')
    (ha' : r'.ast = some as') (k : Nat) (he : Ast.dumps k as = Ast.dumps k as') : as = as' :=
  (dumps_inj (firstLine_newline text) (firstLine_newline text') as as' k [] []
    (accepted_fromTables hb hd h ha) (accepted_fromTables hb' hd' h' ha') (.inl rfl) (.inl rfl)
    (by simpa using he)).1

/-- `A.` and `A?` are printed differently, `A.` and ` A .` alike. -/
example : (treeOf? (bytes ['A', '.'])).length = 1 ∧
    Ast.dumps 0 (treeOf? (bytes ['A', '.'])) = Ast.dumps 0 (treeOf? (bytes [' ', 'A', ' ', '.'])) ∧
    Ast.dumps 0 (treeOf? (bytes ['A', '.'])) ≠ Ast.dumps 0 (treeOf? (bytes ['A', '?'])) := by
  decide +kernel

/-- Trees in general can be printed alike: an atom `string` of a tree that has a `string` leaf without a
text.  No accepted line has the second. -/
example : Ast.dumps 0 [.leaf .string Emit.string.name] = Ast.dumps 0 [.node .string []] := by
  decide +kernel

end Cnars.Props
