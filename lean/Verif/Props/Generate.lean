import Verif.Parser.Generate
import Verif.Parser.Actions
import Verif.Props.Parsing
import Mathlib.Data.List.Nodup

/-!
# C92, C93: the stub generator, and the printed syntax tree
-/

namespace Cnars.Props
open Cnars Cnars.Parser

/-! ## Names -/

theorem mem_allEmits (e : Emit) : e ∈ allEmits := by cases e <;> decide

theorem name_inj {e f : Emit} (h : e.name = f.name) : e = f := by
  have hn : (allEmits.map Emit.name).Nodup := by decide +kernel
  exact List.inj_on_of_nodup_map hn (mem_allEmits e) (mem_allEmits f) h

/-- A name starts with a letter and has no blanks. -/
theorem name_form (e : Emit) (h : e ≠ .none) :
    (∃ c s, e.name = c :: s) ∧ ∀ c ∈ e.name, c ≠ ' ' ∧ c ≠ '\n' := by
  have : ∀ e ∈ allEmits, e ≠ .none → e.name ≠ [] ∧ ∀ c ∈ e.name, c ≠ ' ' ∧ c ≠ '\n' := by
    decide +kernel
  obtain ⟨h1, h2⟩ := this e (mem_allEmits e) h
  exact ⟨List.exists_cons_of_ne_nil h1, h2⟩

/-- The name is that of some node of the tree. -/
inductive Occurs (e : Emit) : Ast → Prop where
  | leaf (t : List Char) : Occurs e (.leaf e t)
  | node (cs : List Ast) : Occurs e (.node e cs)
  | under (f : Emit) {cs : List Ast} {c : Ast} : c ∈ cs → Occurs e c → Occurs e (.node f cs)

mutual
/-- A test for `Occurs`. -/
def occurs? (e : Emit) : Ast → Bool
  | .leaf f _ => decide (f = e)
  | .node f cs => decide (f = e) || occursAny? e cs
/-- In a list. -/
def occursAny? (e : Emit) : List Ast → Bool
  | [] => false
  | a :: as => occurs? e a || occursAny? e as
end

mutual
theorem occurs_of (e : Emit) : ∀ {a : Ast}, occurs? e a = true → Occurs e a
  | .leaf f t, h => by
    simp only [occurs?, decide_eq_true_eq] at h
    subst h; exact .leaf t
  | .node f cs, h => by
    simp only [occurs?, Bool.or_eq_true, decide_eq_true_eq] at h
    rcases h with rfl | h
    · exact .node cs
    · obtain ⟨c, hc, h⟩ := occursAny_of e h
      exact .under f hc h
theorem occursAny_of (e : Emit) : ∀ {as : List Ast}, occursAny? e as = true →
    ∃ a ∈ as, Occurs e a
  | [], h => by simp [occursAny?] at h
  | a :: as, h => by
    simp only [occursAny?, Bool.or_eq_true] at h
    rcases h with h | h
    · exact ⟨a, List.mem_cons_self, occurs_of e h⟩
    · obtain ⟨c, hc, h⟩ := occursAny_of e h
      exact ⟨c, List.mem_cons_of_mem _ hc, h⟩
end

/-- What the nodes of a syntax tree have to be: leaves with the names of symbols and the text of the
line, inner nodes with the names of productions. -/
inductive FromTables (chars : List WChar) : Ast → Prop where
  | leaf {e : Emit} {w : List WChar} : e ≠ .none → e ∈ narsese.symbols.map (·.emit) →
      (∀ c ∈ w, c ∈ chars) → FromTables chars (.leaf e (w.map toChar))
  | node {e : Emit} {cs : List Ast} : e ≠ .none → e ∈ narsese.prods.map (·.emit) →
      (∀ c ∈ cs, FromTables chars c) → FromTables chars (.node e cs)

theorem FromTables.mono {s t : List WChar} (h : ∀ c ∈ s, c ∈ t) {a : Ast} (ha : FromTables s a) :
    FromTables t a := by
  induction ha with
  | leaf h1 h2 h3 => exact .leaf h1 h2 (fun c hc => h c (h3 c hc))
  | node h1 h2 _ ih => exact .node h1 h2 ih

theorem getD_mem {α : Type} (f : α → Emit) (l : List α) (i : Nat)
    (h : ((l[i]?).map f).getD .none ≠ .none) : ((l[i]?).map f).getD .none ∈ l.map f := by
  cases hi : l[i]? with
  | none => rw [hi] at h; simp at h
  | some x => simpa using ⟨x, List.mem_of_getElem? hi, rfl⟩

mutual
theorem tree_fromTables : ∀ (t : PTree), ∀ a ∈ t.ast narsese, FromTables t.yield a
  | .leaf s w, a, ha => by
    simp only [PTree.ast, leafNodes] at ha
    split at ha
    · simp at ha
    · rename_i hs
      rw [List.mem_singleton] at ha
      subst ha
      exact .leaf hs (getD_mem _ _ _ hs) (fun c hc => by simpa [PTree.yield] using hc)
  | .node p cs, a, ha => by
    simp only [PTree.ast, wrapNodes] at ha
    split at ha
    · exact trees_fromTables cs a ha
    · rename_i hs
      rw [List.mem_singleton] at ha
      subst ha
      exact .node hs (getD_mem _ _ _ hs) (fun c hc => trees_fromTables cs c hc)
theorem trees_fromTables : ∀ (ts : List PTree), ∀ a ∈ PTree.asts narsese ts,
    FromTables (PTree.yields ts) a
  | [], a, ha => by simp [PTree.asts] at ha
  | t :: ts, a, ha => by
    simp only [PTree.asts, List.mem_append] at ha
    rcases ha with ha | ha
    · exact (tree_fromTables t a ha).mono (fun c hc => by simp [PTree.yields, hc])
    · exact (trees_fromTables ts a ha).mono (fun c hc => by simp [PTree.yields, hc])
end

theorem accepted_fromTables {b : Buf} (hb : Reached b) {d : Nat} (hd : d < 3) {strict : Bool}
    {fuel : Nat} {text : List WChar} {r : Parsed} (h : parseText strict fuel b text d = .ok r)
    {as : List Ast} (ha : r.ast = some as) : ∀ a ∈ as, FromTables (firstLine text) a := by
  obtain ⟨t, _, _, hy, rfl⟩ := (parseText_ok hb.empty hd h).2 as ha
  exact hy ▸ tree_fromTables t

/-! ## C92 -/

/-- Lines with all kinds of nodes. -/
def allKinds : List (List WChar) :=
  [['$', '.', '5', ';', '.', '5', ';', '.', '5', '$', '<', '$', 'x', '-', '-', '>', '#', 'y', '>', '.',
      ':', '|', ':', '%', '1', ';', '.', '9', ';', '1', '%'],
   ['<', 'A', '<', '-', '>', '?', 'x', '>', '?', ':', '/', ':'],
   ['<', 'A', '{', '-', '-', 'B', '>', '!', ':', '\\', ':'],
   ['<', 'A', '-', '-', ']', 'B', '>', '@', ':', '!', '5', ':'],
   ['<', 'A', '{', '-', ']', 'B', '>', '.'],
   ['<', 'A', '=', '=', '>', 'B', '>', '.'],
   ['<', 'A', '=', '/', '>', 'B', '>', '.'],
   ['<', 'A', '=', '|', '>', 'B', '>', '.'],
   ['<', 'A', '=', '\\', '>', 'B', '>', '.'],
   ['<', 'A', '<', '=', '>', 'B', '>', '.'],
   ['<', 'A', '<', '/', '>', 'B', '>', '.'],
   ['<', 'A', '<', '|', '>', 'B', '>', '.'],
   ['(', '^', 'g', 'o', ',', 'A', ')', '.'],
   ['g', 'o', '(', 'A', ')', '.'],
   ['(', 'A', '*', 'B', ')', '.'],
   ['(', 'A', '|', '|', 'B', ')', '.'],
   ['(', 'A', '&', '&', 'B', ')', '.'],
   ['(', 'A', '&', '/', '+', '5', ')', '.'],
   ['(', 'A', '&', '|', 'B', ')', '.'],
   ['(', 'A', '|', 'B', ')', '.'],
   ['(', 'A', '&', 'B', ')', '.'],
   ['(', 'A', ',', 'B', ')', '.'],
   ['(', '&', '&', ',', 'A', ',', 'B', ')', '.'],
   ['(', '|', '|', ',', 'A', ',', 'B', ')', '.'],
   ['(', '&', '|', ',', 'A', ',', 'B', ')', '.'],
   ['(', '&', '/', ',', 'A', ',', 'B', ')', '.'],
   ['(', '|', ',', 'A', ',', 'B', ')', '.'],
   ['(', '&', ',', 'A', ',', 'B', ')', '.'],
   ['(', '*', ',', 'A', ',', 'B', ')', '.'],
   ['(', '-', ',', 'A', ',', 'B', ')', '.'],
   ['(', 'A', '~', 'B', ')', '.'],
   ['(', '\\', ',', 'A', ',', 'B', ')', '.'],
   ['(', '/', ',', 'A', ',', 'B', ')', '.'],
   ['[', 'A', ']', '.'],
   ['{', '"', 'A', '"', '}', '.'],
   ['-', '-', '<', 'A', '-', '-', '>', 'B', '>', '.']].map bytes

/-- The tree of an accepted line, or no tree. -/
def treeOf? (text : List WChar) : List Ast :=
  match parseText true 1000 freshBuf text 0 with
  | .ok r => match r.ast with
    | some a => a
    | none => []
  | _ => []

/-- A kind of node that the parser makes: it is in the tree of some line, read in some state. -/
def Made (e : Emit) : Prop :=
  ∃ (b : Buf) (d fuel : Nat) (text : List WChar) (r : Parsed) (as : List Ast), Reached b ∧ d < 3 ∧
    parseText true fuel b text d = .ok r ∧ r.ast = some as ∧ ∃ a ∈ as, Occurs e a

theorem made_of (e : Emit) (h : e ≠ .none) : Made e := by
  have : ∀ e ∈ allEmits, e ≠ .none → ∃ x ∈ allKinds, occursAny? e (treeOf? x) = true := by
    decide +kernel
  obtain ⟨x, _, hx⟩ := this e (mem_allEmits e) h
  unfold treeOf? at hx
  split at hx
  · rename_i r hr
    split at hx
    · rename_i a ha
      exact ⟨_, _, _, _, _, _, .fresh, by omega, hr, ha, occursAny_of e hx⟩
    · simp [occursAny?] at hx
  · simp [occursAny?] at hx

theorem FromTables.occurs {s : List WChar} {e : Emit} {a : Ast} (h : Occurs e a)
    (ha : FromTables s a) : e ≠ .none := by
  induction h with
  | leaf t => cases ha; assumption
  | node cs => cases ha; assumption
  | under f hc _ ih => cases ha with | node _ _ h => exact ih (h _ hc)

theorem made_iff (e : Emit) : Made e ↔ e ≠ .none := by
  refine ⟨?_, made_of e⟩
  rintro ⟨b, d, fuel, text, r, as, hb, hd, hp, ha, a, hm, ho⟩
  exact FromTables.occurs ho (accepted_fromTables hb hd hp ha a hm)

/-- `regist("name",name);` -/
def registText (n : List Char) : List Char :=
  ['\t', 'r', 'e', 'g', 'i', 's', 't', '(', '"'] ++ n ++ ['"', ','] ++ n ++ [')', ';']

/-- How often a prototype, a definition and (blanks apart) a registration for a name are in a file. -/
def stubs (file : List (List Char)) (n : List Char) : Nat × Nat × Nat :=
  (file.count (protoLine n), file.count (defLine n),
    (file.map (List.filter (fun c => c ≠ ' '))).count (registText n))

/-- C92: if the compiler merges empty string literals, the file has exactly one prototype, definition and
registration for each kind of node the parser makes, and none for the empty name. -/
theorem C92_stubs (e : Emit) :
    (Made e → stubs (generate true narsese) e.name = (1, 1, 1)) ∧
      (¬ Made e → stubs (generate true narsese) e.name = (0, 0, 0)) := by
  have : ∀ e ∈ allEmits, stubs (generate true narsese) e.name =
      if e = .none then (0, 0, 0) else (1, 1, 1) := by decide +kernel
  rw [this e (mem_allEmits e), made_iff]
  constructor
  · intro h; rw [if_neg h]
  · intro h; rw [if_pos (not_not.mp h)]

example : Made .judgement ∧ ¬ Made .none := by simp [made_iff]

theorem proto_mem {names : List (List Char)} {n : List Char} (h : protoLine n ∈ fileFor names) :
    n ∈ names := by
  unfold fileFor at h
  simp only [List.mem_append, List.mem_cons, List.mem_map, List.mem_flatMap, List.not_mem_nil,
    or_false, bodyLines] at h
  have inj : ∀ m, protoLine m = protoLine n → m = n := by
    intro m hm
    simpa [protoLine] using hm
  have hd : ∀ m, protoLine n ≠ defLine m := by simp [protoLine, defLine]
  have hr : ∀ k m, registLine k m ≠ protoLine n := by simp [protoLine, registLine]
  have hx : ∀ c s, c ≠ '\t' → protoLine n ≠ c :: s := by
    intro c s hc h; simp only [protoLine, List.cons_append, List.cons.injEq] at h; exact hc h.1.symm
  have hy : ∀ c s, c ≠ 'e' → protoLine n ≠ '\t' :: c :: s := by
    intro c s hc h; simp only [protoLine, List.cons_append, List.cons.injEq] at h; exact hc h.2.1.symm
  have hz : protoLine n ≠ [] := by simp [protoLine]
  rcases h with (((((h | ⟨m, hm, h⟩) | h | h) | h | ⟨m, hm, h | h | h | h | h⟩) | h | h) | h |
    ⟨m, hm, h⟩) | h | h
  all_goals first
    | exact absurd h hz
    | exact absurd h (hd _)
    | exact absurd h (hr _ _)
    | exact inj m h ▸ hm
    | exact absurd h (hx _ _ (by decide))
    | exact absurd h (hy _ _ (by decide))

/-- C92: and the file declares nothing else. -/
theorem C92_only {n : List Char} (h : protoLine n ∈ generate true narsese) :
    ∃ e, Made e ∧ n = e.name := by
  have hc : n ∈ collected true narsese := proto_mem h
  unfold collected at hc
  rw [List.mem_map] at hc
  obtain ⟨e, he, rfl⟩ := hc
  refine ⟨e, (made_iff e).2 ?_, rfl⟩
  rintro rfl
  simp at he

/-- C92: the constructor of the parser registers exactly these names. -/
theorem C92_registered (e : Emit) : e ∈ registered ↔ Made e := by
  have : ∀ e ∈ allEmits, e ∈ registered ↔ e ≠ .none := by decide +kernel
  rw [made_iff]
  exact this e (mem_allEmits e)

theorem foldl_max (names : List (List Char)) (m : Nat) :
    m ≤ names.foldl (fun m n => if m < n.length then n.length else m) m ∧
      ∀ n ∈ names, n.length ≤ names.foldl (fun m n => if m < n.length then n.length else m) m := by
  induction names generalizing m with
  | nil => simp
  | cons a l ih =>
    obtain ⟨h1, h2⟩ := ih (if m < a.length then a.length else m)
    rw [List.foldl_cons]
    refine ⟨le_trans (by split <;> omega) h1, ?_⟩
    intro n hn
    rcases List.mem_cons.mp hn with rfl | hn
    · exact le_trans (by split <;> omega) h1
    · exact h2 n hn

/-- C92: for every list of names, the registrations are written below each other in columns. -/
theorem C92_aligned (names : List (List Char)) {m n : List Char} (hm : m ∈ names) (hn : n ∈ names) :
    (registLine (maxLen names) m).length = (registLine (maxLen names) n).length := by
  have h1 := (foldl_max names 0).2 m hm
  have h2 := (foldl_max names 0).2 n hn
  unfold registLine padLeft maxLen
  simp only [List.length_append, List.length_cons, List.length_nil, List.length_replicate]
  omega

/-- C92 needs the merging: with other compilers the file has 430 prototypes without a name. -/
theorem C92_merging_counterexample : (stubs (generate false narsese) []).1 = 430 := by
  decide +kernel

end Cnars.Props
