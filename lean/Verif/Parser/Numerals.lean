import Verif.Parser.Mentions
import Verif.Parser.Ranges

/-!
# The numerals of a line; no compound is written without components
-/

namespace Cnars.Parser
open Cnars Cnars.Props

/-- The number that a numeral denotes. -/
def Denotes (s : List Char) (x : ℚ) : Prop := Decimal s x ∨ ∃ n : Int, Numeral s n ∧ x = n

/-! ## Leaves -/

/-- The names of the tokens that are words. -/
def Emit.isWord : Emit → Bool
  | .string | .string_raw => true
  | _ => false

mutual
/-- The texts of the leaves that are numerals. -/
def Ast.numTexts : Ast → List (List Char)
  | .leaf e s => if e.isWord then [] else [s]
  | .node _ cs => Ast.numTextsAll cs
/-- Of siblings. -/
def Ast.numTextsAll : List Ast → List (List Char)
  | [] => []
  | a :: as => Ast.numTexts a ++ Ast.numTextsAll as
end

theorem Ast.numTextsAll_append (as bs : List Ast) :
    Ast.numTextsAll (as ++ bs) = Ast.numTextsAll as ++ Ast.numTextsAll bs := by
  induction as with
  | nil => rfl
  | cons a as ih => simp [Ast.numTextsAll, ih]

mutual
/-- The tokens in it that make leaves are words or numerals. -/
def Gram.numeric : Gram → Bool
  | .tok r e => e = .none || e.isWord || r = .int || r = .unit || r = .openUnit || r = .posNat
  | .nt _ => true
  | .grp alts => numericAlts alts
  | .opt g => g.numeric
  | .star g => g.numeric
  | .plus g => g.numeric
def numericAll : List Gram → Bool
  | [] => true
  | g :: gs => g.numeric && numericAll gs
def numericAlts : List (List Gram) → Bool
  | [] => true
  | b :: bs => numericAll b && numericAlts bs
end

theorem numericAlts_mem {bs : List (List Gram)} (h : numericAlts bs = true) :
    ∀ b ∈ bs, numericAll b = true := by
  induction bs with
  | nil => simp
  | cons b bs ih =>
    simp only [numericAlts, Bool.and_eq_true] at h
    intro c hc
    rcases List.mem_cons.mp hc with rfl | hc
    · exact h.1
    · exact ih h.2 c hc

theorem numeric_rule {n : NT} {body : List Gram} {e : Emit} (h : (body, e) ∈ rules n) :
    numericAll body = true := by
  have key : ∀ n, (rules n).all (fun r => numericAll r.1) = true := by
    intro n; cases n <;> rfl
  exact List.all_eq_true.mp (key n) _ h

theorem derivesAll_numerals {gs : List Gram} {u : List WChar} {a : List Ast}
    (h : DerivesAll gs u a) : numericAll gs = true → ∀ s ∈ Ast.numTextsAll a, ∃ x, Denotes s x ∧
      Action.decimal s = some x := by
  refine DerivesAll.rec
    (motive_1 := fun g _ a _ => g.numeric = true → ∀ s ∈ Ast.numTextsAll a, ∃ x, Denotes s x ∧
      Action.decimal s = some x)
    (motive_2 := fun gs _ a _ => numericAll gs = true → ∀ s ∈ Ast.numTextsAll a, ∃ x, Denotes s x ∧
      Action.decimal s = some x)
    ?_ ?_ ?_ ?_ ?_ ?_ ?_ ?_ ?_ ?_ ?_ ?_ ?_ h
  · -- tok_plain
    intro r u _
    simp [Ast.numTextsAll]
  · -- tok_leaf
    intro r e u he hm hg s hs
    simp only [Ast.numTextsAll, Ast.numTexts, List.append_nil] at hs
    split at hs
    · simp at hs
    · rename_i hw
      obtain rfl := List.mem_singleton.mp hs
      have dec : ∀ t x, u = codes t → Decimal t x → ∃ x, Denotes (u.map fun c => Char.ofNat c.toNat) x ∧
          Action.decimal (u.map fun c => Char.ofNat c.toNat) = some x := by
        intro t x hu ht
        subst hu
        change ∃ x, Denotes (textOf (codes t)) x ∧ Action.decimal (textOf (codes t)) = some x
        rw [textOf_codes]
        exact ⟨x, .inl ht, ht.reads⟩
      simp only [Gram.numeric, he, hw, Bool.or_eq_true, decide_eq_true_eq, decide_false, Bool.false_or] at hg
      rcases hg with ((rfl | rfl) | rfl) | rfl
      · obtain ⟨t, n, rfl, h1, h2⟩ := int_split hm
        change ∃ x, Denotes (textOf (codes t)) x ∧ Action.decimal (textOf (codes t)) = some x
        rw [textOf_codes]
        exact ⟨n, .inr ⟨n, h1, rfl⟩, h2⟩
      · obtain ⟨t, x, h1, h2⟩ := unit_split hm
        exact dec t x h1 h2
      · obtain ⟨t, x, h1, h2⟩ := openUnit_split hm
        exact dec t x h1 h2
      · obtain ⟨t, x, h1, h2⟩ := posNat_split hm
        exact dec t x h1 h2
  · -- nt_plain
    intro n body u a hr _ ih _
    exact ih (numeric_rule hr)
  · -- nt_node
    intro n body e u a he hr _ ih _ s hs
    simp only [Ast.numTextsAll, Ast.numTexts, List.append_nil] at hs
    exact ih (numeric_rule hr) s hs
  · -- grp
    intro alts body u a hb _ ih h
    rw [Gram.numeric] at h
    exact ih (numericAlts_mem h _ hb)
  · -- opt_none
    intro g
    simp [Ast.numTextsAll]
  · -- opt_some
    intro g u a _ ih h
    rw [Gram.numeric] at h
    exact ih h
  · -- star_nil
    intro g
    simp [Ast.numTextsAll]
  · -- star_plus
    intro g u a _ ih h
    rw [Gram.numeric] at h
    exact ih (by rw [Gram.numeric]; exact h)
  · -- plus_one
    intro g u a _ ih h
    rw [Gram.numeric] at h
    exact ih h
  · -- plus_more
    intro g u v a b _ _ ih1 ih2 h s hs
    rw [Ast.numTextsAll_append, List.mem_append] at hs
    rcases hs with hs | hs
    · exact ih1 h s hs
    · rw [Gram.numeric] at h
      exact ih2 h s hs
  · -- nil
    simp [Ast.numTextsAll]
  · -- cons
    intro g gs u v a b _ _ ih1 ih2 h s hs
    rw [numericAll, Bool.and_eq_true] at h
    rw [Ast.numTextsAll_append, List.mem_append] at hs
    rcases hs with hs | hs
    · exact ih1 h.1 s hs
    · exact ih2 h.2 s hs

mutual
theorem Ast.numTexts_leaf : ∀ (a : Ast), ∀ s ∈ a.numTexts, s ∈ a.leafTexts
  | .leaf e s => by
    simp only [Ast.numTexts, Ast.leafTexts]
    split <;> simp
  | .node e cs => by
    simp only [Ast.numTexts, Ast.leafTexts]
    exact Ast.numTextsAll_leaf cs
theorem Ast.numTextsAll_leaf : ∀ (as : List Ast), ∀ s ∈ Ast.numTextsAll as, s ∈ Ast.leafTextsAll as
  | [] => by simp [Ast.numTextsAll]
  | a :: as => by
    intro s hs
    simp only [Ast.numTextsAll, Ast.leafTextsAll, List.mem_append] at hs ⊢
    rcases hs with hs | hs
    · exact .inl (Ast.numTexts_leaf a s hs)
    · exact .inr (Ast.numTextsAll_leaf as s hs)
end

/-! ## Parts -/

mutual
/-- The numerals of intervals. -/
def Syn.nums : Syn → List (List Char)
  | .interval s => [s]
  | .name _ | .op _ | .var .. => []
  | .stmt s _ p => Syn.nums s ++ Syn.nums p
  | .comp _ ts => Syn.numsAll ts
  | .call f ts => Syn.nums f ++ Syn.numsAll ts
  | .callName _ ts => Syn.numsAll ts
/-- Of a list. -/
def Syn.numsAll : List Syn → List (List Char)
  | [] => []
  | t :: ts => Syn.nums t ++ Syn.numsAll ts
end

/-- The numerals of a mark. -/
def Mark.nums : Mark → List (List Char)
  | .tense _ => []
  | .time s => [s]
  | .truth ss => ss

/-- The numerals of a task. -/
def taskNums (b : Option (List (List Char))) (t : Syn) (ms : List Mark) : List (List Char) :=
  b.getD [] ++ (t.nums ++ ms.flatMap Mark.nums)

/-- The numerals of a part. -/
def Part.nums : Part → List (List Char)
  | .syn t => t.nums
  | .num s => [s]
  | .mark m => m.nums
  | .budget ss => ss
  | .sentence _ t ms => t.nums ++ ms.flatMap Mark.nums
  | .task b _ t ms => taskNums b t ms
  | _ => []

theorem Part.syns?_nums : ∀ {ps : List Part} {ts : List Syn},
    Part.syns? ps = some ts → Syn.numsAll ts = ps.flatMap Part.nums
  | [], ts, h => by cases h; rfl
  | p :: ps, ts, h => by
    cases p <;> simp only [Part.syns?, reduceCtorEq, Option.map_eq_some_iff] at h
    obtain ⟨us, h, rfl⟩ := h
    simp [Syn.numsAll, Part.syns?_nums h, Part.nums]

theorem Part.marks?_nums : ∀ {ps : List Part} {ts : List Mark},
    Part.marks? ps = some ts → ts.flatMap Mark.nums = ps.flatMap Part.nums
  | [], ts, h => by cases h; rfl
  | p :: ps, ts, h => by
    cases p <;> simp only [Part.marks?, reduceCtorEq, Option.map_eq_some_iff] at h
    obtain ⟨us, h, rfl⟩ := h
    simp [Part.marks?_nums h, Part.nums]

theorem Part.nums?_nums : ∀ {ps : List Part} {ts : List (List Char)},
    Part.nums? ps = some ts → ts = ps.flatMap Part.nums
  | [], ts, h => by cases h; rfl
  | p :: ps, ts, h => by
    cases p <;> simp only [Part.nums?, reduceCtorEq, Option.map_eq_some_iff] at h
    obtain ⟨us, h, rfl⟩ := h
    simp [← Part.nums?_nums h, Part.nums]

theorem Part.build_nums {e : Emit} {ps : List Part} {q : Part} (h : Part.build e ps = some q) :
    ∀ s ∈ q.nums, s ∈ ps.flatMap Part.nums := by
  unfold Part.build at h
  split at h
  all_goals first
    | (simp only [Option.some.injEq] at h
       subst h
       simp [Part.nums, Syn.nums, Syn.numsAll, Mark.nums, taskNums])
    | (simp only [Option.map_eq_some_iff] at h
       obtain ⟨ts, h1, rfl⟩ := h
       first
       | (simp [Part.nums, Syn.nums, Part.syns?_nums h1])
       | (simp [Part.nums, Part.marks?_nums h1])
       | (simp only [Part.nums, Mark.nums]; rw [Part.nums?_nums h1]; exact fun _ h => h))
    | (simp only [Option.or_eq_some_iff, Option.map_eq_some_iff] at h
       rcases h with ⟨c, hc, rfl⟩ | ⟨_, c, hc, rfl⟩
       all_goals simp [Part.nums])
    | (simp at h)

mutual
theorem Ast.part_nums : ∀ {a : Ast} {p : Part}, a.part = some p → ∀ s ∈ p.nums, s ∈ a.numTexts
  | .leaf e t, p, h => by
    simp only [Ast.part, Option.some.injEq] at h
    subst h
    cases e <;> simp [Part.ofLeaf, Part.nums, Ast.numTexts, Emit.isWord]
  | .node e cs, p, h => by
    simp only [Ast.part, Option.bind_eq_some_iff] at h
    obtain ⟨ps, h1, h2⟩ := h
    intro s hs
    exact Ast.partAll_nums h1 s (Part.build_nums h2 s hs)
theorem Ast.partAll_nums : ∀ {as : List Ast} {ps : List Part}, partAll as = some ps →
    ∀ s ∈ ps.flatMap Part.nums, s ∈ Ast.numTextsAll as
  | [], ps, h => by cases h; simp
  | a :: as, ps, h => by
    simp only [partAll, Option.bind_eq_some_iff, Option.map_eq_some_iff] at h
    obtain ⟨p, h1, qs, h2, rfl⟩ := h
    intro s hs
    rw [List.flatMap_cons, List.mem_append] at hs
    rw [Ast.numTextsAll, List.mem_append]
    rcases hs with hs | hs
    · exact .inl (Ast.part_nums h1 s hs)
    · exact .inr (Ast.partAll_nums h2 s hs)
end

/-- The numerals of a line are written in it and denote numbers. -/
theorem IsNarsese.nums {line : List WChar} {as : List Ast} (h : IsNarsese line as) {b t p ms}
    (hp : partAll as = some [.task b p t ms]) : ∀ s ∈ taskNums b t ms,
      Written line s ∧ ∃ x, Denotes s x ∧ Action.decimal s = some x := by
  intro s hs
  have := Ast.partAll_nums hp s (by simpa [Part.nums] using hs)
  exact ⟨DerivesAll.written h s (Ast.numTextsAll_leaf _ s this), derivesAll_numerals h rfl s this⟩

/-! ## Components -/

mutual
/-- Every compound in it has components. -/
def Syn.Filled : Syn → Prop
  | .name _ | .op _ | .interval _ | .var .. => True
  | .stmt s _ p => Syn.Filled s ∧ Syn.Filled p
  | .comp _ ts => ts ≠ [] ∧ Syn.FilledAll ts
  | .call f ts => Syn.Filled f ∧ Syn.FilledAll ts
  | .callName _ ts => Syn.FilledAll ts
/-- In all. -/
def Syn.FilledAll : List Syn → Prop
  | [] => True
  | t :: ts => Syn.Filled t ∧ Syn.FilledAll ts
end

/-- Of the terms of a part. -/
def Part.Filled : Part → Prop
  | .syn t => t.Filled
  | .sentence _ t _ => t.Filled
  | .task _ _ t _ => t.Filled
  | _ => True

theorem Part.syns?_filled : ∀ {ps : List Part} {ts : List Syn},
    Part.syns? ps = some ts → (∀ p ∈ ps, p.Filled) → Syn.FilledAll ts
  | [], ts, h, _ => by cases h; trivial
  | p :: ps, ts, h, hp => by
    cases p <;> simp only [Part.syns?, reduceCtorEq, Option.map_eq_some_iff] at h
    obtain ⟨us, h, rfl⟩ := h
    exact ⟨hp (.syn _) (by simp), Part.syns?_filled h fun p hm => hp p (List.mem_cons_of_mem _ hm)⟩

theorem Part.syns?_nil {ps : List Part} (h : Part.syns? ps = some []) : ps = [] := by
  cases ps with
  | nil => rfl
  | cons p ps => cases p <;> simp [Part.syns?] at h

/-- The nodes with components. -/
def Emit.isCompound : Emit → Bool
  | .set | .int_image | .ext_image | .negation | .multi_prefix | .single_prefix | .single_infix
  | .multi_prefix_product | .multi_prod_expr | .multi_disj_expr | .multi_conj_expr
  | .multi_sequential_expr | .multi_parallel_expr | .multi_intint_expr | .multi_extint_expr => true
  | _ => false

theorem Part.build_filled {e : Emit} {ps : List Part} {q : Part} (h : Part.build e ps = some q)
    (hp : ∀ p ∈ ps, p.Filled) (hl : e.isCompound = true → 2 ≤ ps.length) : q.Filled := by
  unfold Part.build at h
  split at h
  all_goals first
    | (simp only [Option.some.injEq] at h
       subst h
       first
       | trivial
       | (simp only [List.mem_cons, List.not_mem_nil, or_false, forall_eq_or_imp, forall_eq,
            Part.Filled] at hp
          simp only [Part.Filled, Syn.Filled, Syn.FilledAll]
          first | exact hp | exact hp.1 | exact hp.2 | exact ⟨hp.1, hp.2.2⟩
                | exact ⟨by simp, hp.1, hp.2.2, trivial⟩))
    | (simp only [Option.map_eq_some_iff] at h
       obtain ⟨ts, h1, rfl⟩ := h
       first
       | trivial
       | exact hp (.syn _) List.mem_cons_self
       | exact ⟨hp (.syn _) List.mem_cons_self, Part.syns?_filled h1 fun p hm => hp p (by simp [hm])⟩
       | exact Part.syns?_filled (ts := ts) h1 fun p hm => hp p (by simp [hm])
       | (refine ⟨fun e => ?_, Part.syns?_filled h1 fun p hm => hp p (by simp [hm])⟩
          rw [e] at h1
          have := hl rfl
          rw [Part.syns?_nil h1] at this
          simp at this))
    | (simp only [Option.or_eq_some_iff, Option.map_eq_some_iff] at h
       rcases h with ⟨c, hc, rfl⟩ | ⟨_, c, hc, rfl⟩
       all_goals trivial)
    | simp at h

theorem Pat.Fits.length {p : Pat} {ts : List Ty} (h : p.Fits ts) : p.1.length ≤ ts.length := by
  unfold Pat.Fits at h
  split at h
  · rw [h]
  · obtain ⟨n, rfl⟩ := h
    simp

theorem compound_args {e : Emit} (he : e.isCompound = true) {p : Pat} (hp : p ∈ e.args) :
    2 ≤ p.1.length := by
  have key : ∀ e : Emit, e.isCompound = true → e.args.all (fun p => decide (2 ≤ p.1.length)) = true := by
    intro e; cases e <;> decide
  simpa using List.all_eq_true.mp (key e he) p hp

theorem partAll_length : ∀ {as : List Ast} {ps : List Part}, partAll as = some ps →
    ps.length = as.length
  | [], ps, h => by cases h; rfl
  | a :: as, ps, h => by
    simp only [partAll, Option.bind_eq_some_iff, Option.map_eq_some_iff] at h
    obtain ⟨p, h1, qs, h2, rfl⟩ := h
    simp [partAll_length h2]

mutual
theorem Ast.part_filled : ∀ {a : Ast} {p : Part}, a.Typed → a.part = some p → p.Filled
  | .leaf e t, p, _, h => by
    simp only [Ast.part, Option.some.injEq] at h
    subst h
    unfold Part.ofLeaf
    split <;> trivial
  | .node e cs, p, ht, h => by
    simp only [Ast.part, Option.bind_eq_some_iff] at h
    obtain ⟨ps, h1, h2⟩ := h
    cases ht with
    | node hc hp hf =>
      refine Part.build_filled h2 (Ast.partAll_filled hc h1) fun he => ?_
      have := hf.length
      have h3 := compound_args he hp
      rw [List.length_map, ← partAll_length h1] at this
      omega
theorem Ast.partAll_filled : ∀ {as : List Ast} {ps : List Part}, (∀ a ∈ as, a.Typed) →
    partAll as = some ps → ∀ p ∈ ps, p.Filled
  | [], ps, _, h => by cases h; simp
  | a :: as, ps, ht, h => by
    simp only [partAll, Option.bind_eq_some_iff, Option.map_eq_some_iff] at h
    obtain ⟨p, h1, qs, h2, rfl⟩ := h
    intro q hq
    rcases List.mem_cons.mp hq with rfl | hq
    · exact Ast.part_filled (ht a (by simp)) h1
    · exact Ast.partAll_filled (fun a ha => ht a (by simp [ha])) h2 q hq
end

end Cnars.Parser
