import Verif.Parser.Actions
import Verif.Parser.Ebnf

/-!
# Which values the actions get

Types of values, and the proof that for a syntax tree of the grammar every action finds arguments of
the types it reads.
-/

namespace Cnars.Parser
open Cnars

/-- Types of the objects behind the pointers; the two kinds of tuple are `tense` and `truth`. -/
inductive Ty where
  | term | copula | conn | str | dbl | tense | truth | budget | sentence | task
  deriving DecidableEq, Repr

/-- The type of a value. -/
def Val.ty : Val → Option Ty
  | .term _ => some .term
  | .copula _ => some .copula
  | .conn _ => some .conn
  | .str _ => some .str
  | .dbl _ => some .dbl
  | .tense _ => some .tense
  | .truth _ => some .truth
  | .budget _ => some .budget
  | .sentence _ => some .sentence
  | .task _ => some .task
  | .cstr _ => none
  | .null => none

/-- Argument lists: some types, then any number of a type. -/
abbrev Pat := List Ty × Option Ty

/-- Exactly these types. -/
def Pat.only (ts : List Ty) : Pat := (ts, none)

/-- A list of types fits a pattern. -/
def Pat.Fits (p : Pat) (ts : List Ty) : Prop :=
  match p.2 with
  | none => ts = p.1
  | some t => ∃ n, ts = p.1 ++ List.replicate n t

/-- The type of the result of an action. -/
def Emit.res : Emit → Ty
  | .task => .task
  | .judgement | .question | .goal | .quest => .sentence
  | .inheritance | .similarity | .instance | .property | .instance_property | .implication
  | .predictive_implication | .concurrent_implication | .retrospective_implication | .equivalence
  | .predictive_equivalence | .concurrent_equivalence => .copula
  | .con_conjunction | .con_disjunction | .con_parallel_events | .con_sequential_events
  | .con_intensional_intersection | .con_extensional_intersection | .con_extensional_difference
  | .con_intensional_difference | .con_int_set | .con_ext_set | .con_negation | .con_int_image
  | .con_ext_image | .con_product => .conn
  | .tense_time | .tense_future | .tense_present | .tense_past => .tense
  | .truth => .truth
  | .budget => .budget
  | .string | .string_raw => .str
  | .quality | .durability | .priority | .k_evidence | .confidence | .frequency | .integer => .dbl
  | _ => .term

/-- The names of tokens. -/
def Emit.isLeaf : Emit → Bool
  | .string | .string_raw | .quality | .durability | .priority | .k_evidence | .confidence
  | .frequency | .integer => true
  | _ => false

/-- The argument lists of the other actions. -/
def Emit.args : Emit → List Pat
  | .task => [.only [.sentence], .only [.budget, .sentence]]
  | .judgement | .goal =>
    [.only [.term], .only [.term, .tense], .only [.term, .truth], .only [.term, .tense, .truth]]
  | .question | .quest => [.only [.term], .only [.term, .tense]]
  | .statement => [.only [.term, .copula, .term]]
  | .statement_operation1 => [([.term], some .term)]
  | .statement_operation2 => [([.str, .term], some .term)]
  | .variable_term | .compound_term | .statement_term | .multi_infix => [.only [.term]]
  | .atom_term | .operation => [.only [.str]]
  | .interval | .tense_time => [.only [.dbl]]
  | .set | .int_image | .ext_image => [([.conn, .term], some .term)]
  | .negation => [.only [.conn, .term]]
  | .multi_prefix_product => [([.term, .term], some .term)]
  | .multi_prefix => [([.conn, .term, .term], some .term), ([.conn, .term], some .term)]
  | .single_prefix => [.only [.conn, .term, .term]]
  | .single_infix => [.only [.term, .conn, .term]]
  | .multi_prod_expr | .multi_disj_expr | .multi_conj_expr | .multi_sequential_expr
  | .multi_parallel_expr | .multi_intint_expr | .multi_extint_expr => [([.term, .term], some .term)]
  | .independent_var | .dependent_var | .query_var => [.only [.str]]
  | .truth | .budget => [.only [.dbl], .only [.dbl, .dbl], .only [.dbl, .dbl, .dbl]]
  | e => if e.res = .copula ∨ e.res = .conn ∨ e.res = .tense then [.only []] else []

/-- The type a syntax tree evaluates to. -/
def Ast.ty : Ast → Ty
  | .leaf e _ => e.res
  | .node e _ => e.res

/-- Every action in the tree gets what it expects. -/
inductive Ast.Typed : Ast → Prop where
  | leaf {e : Emit} {token : List Char} : e.isLeaf = true → Typed (.leaf e token)
  | node {e : Emit} {cs : List Ast} {p : Pat} : (∀ c ∈ cs, Typed c) → p ∈ e.args →
      p.Fits (cs.map Ast.ty) → Typed (.node e cs)

/-! ## Trees of the grammar are typed -/

/-- One pattern after another. -/
def Pat.seq (p q : Pat) : Option Pat :=
  match p.2 with
  | none => some (p.1 ++ q.1, q.2)
  | some t => if q = ([], none) ∨ q = ([], some t) then some p else none

/-- Any number of times a pattern. -/
def Pat.star (p : Pat) : Option Pat :=
  match p with
  | ([], none) => some ([], none)
  | ([t], none) => some ([], some t)
  | _ => none

/-- At least once a pattern. -/
def Pat.plus (p : Pat) : Option Pat :=
  match p with
  | ([], none) => some ([], none)
  | ([t], none) => some ([t], some t)
  | _ => none

/-- Patterns for all combinations. -/
def seqAll (ps qs : List Pat) : Option (List Pat) :=
  (ps.flatMap fun p => qs.map fun q => p.seq q).mapM id

/-- The patterns of the nonterminals. -/
def NT.pats : NT → List Pat
  | .task => [([.task], none)]
  | .sentence => [([.sentence], none)]
  | .copula => [([.copula], none)]
  | .int_set | .ext_set => [([.conn, .term], some .term)]
  | .con_multi | .con_product | .con_single | .con_int_set | .con_ext_set | .con_negation
  | .con_int_image | .con_ext_image => [([.conn], none)]
  | .tense => [([.tense], none)]
  | .desire | .truth => [([.truth], none)]
  | .budget => [([.budget], none)]
  | .word => [([.str], none)]
  | _ => [([.term], none)]

mutual
/-- The patterns of a part of a rule; `none` if there are none of the needed form. -/
def Gram.pats : Gram → Option (List Pat)
  | .tok _ e =>
    if e = .none then some [([], none)]
    else if e.isLeaf then some [([e.res], none)] else none
  | .nt n => some n.pats
  | .grp alts => patsAlts alts
  | .opt g => (Gram.pats g).map (([], none) :: ·)
  | .star g => (Gram.pats g).bind fun ps =>
    match ps with
    | [p] => (p.star).map ([·])
    | _ => none
  | .plus g => (Gram.pats g).bind fun ps =>
    match ps with
    | [p] => (p.plus).map ([·])
    | _ => none
/-- Of a sequence. -/
def patsSeq : List Gram → Option (List Pat)
  | [] => some [([], none)]
  | g :: gs => (Gram.pats g).bind fun ps => (patsSeq gs).bind fun qs => seqAll ps qs
/-- Of alternatives. -/
def patsAlts : List (List Gram) → Option (List Pat)
  | [] => some []
  | b :: bs => (patsSeq b).bind fun ps => (patsAlts bs).bind fun qs => some (ps ++ qs)
end

/-- A rule respects the patterns. -/
def typeOk (n : NT) (r : List Gram × Emit) : Bool :=
  match patsSeq r.1 with
  | none => false
  | some ps =>
    if r.2 = .none then ps.all fun p => p ∈ n.pats
    else (ps.all fun p => p ∈ r.2.args) && decide (([r.2.res], none) ∈ n.pats)

/-- All nonterminals. -/
def NT.all : List NT :=
  [.task, .sentence, .statement, .copula, .term, .term_nonvar, .op, .interval, .compound_term,
   .set, .int_set, .ext_set, .negation, .int_image, .ext_image, .multi, .single,
   .multi_infix_expr, .multi_prod_expr, .multi_disj_expr, .multi_conj_expr, .multi_sequential_expr,
   .multi_parallel_expr, .multi_intint_expr, .multi_extint_expr, .con_multi, .con_product,
   .con_single, .con_int_set, .con_ext_set, .con_negation, .con_int_image, .con_ext_image,
   .variable, .tense, .desire, .truth, .budget, .word]

theorem NT.mem_all (n : NT) : n ∈ NT.all := by cases n <;> decide

theorem types_ok : (NT.all.all fun n => (rules n).all (typeOk n)) = true := by decide +kernel

theorem rule_ok {n : NT} {r : List Gram × Emit} (h : r ∈ rules n) : typeOk n r = true := by
  have := types_ok
  rw [List.all_eq_true] at this
  have := this n (NT.mem_all n)
  rw [List.all_eq_true] at this
  exact this r h

theorem mapM_id {α : Type} : ∀ {l : List (Option α)} {r : List α}, l.mapM id = some r →
    ∀ x ∈ l, ∃ y ∈ r, x = some y
  | [], _, _ => by simp
  | a :: as, r, h => by
    simp only [List.mapM_cons, id_eq, Option.pure_def, Option.bind_eq_bind,
      Option.bind_eq_some_iff] at h
    obtain ⟨y, rfl, ys, hys, hr⟩ := h
    simp only [Option.some.injEq] at hr
    subst hr
    intro x hx
    rcases List.mem_cons.mp hx with rfl | hx
    · exact ⟨y, by simp, rfl⟩
    · obtain ⟨z, hz, e⟩ := mapM_id hys x hx
      exact ⟨z, by simp [hz], e⟩

theorem seqAll_mem {ps qs rs : List Pat} (h : seqAll ps qs = some rs) {p q : Pat} (hp : p ∈ ps)
    (hq : q ∈ qs) : ∃ r ∈ rs, p.seq q = some r :=
  mapM_id h _ (List.mem_flatMap.mpr ⟨p, hp, List.mem_map.mpr ⟨q, hq, rfl⟩⟩)

theorem Pat.seq_fits {p q r : Pat} (h : p.seq q = some r) {ts us : List Ty} (hp : p.Fits ts)
    (hq : q.Fits us) : r.Fits (ts ++ us) := by
  obtain ⟨p1, p2⟩ := p
  obtain ⟨q1, q2⟩ := q
  unfold Pat.seq at h
  cases p2 with
  | none =>
    simp only [Option.some.injEq] at h
    subst h
    simp only [Pat.Fits] at hp hq ⊢
    subst hp
    cases q2 with
    | none => simp only at hq ⊢; rw [hq]
    | some t => obtain ⟨n, rfl⟩ := hq; exact ⟨n, by simp⟩
  | some t =>
    simp only at h
    split at h
    · rename_i hc
      simp only [Option.some.injEq] at h
      subst h
      obtain ⟨n, rfl⟩ := hp
      rcases hc with hc | hc
      · obtain ⟨rfl, rfl⟩ := Prod.mk.inj hc
        simp only [Pat.Fits] at hq
        subst hq
        exact ⟨n, by simp⟩
      · obtain ⟨rfl, rfl⟩ := Prod.mk.inj hc
        obtain ⟨m, rfl⟩ := hq
        exact ⟨n + m, by simp only [List.nil_append, List.append_assoc, List.replicate_append_replicate]⟩
    · simp at h

theorem Pat.plus_star {p q : Pat} (h : p.star = some q) : ∃ r, p.plus = some r ∧
    ∀ ts, r.Fits ts → q.Fits ts := by
  obtain ⟨p1, p2⟩ := p
  unfold Pat.star at h
  split at h
  · rename_i e
    obtain ⟨rfl, rfl⟩ := Prod.mk.inj e
    simp only [Option.some.injEq] at h
    exact ⟨_, rfl, fun ts ht => h ▸ ht⟩
  · rename_i t e
    obtain ⟨rfl, rfl⟩ := Prod.mk.inj e
    simp only [Option.some.injEq] at h
    subst h
    refine ⟨_, rfl, fun ts ⟨n, ht⟩ => ⟨n + 1, ?_⟩⟩
    rw [ht]
    simp [List.replicate_succ]
  · simp at h

theorem Pat.star_nil {p q : Pat} (h : p.star = some q) : q.Fits [] := by
  obtain ⟨p1, p2⟩ := p
  unfold Pat.star at h
  split at h
  · simp only [Option.some.injEq] at h; subst h; rfl
  · simp only [Option.some.injEq] at h; subst h; exact ⟨0, rfl⟩
  · simp at h

theorem Pat.plus_one {p q : Pat} (h : p.plus = some q) {ts : List Ty} (ht : p.Fits ts) :
    q.Fits ts := by
  obtain ⟨p1, p2⟩ := p
  unfold Pat.plus at h
  split at h
  · rename_i e
    obtain ⟨rfl, rfl⟩ := Prod.mk.inj e
    simp only [Option.some.injEq] at h
    subst h
    exact ht
  · rename_i t e
    obtain ⟨rfl, rfl⟩ := Prod.mk.inj e
    simp only [Option.some.injEq] at h
    subst h
    simp only [Pat.Fits] at ht
    exact ⟨0, by simp [ht]⟩
  · simp at h

theorem Pat.plus_more {p q : Pat} (h : p.plus = some q) {ts us : List Ty} (ht : q.Fits ts)
    (hu : p.Fits us) : q.Fits (ts ++ us) := by
  obtain ⟨p1, p2⟩ := p
  unfold Pat.plus at h
  split at h
  · rename_i e
    obtain ⟨rfl, rfl⟩ := Prod.mk.inj e
    simp only [Option.some.injEq] at h
    subst h
    simp only [Pat.Fits] at ht hu ⊢
    simp [ht, hu]
  · rename_i t e
    obtain ⟨rfl, rfl⟩ := Prod.mk.inj e
    simp only [Option.some.injEq] at h
    subst h
    obtain ⟨n, rfl⟩ := ht
    simp only [Pat.Fits] at hu
    subst hu
    exact ⟨n + 1, by simp [List.replicate_succ']⟩
  · simp at h

/-- Typed trees with a pattern for their types. -/
def TypedAs (ps : List Pat) (as : List Ast) : Prop :=
  (∀ a ∈ as, a.Typed) ∧ ∃ p ∈ ps, p.Fits (as.map Ast.ty)

theorem patsAlts_mem : ∀ {alts : List (List Gram)} {ps : List Pat}, patsAlts alts = some ps →
    ∀ b ∈ alts, ∃ qs, patsSeq b = some qs ∧ ∀ q ∈ qs, q ∈ ps
  | [], _, _ => by simp
  | b :: bs, ps, h => by
    simp only [patsAlts, Option.bind_eq_some_iff, Option.some.injEq] at h
    obtain ⟨p1, h1, p2, h2, rfl⟩ := h
    intro x hx
    rcases List.mem_cons.mp hx with rfl | hx
    · exact ⟨p1, h1, fun q hq => List.mem_append_left _ hq⟩
    · obtain ⟨qs, e, hq⟩ := patsAlts_mem h2 x hx
      exact ⟨qs, e, fun q hm => List.mem_append_right _ (hq q hm)⟩

theorem derivesAll_typed {gs : List Gram} {u : List WChar} {a : List Ast}
    (h : DerivesAll gs u a) : ∀ ps, patsSeq gs = some ps → TypedAs ps a := by
  refine DerivesAll.rec
    (motive_1 := fun g _ a _ => ∀ ps, Gram.pats g = some ps → TypedAs ps a)
    (motive_2 := fun gs _ a _ => ∀ ps, patsSeq gs = some ps → TypedAs ps a)
    ?_ ?_ ?_ ?_ ?_ ?_ ?_ ?_ ?_ ?_ ?_ ?_ ?_ h
  · -- tok_plain
    intro r u _ ps hp
    simp only [Gram.pats, if_pos] at hp
    simp only [Option.some.injEq] at hp
    subst hp
    exact ⟨by simp, _, List.mem_singleton.mpr rfl, rfl⟩
  · -- tok_leaf
    intro r e u he _ ps hp
    simp only [Gram.pats, if_neg he] at hp
    split at hp
    · rename_i hl
      simp only [Option.some.injEq] at hp
      subst hp
      refine ⟨?_, _, List.mem_singleton.mpr rfl, rfl⟩
      intro x hx
      simp only [List.mem_singleton] at hx
      subst hx
      exact .leaf hl
    · simp at hp
  · -- nt_plain
    intro n body u a hr _ ih ps hp
    simp only [Gram.pats, Option.some.injEq] at hp
    subst hp
    have hk := rule_ok hr
    unfold typeOk at hk
    cases hb : patsSeq body with
    | none => simp [hb] at hk
    | some qs =>
      simp only [hb, if_pos, List.all_eq_true, decide_eq_true_eq] at hk
      obtain ⟨h1, q, hq, hf⟩ := ih qs hb
      exact ⟨h1, q, hk q hq, hf⟩
  · -- nt_node
    intro n body e u a he hr _ ih ps hp
    simp only [Gram.pats, Option.some.injEq] at hp
    subst hp
    have hk := rule_ok hr
    unfold typeOk at hk
    cases hb : patsSeq body with
    | none => simp [hb] at hk
    | some qs =>
      simp only [hb, if_neg he, List.all_eq_true, decide_eq_true_eq, Bool.and_eq_true] at hk
      obtain ⟨h1, q, hq, hf⟩ := ih qs hb
      refine ⟨?_, _, hk.2, rfl⟩
      intro x hx
      simp only [List.mem_singleton] at hx
      subst hx
      exact .node h1 (hk.1 q hq) hf
  · -- grp
    intro alts body u a hb _ ih ps hp
    simp only [Gram.pats] at hp
    obtain ⟨qs, hq, hs⟩ := patsAlts_mem hp body hb
    obtain ⟨h1, q, hm, hf⟩ := ih qs hq
    exact ⟨h1, q, hs q hm, hf⟩
  · -- opt_none
    intro g ps hp
    simp only [Gram.pats, Option.map_eq_some_iff] at hp
    obtain ⟨qs, _, rfl⟩ := hp
    exact ⟨by simp, ([], none), by simp, rfl⟩
  · -- opt_some
    intro g u a _ ih ps hp
    simp only [Gram.pats, Option.map_eq_some_iff] at hp
    obtain ⟨qs, hq, rfl⟩ := hp
    obtain ⟨h1, q, hm, hf⟩ := ih qs hq
    exact ⟨h1, q, List.mem_cons_of_mem _ hm, hf⟩
  · -- star_nil
    intro g ps hp
    simp only [Gram.pats, Option.bind_eq_some_iff] at hp
    obtain ⟨qs, _, hp⟩ := hp
    split at hp
    · simp only [Option.map_eq_some_iff] at hp
      obtain ⟨q, hq, rfl⟩ := hp
      exact ⟨by simp, q, by simp, Pat.star_nil hq⟩
    · simp at hp
  · -- star_plus
    intro g u a _ ih ps hp
    simp only [Gram.pats, Option.bind_eq_some_iff] at hp
    obtain ⟨qs, hq, hp⟩ := hp
    split at hp
    · simp only [Option.map_eq_some_iff] at hp
      obtain ⟨q, hs, rfl⟩ := hp
      obtain ⟨r, hr, hrs⟩ := Pat.plus_star hs
      obtain ⟨h1, r', hm, hf⟩ := ih [r] (by simp [Gram.pats, hq, hr])
      simp only [List.mem_singleton] at hm
      subst hm
      exact ⟨h1, q, by simp, hrs _ hf⟩
    · simp at hp
  · -- plus_one
    intro g u a _ ih ps hp
    simp only [Gram.pats, Option.bind_eq_some_iff] at hp
    obtain ⟨qs, hq, hp⟩ := hp
    split at hp
    · simp only [Option.map_eq_some_iff] at hp
      obtain ⟨q, hs, rfl⟩ := hp
      obtain ⟨h1, r', hm, hf⟩ := ih _ hq
      simp only [List.mem_singleton] at hm
      subst hm
      exact ⟨h1, q, by simp, Pat.plus_one hs hf⟩
    · simp at hp
  · -- plus_more
    intro g u v a b _ _ ih1 ih2 ps hp
    have hp' := hp
    simp only [Gram.pats, Option.bind_eq_some_iff] at hp
    obtain ⟨qs, hq, hp⟩ := hp
    split at hp
    · simp only [Option.map_eq_some_iff] at hp
      obtain ⟨q, hs, rfl⟩ := hp
      obtain ⟨h1, r1, hm1, hf1⟩ := ih1 _ hp'
      obtain rfl := List.mem_singleton.mp hm1
      obtain ⟨h2, r2, hm2, hf2⟩ := ih2 _ hq
      obtain rfl := List.mem_singleton.mp hm2
      refine ⟨?_, r1, by simp, ?_⟩
      · intro x hx
        rcases List.mem_append.mp hx with hx | hx
        · exact h1 x hx
        · exact h2 x hx
      · rw [List.map_append]
        exact Pat.plus_more hs hf1 hf2
    · simp at hp
  · intro ps hp
    simp only [patsSeq, Option.some.injEq] at hp
    subst hp
    exact ⟨by simp, _, List.mem_singleton.mpr rfl, rfl⟩
  · intro g gs u v a b _ _ ih1 ih2 ps hp
    simp only [patsSeq, Option.bind_eq_some_iff] at hp
    obtain ⟨ps1, h1, ps2, h2, hp⟩ := hp
    obtain ⟨t1, p, hpm, hf⟩ := ih1 _ h1
    obtain ⟨t2, q, hqm, hg⟩ := ih2 _ h2
    obtain ⟨r, hr, e⟩ := seqAll_mem hp hpm hqm
    refine ⟨?_, r, hr, ?_⟩
    · intro x hx
      rcases List.mem_append.mp hx with hx | hx
      · exact t1 x hx
      · exact t2 x hx
    · rw [List.map_append]
      exact Pat.seq_fits e hf hg

/-- The syntax tree of a line of Narsese: one typed tree for a task. -/
theorem narsese_typed {line : List WChar} {as : List Ast} (h : IsNarsese line as) :
    ∃ a, as = [a] ∧ a.Typed ∧ a.ty = .task := by
  obtain ⟨h1, p, hp, hf⟩ := derivesAll_typed h [([.task], none)] (by decide +kernel)
  simp only [List.mem_singleton] at hp
  subst hp
  simp only [Pat.Fits] at hf
  rw [List.map_eq_singleton_iff] at hf
  obtain ⟨a, rfl, hf⟩ := hf
  exact ⟨a, rfl, h1 a (by simp), hf⟩

/-! ## Typed trees evaluate without a mistyped read -/

section
variable {v : Val}
theorem ty_term : v.ty = some .term ↔ ∃ t, v = .term t := by cases v <;> simp [Val.ty]
theorem ty_copula : v.ty = some .copula ↔ ∃ t, v = .copula t := by cases v <;> simp [Val.ty]
theorem ty_conn : v.ty = some .conn ↔ ∃ t, v = .conn t := by cases v <;> simp [Val.ty]
theorem ty_str : v.ty = some .str ↔ ∃ t, v = .str t := by cases v <;> simp [Val.ty]
theorem ty_dbl : v.ty = some .dbl ↔ ∃ t, v = .dbl t := by cases v <;> simp [Val.ty]
theorem ty_tense : v.ty = some .tense ↔ ∃ t, v = .tense t := by cases v <;> simp [Val.ty]
theorem ty_truth : v.ty = some .truth ↔ ∃ t, v = .truth t := by cases v <;> simp [Val.ty]
theorem ty_budget : v.ty = some .budget ↔ ∃ t, v = .budget t := by cases v <;> simp [Val.ty]
theorem ty_sentence : v.ty = some .sentence ↔ ∃ t, v = .sentence t := by cases v <;> simp [Val.ty]
theorem ty_task : v.ty = some .task ↔ ∃ t, v = .task t := by cases v <;> simp [Val.ty]
end

/-- Values of given types. -/
def Have (ts : List Ty) (vs : List Val) : Prop := vs.map Val.ty = ts.map some

theorem Have.nil_iff {vs : List Val} : Have [] vs ↔ vs = [] := by simp [Have]

theorem Have.cons_iff {t : Ty} {ts : List Ty} {vs : List Val} :
    Have (t :: ts) vs ↔ ∃ v us, vs = v :: us ∧ v.ty = some t ∧ Have ts us := by
  cases vs <;> simp [Have]

theorem have_terms : ∀ {n : Nat} {vs : List Val}, Have (List.replicate n .term) vs →
    ∃ ts : List Term, vs = ts.map Val.term
  | 0, vs, h => ⟨[], by simpa [Have] using h⟩
  | n + 1, vs, h => by
    rw [List.replicate_succ, Have.cons_iff] at h
    obtain ⟨v, us, rfl, hv, hu⟩ := h
    obtain ⟨t, rfl⟩ := ty_term.mp hv
    obtain ⟨ts, rfl⟩ := have_terms hu
    exact ⟨t :: ts, rfl⟩

theorem terms?_map : ∀ (ts : List Term), Action.terms? (ts.map Val.term) = some ts
  | [] => rfl
  | t :: ts => by simp [Action.terms?, terms?_map ts]

/-- Whenever the computation returns, the value has the type. -/
def Act.Yields (a : Act Val) (t : Ty) : Prop :=
  ∀ env v env', a env = (.ok v, env') → v.ty = some t

theorem Act.bind_ok {α β : Type} {x : Act α} {f : α → Act β} {e e' : Env} {b : β}
    (h : (x >>= f) e = (.ok b, e')) : ∃ a e1, x e = (.ok a, e1) ∧ f a e1 = (.ok b, e') := by
  change Act.bind x f e = _ at h
  unfold Act.bind at h
  split at h
  · rename_i a e1 hx; exact ⟨a, e1, hx, h⟩
  all_goals simp at h

theorem Act.yields_pure {v : Val} {t : Ty} (h : v.ty = some t) : (pure v : Act Val).Yields t := by
  intro e w e' hw
  change (Res.ok v, e) = _ at hw
  simp only [Prod.mk.injEq, Res.ok.injEq] at hw
  rw [← hw.1, h]

theorem Act.yields_bind {α : Type} {x : Act α} {f : α → Act Val} {t : Ty}
    (h : ∀ a, (f a).Yields t) : (x >>= f).Yields t := by
  intro e v e' hv
  obtain ⟨a, e1, _, h2⟩ := Act.bind_ok hv
  exact h a e1 v e' h2

theorem making_yields (args : List Term) (r : Res Term) : (making args r).Yields .term :=
  Act.yields_bind fun _ => Act.yields_bind fun _ => Act.yields_pure rfl

/-- The action, if it gets the right types. -/
def Works (M : Mach) (e : Emit) (args : Option (List Val)) : Prop :=
  ∃ a, act M e args = some a ∧ a.Yields e.res

theorem works_leaf (M : Mach) {e : Emit} (h : e.isLeaf = true) (s : List Char) :
    Works M e (some [.cstr s]) := by
  cases e <;> simp only [Emit.isLeaf, Bool.false_eq_true] at h <;>
    first
    | exact ⟨_, rfl, Act.yields_pure rfl⟩
    | exact ⟨_, rfl, Act.yields_bind fun _ => Act.yields_pure rfl⟩

theorem works_multi (M : Mach) (c : Connector) (ts : List Term) :
    ∃ a, Action.multi_prefix M (.conn c :: ts.map Val.term) = some a ∧ a.Yields .term :=
  ⟨_, by rw [Action.multi_prefix, terms?_map]; rfl, making_yields _ _⟩

theorem marks_have {ts : List Ty} {vs : List Val} (h : Have ts vs) (ht : ∀ t ∈ ts, t = .tense ∨ t = .truth) :
    Action.allMarks vs = true := by
  induction ts generalizing vs with
  | nil => rw [Have.nil_iff] at h; subst h; rfl
  | cons t ts ih =>
    rw [Have.cons_iff] at h
    obtain ⟨v, us, rfl, hv, hu⟩ := h
    have := ih hu fun x hx => ht x (by simp [hx])
    rcases ht t (by simp) with rfl | rfl
    · obtain ⟨_, rfl⟩ := ty_tense.mp hv; simpa [Action.allMarks] using this
    · obtain ⟨_, rfl⟩ := ty_truth.mp hv; simpa [Action.allMarks] using this

theorem works_believed (M : Mach)
    (mk : Stamp.Globals → Term → Truth ℚ → Stamp.Stamp → Sentence ℚ) (c : ℚ) {t : Term}
    {vs : List Val} (h : Action.allMarks vs = true) :
    ∃ a, Action.believed M mk c (.term t :: vs) = some a ∧ a.Yields .sentence := by
  refine ⟨_, if_pos h, Act.yields_bind fun x => Act.yields_bind fun s => ?_⟩
  intro e v e' hv
  simp only [Prod.mk.injEq, Res.ok.injEq] at hv
  rw [← hv.1]
  rfl

theorem works_asked (mk : Stamp.Globals → Term → Stamp.Stamp → Sentence ℚ) {t : Term}
    {vs : List Val} (h : Action.allMarks vs = true) :
    ∃ a, Action.asked mk (.term t :: vs) = some a ∧ a.Yields .sentence := by
  refine ⟨_, if_pos h, Act.yields_bind fun x => Act.yields_bind fun s => ?_⟩
  intro e v e' hv
  simp only [Prod.mk.injEq, Res.ok.injEq] at hv
  rw [← hv.1]
  rfl

theorem have_only {ts : List Ty} {us : List Ty} {vs : List Val} (hf : (Pat.only ts).Fits us)
    (h : Have us vs) : Have ts vs := by
  have : us = ts := hf
  exact this ▸ h

theorem works_node (M : Mach) {e : Emit} {p : Pat} (hp : p ∈ e.args) {ts : List Ty}
    (hf : p.Fits ts) {vs : List Val} (hv : Have ts vs) :
    Works M e (if vs.isEmpty then none else some vs) := by
  unfold Works
  cases e <;> simp only [Emit.args, List.mem_cons, List.not_mem_nil, or_false, Emit.res,
    reduceCtorEq, or_self, or_true, if_true, if_false] at hp
  case task =>
    rcases hp with rfl | rfl <;> have hv := have_only hf hv
    · simp only [Have.cons_iff, Have.nil_iff, ty_sentence] at hv
      obtain ⟨_, _, rfl, ⟨s, rfl⟩, rfl⟩ := hv
      exact ⟨_, rfl, Act.yields_bind fun _ => Act.yields_pure rfl⟩
    · simp only [Have.cons_iff, Have.nil_iff, ty_sentence, ty_budget] at hv
      obtain ⟨_, _, rfl, ⟨b, rfl⟩, _, _, rfl, ⟨s, rfl⟩, rfl⟩ := hv
      exact ⟨_, rfl, Act.yields_bind fun _ => Act.yields_pure rfl⟩
  case judgement =>
    rcases hp with rfl | rfl | rfl | rfl <;> have hv := have_only hf hv <;>
    · rw [Have.cons_iff] at hv
      obtain ⟨_, us, rfl, h1, h2⟩ := hv
      obtain ⟨t, rfl⟩ := ty_term.mp h1
      have hm := marks_have h2 (by simp)
      change ∃ a, Action.judgement M (.term t :: us) = some a ∧ _
      unfold Action.judgement
      exact works_believed M _ _ hm
  case goal =>
    rcases hp with rfl | rfl | rfl | rfl <;> have hv := have_only hf hv <;>
    · rw [Have.cons_iff] at hv
      obtain ⟨_, us, rfl, h1, h2⟩ := hv
      obtain ⟨t, rfl⟩ := ty_term.mp h1
      have hm := marks_have h2 (by simp)
      change ∃ a, Action.goal M (.term t :: us) = some a ∧ _
      unfold Action.goal
      exact works_believed M _ _ hm
  case question =>
    rcases hp with rfl | rfl <;> have hv := have_only hf hv <;>
    · rw [Have.cons_iff] at hv
      obtain ⟨_, us, rfl, h1, h2⟩ := hv
      obtain ⟨t, rfl⟩ := ty_term.mp h1
      have hm := marks_have h2 (by simp)
      change ∃ a, Action.question (.term t :: us) = some a ∧ _
      unfold Action.question
      exact works_asked _ hm
  case quest =>
    rcases hp with rfl | rfl <;> have hv := have_only hf hv <;>
    · rw [Have.cons_iff] at hv
      obtain ⟨_, us, rfl, h1, h2⟩ := hv
      obtain ⟨t, rfl⟩ := ty_term.mp h1
      have hm := marks_have h2 (by simp)
      change ∃ a, Action.quest (.term t :: us) = some a ∧ _
      unfold Action.quest
      exact works_asked _ hm
  case truth =>
    rcases hp with rfl | rfl | rfl <;> have hv := have_only hf hv <;>
      simp only [Have.cons_iff, Have.nil_iff, ty_dbl] at hv
    · obtain ⟨_, _, rfl, ⟨a, rfl⟩, rfl⟩ := hv
      exact ⟨_, rfl, Act.yields_pure rfl⟩
    · obtain ⟨_, _, rfl, ⟨a, rfl⟩, _, _, rfl, ⟨b, rfl⟩, rfl⟩ := hv
      exact ⟨_, rfl, Act.yields_pure rfl⟩
    · obtain ⟨_, _, rfl, ⟨a, rfl⟩, _, _, rfl, ⟨b, rfl⟩, _, _, rfl, ⟨c, rfl⟩, rfl⟩ := hv
      exact ⟨_, rfl, Act.yields_pure rfl⟩
  case budget =>
    rcases hp with rfl | rfl | rfl <;> have hv := have_only hf hv <;>
      simp only [Have.cons_iff, Have.nil_iff, ty_dbl] at hv
    · obtain ⟨_, _, rfl, ⟨a, rfl⟩, rfl⟩ := hv
      exact ⟨_, rfl, Act.yields_pure rfl⟩
    · obtain ⟨_, _, rfl, ⟨a, rfl⟩, _, _, rfl, ⟨b, rfl⟩, rfl⟩ := hv
      exact ⟨_, rfl, Act.yields_pure rfl⟩
    · obtain ⟨_, _, rfl, ⟨a, rfl⟩, _, _, rfl, ⟨b, rfl⟩, _, _, rfl, ⟨c, rfl⟩, rfl⟩ := hv
      exact ⟨_, rfl, Act.yields_pure rfl⟩
  case statement =>
    subst hp
    have hv := have_only hf hv
    simp only [Have.cons_iff, Have.nil_iff, ty_term, ty_copula] at hv
    obtain ⟨_, _, rfl, ⟨a, rfl⟩, _, _, rfl, ⟨b, rfl⟩, _, _, rfl, ⟨c, rfl⟩, rfl⟩ := hv
    exact ⟨_, rfl, making_yields _ _⟩
  case statement_operation1 =>
    subst hp
    obtain ⟨n, rfl⟩ := hf
    simp only [List.cons_append, List.nil_append, Have.cons_iff, ty_term] at hv
    obtain ⟨_, us, rfl, ⟨t, rfl⟩, hv⟩ := hv
    obtain ⟨ts, rfl⟩ := have_terms hv
    exact ⟨_, by simp only [act, List.isEmpty_cons, Bool.false_eq_true, if_false,
      Action.statement_operation1, terms?_map, Option.map_some]; rfl, making_yields _ _⟩
  case statement_operation2 =>
    subst hp
    obtain ⟨n, rfl⟩ := hf
    simp only [List.cons_append, List.nil_append, Have.cons_iff, ty_term, ty_str] at hv
    obtain ⟨_, us, rfl, ⟨s, rfl⟩, _, us, rfl, ⟨t, rfl⟩, hv⟩ := hv
    obtain ⟨ts, rfl⟩ := have_terms hv
    refine ⟨_, by simp only [act, List.isEmpty_cons, Bool.false_eq_true, if_false,
      Action.statement_operation2, Action.terms?, terms?_map, Option.map_some]; rfl, ?_⟩
    exact Act.yields_bind fun _ => making_yields _ _
  case multi_prefix =>
    rcases hp with rfl | rfl <;> obtain ⟨n, rfl⟩ := hf <;>
      simp only [List.cons_append, List.nil_append, Have.cons_iff, ty_term, ty_conn] at hv
    · obtain ⟨_, us, rfl, ⟨c, rfl⟩, _, us, rfl, ⟨t, rfl⟩, _, us, rfl, ⟨u, rfl⟩, hv⟩ := hv
      obtain ⟨ts, rfl⟩ := have_terms hv
      exact works_multi M c (t :: u :: ts)
    · obtain ⟨_, us, rfl, ⟨c, rfl⟩, _, us, rfl, ⟨t, rfl⟩, hv⟩ := hv
      obtain ⟨ts, rfl⟩ := have_terms hv
      exact works_multi M c (t :: ts)
  all_goals subst hp
  all_goals first
    | (have hv := have_only hf hv
       simp only [Have.nil_iff] at hv
       subst hv
       exact ⟨_, rfl, Act.yields_pure rfl⟩)
    | (have hv := have_only hf hv
       simp only [Have.cons_iff, Have.nil_iff, ty_term, ty_str, ty_dbl] at hv
       obtain ⟨_, _, rfl, ⟨a, rfl⟩, rfl⟩ := hv
       first
       | exact ⟨_, rfl, Act.yields_pure rfl⟩
       | exact ⟨_, rfl, Act.yields_bind fun _ => Act.yields_pure rfl⟩
       | exact ⟨_, rfl, Act.yields_bind fun _ => Act.yields_bind fun _ => Act.yields_pure rfl⟩)
    | (have hv := have_only hf hv
       simp only [Have.cons_iff, Have.nil_iff, ty_term, ty_conn] at hv
       obtain ⟨_, _, rfl, ⟨a, rfl⟩, _, _, rfl, ⟨b, rfl⟩, rfl⟩ := hv
       exact ⟨_, rfl, making_yields _ _⟩)
    | (have hv := have_only hf hv
       simp only [Have.cons_iff, Have.nil_iff, ty_term, ty_conn] at hv
       obtain ⟨_, _, rfl, ⟨a, rfl⟩, _, _, rfl, ⟨b, rfl⟩, _, _, rfl, ⟨c, rfl⟩, rfl⟩ := hv
       exact ⟨_, rfl, making_yields _ _⟩)
    | (obtain ⟨n, rfl⟩ := hf
       simp only [List.cons_append, List.nil_append, Have.cons_iff, ty_term, ty_conn] at hv
       obtain ⟨_, us, rfl, ⟨c, rfl⟩, _, us, rfl, ⟨t, rfl⟩, hv⟩ := hv
       obtain ⟨ts, rfl⟩ := have_terms hv
       first
       | exact works_multi M c (t :: ts)
       | exact works_multi M _ (c :: t :: ts))

mutual
/-- The names in a syntax tree. -/
def Ast.emits : Ast → List Emit
  | .leaf e _ => [e]
  | .node e cs => e :: emitsAll cs
/-- The same for siblings. -/
def emitsAll : List Ast → List Emit
  | [] => []
  | a :: as => a.emits ++ emitsAll as
end

theorem leaf_registered {e : Emit} (h : e.isLeaf = true) : e ∈ registered := by
  cases e <;> first | decide | simp [Emit.isLeaf] at h

theorem node_registered {e : Emit} {p : Pat} (h : p ∈ e.args) : e ∈ registered := by
  cases e <;> first | decide | (simp [Emit.args, Emit.res] at h)

theorem emitsAll_mem {x : Emit} : ∀ {as : List Ast}, x ∈ emitsAll as → ∃ a ∈ as, x ∈ a.emits
  | [], h => by simp [emitsAll] at h
  | a :: as, h => by
    rcases List.mem_append.mp h with h | h
    · exact ⟨a, by simp, h⟩
    · obtain ⟨b, hb, hx⟩ := emitsAll_mem h
      exact ⟨b, by simp [hb], hx⟩

/-- Every name in a typed tree is registered. -/
theorem typed_registered {a : Ast} (h : a.Typed) : ∀ e ∈ a.emits, e ∈ registered := by
  induction h with
  | leaf h => intro e he; simp only [Ast.emits, List.mem_singleton] at he; exact he ▸ leaf_registered h
  | node _ hp _ ih =>
    intro e he
    rcases List.mem_cons.mp he with rfl | he
    · exact node_registered hp
    · obtain ⟨c, hc, hx⟩ := emitsAll_mem he
      exact ih c hc e hx

theorem dispatch_works {M : Mach} {e : Emit} {args : Option (List Val)} (hr : e ∈ registered)
    {a : Act Val} (h : act M e args = some a) (bad : Act Val) : dispatch M bad e args = a := by
  rw [dispatch, if_pos hr, h]

theorem evalAll_typed {M : Mach} {bad bad' : Act Val} : ∀ {as : List Ast},
    (∀ a ∈ as, evalNode M bad a = evalNode M bad' a ∧ (evalNode M bad a).Yields a.ty) →
    evalAll M bad as = evalAll M bad' as ∧
      ∀ e vs e', evalAll M bad as e = (.ok vs, e') → Have (as.map Ast.ty) vs
  | [], _ => by
    refine ⟨rfl, fun e vs e' h => ?_⟩
    change (Res.ok [], e) = _ at h
    simp only [Prod.mk.injEq, Res.ok.injEq] at h
    rw [← h.1]
    rfl
  | a :: as, h => by
    obtain ⟨h1, h2⟩ := h a (by simp)
    obtain ⟨h3, h4⟩ := evalAll_typed (as := as) fun x hx => h x (by simp [hx])
    refine ⟨by simp only [evalAll]; rw [h1, h3], fun e vs e' hv => ?_⟩
    simp only [evalAll] at hv
    obtain ⟨v, e1, hv1, hv⟩ := Act.bind_ok hv
    obtain ⟨us, e2, hv2, hv⟩ := Act.bind_ok hv
    change (Res.ok (v :: us), e2) = _ at hv
    simp only [Prod.mk.injEq, Res.ok.injEq] at hv
    rw [← hv.1]
    have := h4 e1 us e2 hv2
    simp only [Have, List.map_cons] at this ⊢
    rw [this, h2 e v e1 hv1]

theorem Act.bind_congr {α β : Type} {x : Act α} {f g : α → Act β}
    (h : ∀ e a e', x e = (.ok a, e') → f a = g a) : (x >>= f) = (x >>= g) := by
  funext e
  change Act.bind x f e = Act.bind x g e
  unfold Act.bind
  split
  · rename_i a e1 hx; rw [h e a e1 hx]
  all_goals rfl

/-- A typed tree: the outcome does not depend on what a mistyped read would do, and the value has the
type of the tree. -/
theorem evalNode_typed (M : Mach) (bad bad' : Act Val) {a : Ast} (h : a.Typed) :
    evalNode M bad a = evalNode M bad' a ∧ (evalNode M bad a).Yields a.ty := by
  induction h with
  | leaf h =>
    obtain ⟨f, hf, hy⟩ := works_leaf M h _
    rw [evalNode, evalNode, dispatch_works (leaf_registered h) hf,
      dispatch_works (leaf_registered h) hf]
    exact ⟨rfl, hy⟩
  | @node e cs p hc hp hf ih =>
    obtain ⟨h1, h2⟩ := evalAll_typed ih
    have key : ∀ env vs env', evalAll M bad cs env = (.ok vs, env') → ∃ a,
        act M e (if cs.isEmpty then none else some vs) = some a ∧ a.Yields e.res := by
      intro env vs env' hv
      have hh := h2 env vs env' hv
      have := works_node M hp hf hh
      have hl : vs.length = cs.length := by
        have := congrArg List.length hh
        simpa using this
      have he : vs.isEmpty = cs.isEmpty := by
        cases vs <;> cases cs <;> simp_all
      rw [he] at this
      exact this
    refine ⟨?_, ?_⟩
    · rw [evalNode, evalNode, ← h1]
      refine Act.bind_congr fun env vs env' hv => ?_
      obtain ⟨f, hf, _⟩ := key env vs env' hv
      rw [dispatch_works (node_registered hp) hf, dispatch_works (node_registered hp) hf]
    · intro env v env' hv
      rw [evalNode] at hv
      obtain ⟨vs, e1, hv1, hv⟩ := Act.bind_ok hv
      obtain ⟨f, hf, hy⟩ := key env vs e1 hv1
      rw [dispatch_works (node_registered hp) hf] at hv
      exact hy _ _ _ hv

end Cnars.Parser
