import Verif.Parser.Origin
import Verif.Props.Tasks

/-!
# Tasks of a program, printed

Lemmas for C89.  Nothing of `/repo` is modelled here.
-/

namespace Cnars.Parser
open Cnars Cnars.Props Term

/-! ## Terms that can be written down -/

/-- `Arity`, computed. -/
def arityOk : Connector → Nat → Bool
  | .list, _ => false
  | .negation, n => n == 1
  | .extensionalDifference, n => n == 2
  | .intensionalDifference, n => n == 2
  | .product, n => decide (1 ≤ n)
  | .intensionalImage, n => decide (1 ≤ n)
  | .extensionalImage, n => decide (1 ≤ n)
  | .intensionalSet, n => decide (1 ≤ n)
  | .extensionalSet, n => decide (1 ≤ n)
  | _, n => decide (2 ≤ n)

theorem arityOk_arity {c : Connector} {n : Nat} (h : arityOk c n = true) : Arity c n := by
  cases c <;> simp [arityOk, Arity] at h ⊢ <;> exact h

/-- An operation. -/
def isOperator : Term → Bool
  | .atom _ i => i.isOperation
  | _ => false

/-- A product with components. -/
def isProduct : Term → Bool
  | .comp .product (_ :: _) _ => true
  | _ => false

mutual
/-- Intervals are not negative, compounds have as many components as the grammar wants, and statements
about an operation are calls `<(*, …) --> ^go>`. -/
def readable : Term → Bool
  | .atom .. => true
  | .var .. => true
  | .interval n _ => decide (0 ≤ n)
  | .stmt s c p _ => readable s && readable p &&
      (!Print.operational p || (isOperator p && c == .inheritance && isProduct s))
  | .comp c ts _ => arityOk c ts.length && readableAll ts
/-- All of them. -/
def readableAll : List Term → Bool
  | [] => true
  | t :: ts => readable t && readableAll ts
end

theorem readableAll_mem {ts : List Term} (h : readableAll ts = true) : ∀ t ∈ ts, readable t = true := by
  induction ts with
  | nil => simp
  | cons t ts ih =>
    rw [readableAll, Bool.and_eq_true] at h
    intro u hu
    rcases List.mem_cons.mp hu with rfl | hu
    · exact h.1
    · exact ih h.2 u hu

theorem leafTermsAll_sub {ts : List Term} {t l : Term} (ht : t ∈ ts) (hl : l ∈ leafTerms t) :
    l ∈ leafTermsAll ts := mem_leafTermsAll.mpr ⟨t, ht, hl⟩

/-- What a dictionary says about the leaves. -/
def Worded (d : Map Key String) (l : Term) : Prop :=
  (∀ a i, l = .atom a i → ∃ n, d (keyOf i.hash) = some n ∧ (i.isOperation = false → IsWord n.toList) ∧
    (i.isOperation = true → ∃ u, n.toList = '^' :: u ∧ IsWord u)) ∧
  ∀ k x i, l = .var k x i → ∃ m : Nat, (i.own k).indices.head? = some (m : Int)

theorem legible_atom {d : Map Key String} {a : Word} {i : Info} (h : Worded d (.atom a i)) :
    Legible d (.atom a i) := by
  obtain ⟨n, h1, h2, h3⟩ := h.1 a i rfl
  cases ho : i.isOperation with
  | false => exact .name ho h1 (h2 ho)
  | true =>
    obtain ⟨u, h4, h5⟩ := h3 ho
    exact .op ho h1 h4 h5

theorem legible_call {d : Map Key String} {s p : Term} (hs : Legible d s) (hp : Legible d p)
    (h1 : isProduct s = true) (h2 : isOperator p = true) (i : Info) : Legible d (.stmt s .inheritance p i) := by
  unfold isProduct at h1
  split at h1
  · cases hs with
    | comp _ ht =>
      cases p with
      | atom a k => exact .opStmt h2 (by simp) ht hp
      | _ => cases h2
  · cases h1

mutual
theorem legible_of {d : Map Key String} : ∀ t : Term, readable t = true →
    (∀ l ∈ leafTerms t, Worded d l) → Legible d t
  | .atom a i, _, hl => legible_atom (hl _ (by simp [leafTerms]))
  | .interval n i, hr, _ => by
    simp only [readable, decide_eq_true_eq] at hr
    obtain ⟨m, rfl⟩ := Int.eq_ofNat_of_zero_le hr
    exact .interval
  | .var k x i, _, hl => by
    obtain ⟨m, hm⟩ := (hl (.var k x i) (by simp [leafTerms])).2 k x i rfl
    exact .var hm
  | .stmt s c p i, hr, hl => by
    simp only [readable, Bool.and_eq_true, Bool.or_eq_true, Bool.not_eq_true', beq_iff_eq] at hr
    obtain ⟨⟨hs, hp⟩, ho⟩ := hr
    rw [leafTerms] at hl
    have ls : ∀ l ∈ leafTerms s, Worded d l := fun l h => hl l (List.mem_append_left _ h)
    have lp : ∀ l ∈ leafTerms p, Worded d l := fun l h => hl l (List.mem_append_right _ h)
    rcases ho with ho | ⟨⟨ho, rfl⟩, hpr⟩
    · exact .stmt ho (legible_of s hs ls) (legible_of p hp lp)
    · exact legible_call (legible_of s hs ls) (legible_of p hp lp) hpr ho i
  | .comp c ts i, hr, hl => by
    simp only [readable, Bool.and_eq_true] at hr
    refine .comp (arityOk_arity hr.1) (legible_all ts hr.2 ?_)
    rwa [leafTerms] at hl
theorem legible_all {d : Map Key String} : ∀ ts : List Term, readableAll ts = true →
    (∀ l ∈ leafTermsAll ts, Worded d l) → ∀ t ∈ ts, Legible d t
  | [], _, _ => by simp
  | t :: ts, hr, hl => by
    rw [readableAll, Bool.and_eq_true] at hr
    rw [leafTermsAll] at hl
    have ht := legible_of t hr.1 fun l h => hl l (List.mem_append_left _ h)
    intro u hu
    rcases List.mem_cons.mp hu with rfl | hu
    · exact ht
    · exact legible_all ts hr.2 (fun l h => hl l (List.mem_append_right _ h)) u hu
end

/-! ## Tasks that were read -/

/-- What is known of every task that was read. -/
structure Stated (k : Task) : Prop where
  constructed : Constructed k.sentence.term
  formed : Formed k.sentence
  sayable : Sayable k.sentence.term
  plain : PlainLeaves k.sentence.term
  vars : ∀ v x i, .var v x i ∈ leafTerms k.sentence.term → ∃ m : Nat, (i.own v).indices.head? = some (m : Int)
  truth : ∀ v, k.sentence.truth = some v → 0 ≤ v.f ∧ v.f ≤ 1 ∧ 0 ≤ v.c ∧ v.c ≤ 1

theorem toInt_le {x : ℚ} {n : Int} (h : Action.toInt x = .ok n) : n ≤ 2147483647 := by
  unfold Action.toInt at h
  generalize (if 0 ≤ x then ⌊x⌋ else ⌈x⌉) = m at h
  simp only at h
  split at h
  · rename_i hm
    simp only [Res.ok.injEq] at h
    omega
  · cases h

theorem read_stated {b : Buf} (hb : Reached b) {d : Nat} (hd : d < 3) {strict : Bool} {fuel : Nat}
    {text : List WChar} {r : Parsed} (h : parseText strict fuel b text d = .ok r) {a : List Ast}
    (ha : r.ast = some a) {M : Mach} (hM : Props.Machine M) {bad : Act Val} {env env' : Env} {t : Task}
    (he : evalTask M bad a env = (.ok t, env')) : Stated t := by
  have hn := C43_tree hb hd h ha
  obtain ⟨_, _, p, _, _, _, _, e1, e2, _, _, _, e6, _⟩ :=
    C77_line hb hd h ha hM.sound hM.intExact hM.minus hM.cfg he
  obtain ⟨_, _, _, hu⟩ := C52_closed_partial hb hd h ha hM.sound hM.minus hM.cfg he
  obtain ⟨bs, p', s, ms, r', e', vs, xs, hp, h2, _, h4, _⟩ := evalTask_ok hn he
  have hfix : s.fixed = true := Ast.partAll_fixed hp (derivesAll_noVar hn (by decide +kernel)) _
    (List.mem_singleton_self (Part.task bs p' s ms))
  obtain ⟨z, hs⟩ := Syn.eval_abbrs hM.ord s h2
  refine ⟨?_, ⟨fun hj => ?_, fun hj => ?_, ?_⟩, ?_, ⟨?_, ?_⟩, ?_, fun v hv => ?_⟩
  · rw [h4]; exact Syn.eval_constructed hM.ord s h2
  · rw [e1] at hj
    rw [e6, if_pos hj]
    exact ⟨_, rfl⟩
  · rw [e1] at hj
    rw [e6, if_neg]
    rcases hj with rfl | rfl <;> simp
  · rw [e2, e1]; cases p <;> rfl
  · rw [h4]; exact hs hfix
  · intro n i hl
    rw [h4] at hl
    obtain ⟨_, x, _, _, hx⟩ := Syn.eval_counted M s h2 n i hl
    exact toInt_le hx
  · intro c hc
    rw [h4] at hc
    have := List.countP_eq_zero.mp z c hc
    simpa [abbr, not_or, and_assoc] using this
  · intro v x i hl
    rw [h4] at hl
    obtain ⟨_, e⟩ := (Syn.eval_names M s h2).2.2 _ hl v x i rfl
    rw [Term.mkVar, Term.var.injEq] at e
    rw [e.2.2]
    exact ⟨(e'.names v).idxOf x, by cases v <;> rfl⟩
  · obtain ⟨⟨u1, u2⟩, ⟨u3, u4⟩, _⟩ := hu v hv
    exact ⟨u1, u2, u3, u4⟩

/-- The names are words, and those of operations begin with `^`. -/
theorem read_named {b : Buf} (hb : Reached b) {d : Nat} (hd : d < 3) {strict : Bool}
    {fuel : Nat} {text : List WChar} {r : Parsed} (h : parseText strict fuel b text d = .ok r)
    {a : List Ast} (ha : r.ast = some a) {M : Mach} (hord : ∀ l, (M.ord l).Perm l) {N : Nat}
    (hM : FreshBelow M N) {bad : Act Val} {env env' : Env} {t : Task}
    (he : evalTask M bad a env = (.ok t, env')) (hw : Reach false env.world)
    (hN : env.world.dictH.length + (Ast.mentionsAll a).length ≤ N)
    (hops : Paired env.world [] (Ast.mentionsAll a)) (ho : OpNames env.world.atoms) :
    Acct NameText env.world env'.world [t.sentence.term] ∧ OpNames env'.world.atoms := by
  have hn := C43_tree hb hd h ha
  obtain ⟨bs, p, s, ms, r', e1, vs, xs, hp, h2, h3, h4, _, _, _, _, h9, _⟩ := evalTask_ok hn he
  have hms : s.mentions = Ast.mentionsAll a := by
    rw [Ast.partAll_mentions hp]; simp [Part.mentions]
  have hbare := mentions_bare hn hp
  have hnames : ∀ n ∈ namesIn (Ast.mentionsAll a), NameText n := fun n h => names_text hn hp h
  rw [← hms] at hN hops hbare hnames
  obtain ⟨hA, _⟩ := Syn.eval_acct hord hM hw s (live := []) (seen := []) h2 (Acct.start hw) hops hN
  simp only [List.nil_append] at hA
  rw [← h4, ← h9] at hA
  exact ⟨hA.weaken hnames, by rw [h9]; exact Syn.eval_opNames s h2 hbare ho⟩

/-- The same if an action throws. -/
theorem left_named {line : List WChar} {a : List Ast} (hn : IsNarsese line a) {M : Mach}
    (hord : ∀ l, (M.ord l).Perm l) {N : Nat}
    (hM : FreshBelow M N) {bad : Act Val} {env env' : Env} {m : String}
    (he : evalTask M bad a env = (.throw m, env')) (hw : Reach false env.world)
    (hN : env.world.dictH.length + (Ast.mentionsAll a).length ≤ N)
    (hops : Paired env.world [] (Ast.mentionsAll a)) (ho : OpNames env.world.atoms) :
    (∃ rs, Acct NameText env.world env'.world rs) ∧ OpNames env'.world.atoms := by
  obtain ⟨bs, p, s, ms, hp, _⟩ := evalTask_part hn
  obtain ⟨rs, hA⟩ := left_acct hn hord hM he hw hN hops
  refine ⟨⟨rs, hA.weaken fun n h => names_text hn hp h⟩, ?_⟩
  obtain ⟨us, vs, h1, h2⟩ := evalTask_left hn hord he
  exact Syn.evalAll_opNames us h1 (fun m hm => mentions_bare hn hp m (h2.subset hm)) ho

/-- What holds all the time. -/
structure Prog.Told (p : Prog) : Prop where
  acct : ∃ lost, Acct NameText World.init p.ses.env.world (p.terms ++ lost)
  ops : OpNames p.ses.env.world.atoms
  tasks : ∀ k, some k ∈ p.tasks → Stated k

theorem Prog.Told.step {M : Mach} (hm : Props.Machine M) {strict : Bool} {N : Nat}
    (hM : FreshBelow M N) {p q : Prog} {lost : List Term} (hI : p.Inv lost) (hp : p.Told)
    (h : Prog.Step M strict N p q) : q.Told := by
  obtain ⟨left, hA⟩ := hp.acct
  cases h with
  | read hd hfit h =>
    obtain ⟨r, a, h1, h2, h3, h4⟩ := parseTask_some h
    obtain ⟨hN, hops⟩ := hfit r a h1 h2
    obtain ⟨hb', hd', h1', h2'⟩ := hI.ast.after hI.buf hd h1 a h2
    obtain ⟨k1, k2⟩ := read_named hb' hd' h1' h2' hm.ord hM h4 hA.reach hN hops hp.ops
    refine ⟨⟨left, ?_⟩, k2, fun k hk => ?_⟩
    · have := hA.insert k1
      simpa [Prog.terms] using this
    · rcases List.mem_append.mp hk with hk | hk
      · exact hp.tasks k hk
      · simp only [List.mem_singleton, Option.some.injEq] at hk
        exact hk ▸ read_stated hb' hd' h1' h2' hm h4
  | reject hd h =>
    have e := parseTask_none h
    exact ⟨⟨left, by rw [e]; exact hA⟩, by rw [e]; exact hp.ops, hp.tasks⟩
  | threw hd hfit h =>
    obtain ⟨r, a, h1, h2, h3, h3', h4⟩ := parseTask_threw hI.buf hd h
    obtain ⟨hN, hops⟩ := hfit r a h1 h2
    obtain ⟨line, hn⟩ := (hI.ast.after hI.buf hd h1 a h2).narsese
    obtain ⟨⟨rs, k1⟩, k2⟩ := left_named hn hm.ord hM h4 hA.reach hN hops hp.ops
    refine ⟨⟨left ++ rs, ?_⟩, k2, hp.tasks⟩
    rw [← List.append_assoc]
    exact hA.trans k1
  | drop hi h =>
    obtain ⟨l1, l2, e1, e2⟩ := Prog.terms_set hi
    simp only [Prog.terms, e1, List.append_assoc, List.cons_append] at hA
    obtain ⟨w', k1, k2, k3, _⟩ := hA.dropped
    rw [h] at k1
    cases k1
    refine ⟨⟨left, by simpa only [Prog.terms, e2, List.append_assoc] using k2⟩, ?_, fun k hk => ?_⟩
    · simp only
      rw [k3]
      exact hp.ops
    · rcases List.mem_or_eq_of_mem_set hk with hk | hk
      · exact hp.tasks k hk
      · cases hk
  | other g => exact ⟨⟨left, hA⟩, hp.ops, hp.tasks⟩

theorem Prog.Told.start (g : Stamp.Globals) : (Prog.start g).Told :=
  ⟨⟨[], Acct.start .init⟩, fun _ hx => (nomatch hx), fun _ ht => (nomatch ht)⟩

theorem Prog.Told.steps {M : Mach} (hm : Props.Machine M) {strict : Bool} {N : Nat}
    (hM : FreshBelow M N) {p q : Prog} {lost : List Term} (hI : p.Inv lost) (hp : p.Told)
    (h : Prog.Steps M strict N p q) : q.Told := by
  induction h with
  | refl => exact hp
  | step hs h ih =>
    obtain ⟨more, hI'⟩ := hI.steps hm.ord hM hs
    exact ih.step hm hM hI' h

/-- Names of the atoms of a task. -/
theorem Prog.Told.named {p : Prog} (hp : p.Told) {x : Word × Bool} (hx : x ∈ Parser.atomsAll p.terms) :
    ∃ n, NameText n ∧ Called p.ses.env.world x n ∧ (x.2 = true ↔ n.toList.head? = some '^') := by
  obtain ⟨lost, hA⟩ := hp.acct
  obtain ⟨n, h1, h2⟩ := hA.called (x := x) (by rw [Parser.atomsAll_append]; exact List.mem_append_left _ hx)
  obtain ⟨j, hj, h3⟩ := h2
  exact ⟨n, h1, ⟨j, hj, h3⟩, hp.ops _ (List.mem_of_getElem? h3)⟩

/-- A name of printable characters is a word, or `^` and a word. -/
theorem NameText.word {n : String} (h : NameText n) (ha : Ascii n.toList) :
    (n.toList.head? ≠ some '^' → IsWord n.toList) ∧
    (n.toList.head? = some '^' → ∃ u, n.toList = '^' :: u ∧ IsWord u) := by
  obtain ⟨s, hs, rfl | rfl⟩ := h
  · rw [String.toList_ofList] at ha ⊢
    exact ⟨fun _ => hs.isWord ha, fun h => absurd h hs.bare⟩
  · have e : ("^" ++ String.ofList s).toList = '^' :: s := by simp
    rw [e] at ha ⊢
    exact ⟨fun h => absurd rfl h, fun _ => ⟨s, rfl, hs.isWord fun c hc => ha c (List.mem_cons_of_mem _ hc)⟩⟩

/-! ## The words of a printed term -/

mutual
theorem synOf_length (d : Map Key String) : ∀ t : Term, (synOf d t).mentions.length ≤ (leafTerms t).length
  | .atom a i => by
    rw [synOf]; split <;> simp [Syn.mentions, leafTerms]
  | .interval n i => by simp [synOf, Syn.mentions, leafTerms]
  | .var k x i => by simp [synOf, Syn.mentions]
  | .stmt s c p i => by
    have h2 := synOf_length d p
    rw [synOf, leafTerms, List.length_append]
    split
    · rw [Syn.mentions, List.length_append]
      have := synArgs_length d s
      omega
    · have h1 := synOf_length d s
      rw [Syn.mentions, List.length_append]
      omega
  | .comp c ts i => by
    rw [synOf, Syn.mentions, leafTerms]
    exact synsOf_length d ts
theorem synArgs_length (d : Map Key String) : ∀ t : Term,
    (Syn.mentionsAll (synArgs d t)).length ≤ (leafTerms t).length
  | .comp c ts i => by rw [synArgs, leafTerms]; exact synsOf_length d ts
  | .atom .. => by simp [synArgs, Syn.mentionsAll]
  | .interval .. => by simp [synArgs, Syn.mentionsAll]
  | .var .. => by simp [synArgs, Syn.mentionsAll]
  | .stmt .. => by simp [synArgs, Syn.mentionsAll]
theorem synsOf_length (d : Map Key String) : ∀ ts : List Term,
    (Syn.mentionsAll (synsOf d ts)).length ≤ (leafTermsAll ts).length
  | [] => by simp [synsOf, Syn.mentionsAll]
  | t :: ts => by
    rw [synsOf, Syn.mentionsAll, leafTermsAll, List.length_append, List.length_append]
    have := synOf_length d t
    have := synsOf_length d ts
    omega
end

mutual
theorem synOf_op (d : Map Key String) : ∀ (t : Term) (u : List Char), .op u ∈ (synOf d t).mentions →
    ∃ a i, .atom a i ∈ leafTerms t ∧ i.isOperation = true ∧ u = (Print.label d (.atom a i)).tail
  | .atom a i, u, h => by
    rw [synOf] at h
    split at h
    · rename_i ho
      simp only [Syn.mentions, List.mem_singleton, Mention.op.injEq] at h
      exact ⟨a, i, by simp [leafTerms], ho, h⟩
    · simp [Syn.mentions] at h
  | .interval n i, u, h => by simp [synOf, Syn.mentions] at h
  | .var k x i, u, h => by simp [synOf, Syn.mentions] at h
  | .stmt s c p i, u, h => by
    rw [leafTerms]
    rw [synOf] at h
    split at h
    · rw [Syn.mentions, List.mem_append] at h
      rcases h with h | h
      · obtain ⟨a, j, h1, h2⟩ := synOf_op d p u h
        exact ⟨a, j, List.mem_append_right _ h1, h2⟩
      · obtain ⟨a, j, h1, h2⟩ := synArgs_op d s u h
        exact ⟨a, j, List.mem_append_left _ h1, h2⟩
    · rw [Syn.mentions, List.mem_append] at h
      rcases h with h | h
      · obtain ⟨a, j, h1, h2⟩ := synOf_op d s u h
        exact ⟨a, j, List.mem_append_left _ h1, h2⟩
      · obtain ⟨a, j, h1, h2⟩ := synOf_op d p u h
        exact ⟨a, j, List.mem_append_right _ h1, h2⟩
  | .comp c ts i, u, h => by
    rw [synOf, Syn.mentions] at h
    rw [leafTerms]
    exact synsOf_op d ts u h
theorem synArgs_op (d : Map Key String) : ∀ (t : Term) (u : List Char), .op u ∈ Syn.mentionsAll (synArgs d t) →
    ∃ a i, .atom a i ∈ leafTerms t ∧ i.isOperation = true ∧ u = (Print.label d (.atom a i)).tail
  | .comp c ts i, u, h => by rw [synArgs] at h; rw [leafTerms]; exact synsOf_op d ts u h
  | .atom .., u, h => by simp [synArgs, Syn.mentionsAll] at h
  | .interval .., u, h => by simp [synArgs, Syn.mentionsAll] at h
  | .var .., u, h => by simp [synArgs, Syn.mentionsAll] at h
  | .stmt .., u, h => by simp [synArgs, Syn.mentionsAll] at h
theorem synsOf_op (d : Map Key String) : ∀ (ts : List Term) (u : List Char),
    .op u ∈ Syn.mentionsAll (synsOf d ts) →
    ∃ a i, .atom a i ∈ leafTermsAll ts ∧ i.isOperation = true ∧ u = (Print.label d (.atom a i)).tail
  | [], u, h => by simp [synsOf, Syn.mentionsAll] at h
  | t :: ts, u, h => by
    rw [synsOf, Syn.mentionsAll, List.mem_append] at h
    rw [leafTermsAll]
    rcases h with h | h
    · obtain ⟨a, i, h1, h2⟩ := synOf_op d t u h
      exact ⟨a, i, List.mem_append_left _ h1, h2⟩
    · obtain ⟨a, i, h1, h2⟩ := synsOf_op d ts u h
      exact ⟨a, i, List.mem_append_right _ h1, h2⟩
end

theorem paired_known {w : World} : ∀ {ms seen : List Mention},
    (∀ s, .op s ∈ ms → w.store.checkByName (String.ofList s) = true ∧
      w.store.checkByName ("^" ++ String.ofList s) = true) → Paired w seen ms
  | [], _, _ => trivial
  | m :: ms, _, h => ⟨fun s e => .inl (h s (by simp [e])), paired_known fun s hs => h s (by simp [hs])⟩

/-! ## The line a task is printed as -/

theorem Good.atom_hash {t : Term} (h : Good t) : ∀ a i, .atom a i ∈ leafTerms t → i.hash = Term.atomHash a := by
  induction h with
  | atom a =>
    intro b i hl
    rw [Term.mkAtom, leafTerms, List.mem_singleton, Term.atom.injEq] at hl
    obtain ⟨rfl, rfl⟩ := hl
    rfl
  | operation a =>
    intro b i hl
    rw [Term.mkOperation, leafTerms, List.mem_singleton, Term.atom.injEq] at hl
    obtain ⟨rfl, rfl⟩ := hl
    rfl
  | interval n => intro b i hl; simp [Term.mkInterval, leafTerms] at hl
  | var k n i => intro b i hl; simp [Term.mkVar, leafTerms] at hl
  | stmt c _ _ ih1 ih2 =>
    intro b i hl
    rw [Term.mkStmt, leafTerms, List.mem_append] at hl
    exact hl.elim (ih1 b i) (ih2 b i)
  | comp c _ _ ih =>
    intro b i hl
    rw [Term.finishComp, leafTerms, mem_leafTermsAll] at hl
    obtain ⟨t, ht, hl⟩ := hl
    exact ih t ht b i hl

theorem atom_mem {t : Term} {a : Word} {i : Info} (h : .atom a i ∈ leafTerms t) :
    (a, i.isOperation) ∈ Parser.atomsAll [t] := by
  rw [Parser.atomsAll, leafTermsAll_one, List.mem_filterMap]
  exact ⟨_, h, rfl⟩

/-- The words of the line are those of the term. -/
theorem printed_mentions {b : Buf} (hb : Reached b) {D : Map Key String} {t : Term} (hl : Legible D t)
    (hv : Sayable t) (p : Punct) (n : Stamp.Tense) {k1 k2 k3 : Nat} (hk1 : k1 ≤ 100) (hk2 : 0 < k2)
    (hk2' : k2 < 100) (hk3 : k3 ≤ 100) {w : Option (Nat × Nat)}
    (hw2 : ∀ x, w = some x → x.1 ≤ 1000 ∧ 0 < x.2 ∧ x.2 < 1000)
    (hw4 : p = .question ∨ p = .quest → w = none) {text : List Char}
    (htext : text = lineText (point 2 k1, point 2 k2, point 2 k3) (Print.treeOf D t).text p n
      (w.map fun w => (point 3 w.1, point 3 w.2)))
    {d : Nat} (hd : d < 3) {fuel : Nat} (hfuel : 24 * text.length + 6 ≤ fuel) {strict : Bool}
    (hstr : strict = true → LineFits text t) {r : Parsed}
    (h : parseText strict fuel b (codes text) d = .ok r) :
    ∃ a, r.ast = some a ∧ Ast.mentionsAll a = (synOf D t).mentions := by
  subst htext
  have hwr : Writable p (point 2 k1, point 2 k2, point 2 k3)
      (w.map fun w => (point 3 w.1, point 3 w.2)) := by
    refine ⟨point_unit (by decide) hk1, point_openUnit hk2 hk2', point_unit (by decide) hk3, ?_, ?_, fun h => ?_⟩
    · intro x hx'
      obtain ⟨y, hy, rfl⟩ := Option.map_eq_some_iff.mp hx'
      exact point_unit (by decide) (hw2 y hy).1
    · intro x hx'
      obtain ⟨y, hy, rfl⟩ := Option.map_eq_some_iff.mp hx'
      exact point_openUnit (hw2 y hy).2.1 (hw2 y hy).2.2
    · rw [hw4 h]; rfl
  have hv' : ∀ x, (w.map fun w => (point 3 w.1, point 3 w.2)) = some x → Ascii x.1 ∧ Ascii x.2 := by
    intro x hx'
    obtain ⟨y, hy, rfl⟩ := Option.map_eq_some_iff.mp hx'
    exact ⟨point_ascii _ _, point_ascii _ _⟩
  have hal := ascii_line hl (b := (point 2 k1, point 2 k2, point 2 k3)) (point_ascii _ _) (point_ascii _ _)
    (point_ascii _ _) p n hv'
  obtain ⟨scan, hacc⟩ := line_accepted hb hd hal hfuel (fun h => (hstr h).ast _ _ _ _ _) (isNarsese_task hl hv hwr n) (meant_task hl _ _ _ _)
  rw [h] at hacc
  cases hacc
  refine ⟨_, rfl, ?_⟩
  rw [Ast.partAll_mentions (part_line_task hl _ _ _ _)]
  simp [Part.mentions]

end Cnars.Parser
