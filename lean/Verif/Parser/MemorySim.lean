import Verif.Parser.MemoryLemmas
import Verif.Parser.Syn

/-!
# The actions on pointers do what the actions on values do

For syntax trees of the grammar: the same outcome, the same state, and no other cells left than those
of the result.
-/

namespace Cnars.Parser.Mem
open Cnars HAct

variable {M : Mach} {fit : Cls → Cls → Bool}

/-- Both actions on a leaf. -/
theorem sim_leaf {e : Emit} (h : e.isLeaf = true) (s : List Char) :
    ∃ a, Parser.act M e (some [.cstr s]) = some a ∧
      Sim [] a (act M fit e (some [.token s])) Rep := by
  cases e <;> simp only [Emit.isLeaf, Bool.false_eq_true] at h <;>
    first
    | exact ⟨_, rfl, Sim.new_last fun n => Sim.pure (.str n s)⟩
    | exact ⟨_, rfl, Sim.step fun x => Sim.new_last fun n => Sim.pure (.dbl n x)⟩

section inversion
variable {p : Ptr} {fp : Fp}
theorem Rep.of_term {t : Term} (h : Rep p (.term t) fp) : ∃ n, p = .obj n ∧ fp = [(n, .handle t)] := by
  cases h; exact ⟨_, rfl, rfl⟩
theorem Rep.of_copula {c : Copula} (h : Rep p (.copula c) fp) : p = .copula c ∧ fp = [] := by
  cases h; exact ⟨rfl, rfl⟩
theorem Rep.of_conn {c : Connector} (h : Rep p (.conn c) fp) : p = .conn c ∧ fp = [] := by
  cases h; exact ⟨rfl, rfl⟩
theorem Rep.of_str {s : List Char} (h : Rep p (.str s) fp) : ∃ n, p = .obj n ∧ fp = [(n, .str s)] := by
  cases h; exact ⟨_, rfl, rfl⟩
theorem Rep.of_dbl {x : ℚ} (h : Rep p (.dbl x) fp) : ∃ n, p = .obj n ∧ fp = [(n, .dbl x)] := by
  cases h; exact ⟨_, rfl, rfl⟩
theorem Rep.of_budget {b : Budget} (h : Rep p (.budget b) fp) :
    ∃ n, p = .obj n ∧ fp = [(n, .budget b)] := by
  cases h; exact ⟨_, rfl, rfl⟩

theorem RepAll.of_cons {ps : List Ptr} {v : Val} {vs : List Val} (h : RepAll ps (v :: vs) fp) :
    ∃ q qs f1 f2, ps = q :: qs ∧ fp = f1 ++ f2 ∧ Rep q v f1 ∧ RepAll qs vs f2 := by
  cases h with
  | cons h1 h2 => exact ⟨_, _, _, _, rfl, rfl, h1, h2⟩

theorem RepAll.of_nil {ps : List Ptr} (h : RepAll ps [] fp) : ps = [] ∧ fp = [] := by
  cases h; exact ⟨rfl, rfl⟩

theorem RepAll.length {ps : List Ptr} {vs : List Val} (h : RepAll ps vs fp) :
    ps.length = vs.length := by
  induction h with
  | nil => rfl
  | cons _ _ ih => simp [ih]
end inversion

/-- One term, one new term. -/
theorem sim_pass {p : Ptr} {v : Val} {fp : Fp} (h : Rep p v fp) (ps : List Ptr) :
    Sim fp (pure v) (pass (p :: ps)) Rep := Sim.pure h

theorem sim_aVar (hfit : ∀ c, fit c c = true) (k : VarKind) (n : Nat) (s : List Char) :
    Sim [(n, .str s)] (do
      let name := k.symbol ++ String.ofList s
      let i ← Action.number k name
      pure (.term (Term.mkVar k name i))) (aVar fit k [.obj n]) Rep := by
  unfold aVar
  refine Sim.look List.mem_cons_self ?_
  simp only
  refine Sim.delete (List.Perm.refl _) (hfit _) ?_
  exact Sim.step fun i => Sim.new_last fun m => Sim.pure (.term m _)

theorem sim_truth (hfit : ∀ c, fit c c = true) {xs : List ℚ} {ps : List Ptr} {fp : Fp}
    (hx : xs.length ≤ 3) (hr : RepAll ps (xs.map .dbl) fp) :
    ∃ a, Action.truth M (xs.map .dbl) = some a ∧ Sim fp a (truth M fit ps) Rep := by
  match xs, hx with
  | [], _ =>
    obtain ⟨rfl, rfl⟩ := hr.of_nil
    exact ⟨_, rfl, Sim.new fun m => Sim.new_last fun n => Sim.pure (.truth n m _)⟩
  | [x], _ =>
    obtain ⟨_, _, _, _, rfl, rfl, h1, hr⟩ := hr.of_cons
    obtain ⟨rfl, rfl⟩ := hr.of_nil
    obtain ⟨n1, rfl, rfl⟩ := h1.of_dbl
    refine ⟨_, rfl, Sim.getDouble hfit (List.Perm.refl _) ?_⟩
    exact Sim.new fun m => Sim.new_last fun n => Sim.pure (.truth n m _)
  | [x, y], _ =>
    obtain ⟨_, _, _, _, rfl, rfl, h1, hr⟩ := hr.of_cons
    obtain ⟨_, _, _, _, rfl, rfl, h2, hr⟩ := hr.of_cons
    obtain ⟨rfl, rfl⟩ := hr.of_nil
    obtain ⟨n1, rfl, rfl⟩ := h1.of_dbl
    obtain ⟨n2, rfl, rfl⟩ := h2.of_dbl
    refine ⟨_, rfl, Sim.getDouble hfit (List.Perm.refl _) ?_⟩
    refine Sim.getDouble hfit (List.Perm.refl _) ?_
    exact Sim.new fun m => Sim.new_last fun n => Sim.pure (.truth n m _)
  | [x, y, z], _ =>
    obtain ⟨_, _, _, _, rfl, rfl, h1, hr⟩ := hr.of_cons
    obtain ⟨_, _, _, _, rfl, rfl, h2, hr⟩ := hr.of_cons
    obtain ⟨_, _, _, _, rfl, rfl, h3, hr⟩ := hr.of_cons
    obtain ⟨rfl, rfl⟩ := hr.of_nil
    obtain ⟨n1, rfl, rfl⟩ := h1.of_dbl
    obtain ⟨n2, rfl, rfl⟩ := h2.of_dbl
    obtain ⟨n3, rfl, rfl⟩ := h3.of_dbl
    refine ⟨_, rfl, Sim.getDouble hfit (List.Perm.refl _) ?_⟩
    refine Sim.getDouble hfit (List.Perm.refl _) ?_
    refine Sim.getDouble hfit (List.Perm.refl _) ?_
    exact Sim.new fun m => Sim.new_last fun n => Sim.pure (.truth n m _)

theorem sim_budget (hfit : ∀ c, fit c c = true) {xs : List ℚ} {ps : List Ptr} {fp : Fp}
    (hx : xs.length ≤ 3) (hr : RepAll ps (xs.map .dbl) fp) :
    ∃ a, Action.budget M (xs.map .dbl) = some a ∧ Sim fp a (budget M fit ps) Rep := by
  match xs, hx with
  | [], _ =>
    obtain ⟨rfl, rfl⟩ := hr.of_nil
    exact ⟨_, rfl, Sim.new_last fun n => Sim.pure (.budget n _)⟩
  | [x], _ =>
    obtain ⟨_, _, _, _, rfl, rfl, h1, hr⟩ := hr.of_cons
    obtain ⟨rfl, rfl⟩ := hr.of_nil
    obtain ⟨n1, rfl, rfl⟩ := h1.of_dbl
    refine ⟨_, rfl, Sim.getDouble hfit (List.Perm.refl _) ?_⟩
    exact Sim.new_last fun n => Sim.pure (.budget n _)
  | [x, y], _ =>
    obtain ⟨_, _, _, _, rfl, rfl, h1, hr⟩ := hr.of_cons
    obtain ⟨_, _, _, _, rfl, rfl, h2, hr⟩ := hr.of_cons
    obtain ⟨rfl, rfl⟩ := hr.of_nil
    obtain ⟨n1, rfl, rfl⟩ := h1.of_dbl
    obtain ⟨n2, rfl, rfl⟩ := h2.of_dbl
    refine ⟨_, rfl, Sim.getDouble hfit (List.Perm.refl _) ?_⟩
    refine Sim.getDouble hfit (List.Perm.refl _) ?_
    exact Sim.new_last fun n => Sim.pure (.budget n _)
  | [x, y, z], _ =>
    obtain ⟨_, _, _, _, rfl, rfl, h1, hr⟩ := hr.of_cons
    obtain ⟨_, _, _, _, rfl, rfl, h2, hr⟩ := hr.of_cons
    obtain ⟨_, _, _, _, rfl, rfl, h3, hr⟩ := hr.of_cons
    obtain ⟨rfl, rfl⟩ := hr.of_nil
    obtain ⟨n1, rfl, rfl⟩ := h1.of_dbl
    obtain ⟨n2, rfl, rfl⟩ := h2.of_dbl
    obtain ⟨n3, rfl, rfl⟩ := h3.of_dbl
    refine ⟨_, rfl, Sim.getDouble hfit (List.Perm.refl _) ?_⟩
    refine Sim.getDouble hfit (List.Perm.refl _) ?_
    refine Sim.getDouble hfit (List.Perm.refl _) ?_
    exact Sim.new_last fun n => Sim.pure (.budget n _)

theorem have_dbls : ∀ {ts : List Ty} {vs : List Val}, Have ts vs → (∀ t ∈ ts, t = .dbl) →
    ∃ xs : List ℚ, vs = xs.map .dbl ∧ xs.length = ts.length
  | [], vs, h, _ => ⟨[], by simpa [Have] using h, rfl⟩
  | t :: ts, vs, h, ht => by
    rw [Have.cons_iff] at h
    obtain ⟨v, us, rfl, hv, hu⟩ := h
    obtain rfl := ht t (by simp)
    obtain ⟨x, rfl⟩ := ty_dbl.mp hv
    obtain ⟨xs, rfl, hl⟩ := have_dbls hu fun y hy => ht y (by simp [hy])
    exact ⟨x :: xs, rfl, by simp [hl]⟩

/-- The marks of a sentence of the grammar. -/
theorem markArgs {ts : List Ty} {vs : List Val} {ps : List Ptr} {fp : Fp} (hv : Have ts vs)
    (hr : RepAll ps vs fp) (hk : ts = [] ∨ ts = [.tense] ∨ ts = [.truth] ∨ ts = [.tense, .truth])
    (h1 : .tense ∈ ts → fit .tupleInt .tupleVoid = true)
    (h2 : .truth ∈ ts → fit .tupleTruth .tupleVoid = true) :
    MarkArgs fit ps vs fp (decide (.truth ∈ ts)) := by
  rcases hk with rfl | rfl | rfl | rfl <;>
    simp only [Have.cons_iff, Have.nil_iff, ty_tense, ty_truth] at hv
  · subst hv
    obtain ⟨rfl, rfl⟩ := hr.of_nil
    exact .none
  · obtain ⟨_, _, rfl, ⟨a, rfl⟩, rfl⟩ := hv
    obtain ⟨_, _, _, _, rfl, rfl, hr1, hr⟩ := hr.of_cons
    obtain ⟨rfl, rfl⟩ := hr.of_nil
    rw [List.append_nil]
    exact .tense (h1 (by simp)) hr1
  · obtain ⟨_, _, rfl, ⟨a, rfl⟩, rfl⟩ := hv
    obtain ⟨_, _, _, _, rfl, rfl, hr1, hr⟩ := hr.of_cons
    obtain ⟨rfl, rfl⟩ := hr.of_nil
    rw [List.append_nil]
    exact .truth (h2 (by simp)) hr1
  · obtain ⟨_, _, rfl, ⟨a, rfl⟩, _, _, rfl, ⟨b, rfl⟩, rfl⟩ := hv
    obtain ⟨_, _, _, _, rfl, rfl, hr1, hr⟩ := hr.of_cons
    obtain ⟨_, _, _, _, rfl, rfl, hr2, hr⟩ := hr.of_cons
    obtain ⟨rfl, rfl⟩ := hr.of_nil
    rw [List.append_nil]
    exact .both (h1 (by simp)) (h2 (by simp)) hr1 hr2

/-- Both actions on a node. -/
theorem sim_node (hfit : ∀ c, fit c c = true) {e : Emit} {p : Pat} (hp : p ∈ e.args) {ts : List Ty}
    (hf : p.Fits ts) {vs : List Val} (hv : Have ts vs) {ps : List Ptr} {fp : Fp}
    (hr : RepAll ps vs fp) (h1 : .tense ∈ ts → fit .tupleInt .tupleVoid = true)
    (h2 : .truth ∈ ts → fit .tupleTruth .tupleVoid = true) :
    ∃ a, Parser.act M e (if vs.isEmpty then none else some vs) = some a ∧
      Sim fp a (act M fit e (if ps.isEmpty then none else some ps)) Rep := by
  cases e <;> simp only [Emit.args, List.mem_cons, List.not_mem_nil, or_false, Emit.res,
    reduceCtorEq, or_self, or_true, if_true, if_false] at hp
  case task =>
    rcases hp with rfl | rfl <;> have hv := have_only hf hv
    · simp only [Have.cons_iff, Have.nil_iff, ty_sentence] at hv
      obtain ⟨_, _, rfl, ⟨s, rfl⟩, rfl⟩ := hv
      obtain ⟨q, _, f1, _, rfl, rfl, hr1, hr⟩ := hr.of_cons
      obtain ⟨rfl, rfl⟩ := hr.of_nil
      rw [List.append_nil]
      exact ⟨_, rfl, Sim.new fun k => sim_taskOf hr1⟩
    · simp only [Have.cons_iff, Have.nil_iff, ty_sentence, ty_budget] at hv
      obtain ⟨_, _, rfl, ⟨b, rfl⟩, _, _, rfl, ⟨s, rfl⟩, rfl⟩ := hv
      obtain ⟨q, _, f1, _, rfl, rfl, hr1, hr⟩ := hr.of_cons
      obtain ⟨q', _, f1', _, rfl, rfl, hr2, hr⟩ := hr.of_cons
      obtain ⟨rfl, rfl⟩ := hr.of_nil
      obtain ⟨n, rfl, rfl⟩ := hr1.of_budget
      rw [List.append_nil]
      exact ⟨_, rfl, sim_taskOf hr2⟩
  case judgement =>
    rcases hp with rfl | rfl | rfl | rfl <;>
    · obtain rfl := hf
      simp only [Pat.only] at hv h1 h2
      rw [Have.cons_iff] at hv
      obtain ⟨_, us, rfl, hv1, hv⟩ := hv
      obtain ⟨t, rfl⟩ := ty_term.mp hv1
      obtain ⟨q, _, f1, _, rfl, rfl, hr1, hr'⟩ := hr.of_cons
      obtain ⟨n, rfl, rfl⟩ := hr1.of_term
      exact sim_believed hfit M.cfg.c_judgement .judgement .judgement (fun _ _ _ _ => rfl) (by decide)
        (marks_have hv (by simp)) (markArgs hv hr' (by simp) (fun h => h1 (.tail _ h)) (fun h => h2 (.tail _ h)))
  case goal =>
    rcases hp with rfl | rfl | rfl | rfl <;>
    · obtain rfl := hf
      simp only [Pat.only] at hv h1 h2
      rw [Have.cons_iff] at hv
      obtain ⟨_, us, rfl, hv1, hv⟩ := hv
      obtain ⟨t, rfl⟩ := ty_term.mp hv1
      obtain ⟨q, _, f1, _, rfl, rfl, hr1, hr'⟩ := hr.of_cons
      obtain ⟨n, rfl, rfl⟩ := hr1.of_term
      exact sim_believed hfit M.cfg.c_goal .goal .goal (fun _ _ _ _ => rfl) (by decide)
        (marks_have hv (by simp)) (markArgs hv hr' (by simp) (fun h => h1 (.tail _ h)) (fun h => h2 (.tail _ h)))
  case question =>
    rcases hp with rfl | rfl <;>
    · obtain rfl := hf
      simp only [Pat.only] at hv h1 h2
      rw [Have.cons_iff] at hv
      obtain ⟨_, us, rfl, hv1, hv⟩ := hv
      obtain ⟨t, rfl⟩ := ty_term.mp hv1
      obtain ⟨q, _, f1, _, rfl, rfl, hr1, hr'⟩ := hr.of_cons
      obtain ⟨n, rfl, rfl⟩ := hr1.of_term
      have := markArgs hv hr' (by simp) (fun h => h1 (.tail _ h)) (fun h => h2 (.tail _ h))
      exact sim_asked hfit .question .question (fun _ _ _ => rfl) (by decide) (marks_have hv (by simp))
        (by simpa using this)
  case quest =>
    rcases hp with rfl | rfl <;>
    · obtain rfl := hf
      simp only [Pat.only] at hv h1 h2
      rw [Have.cons_iff] at hv
      obtain ⟨_, us, rfl, hv1, hv⟩ := hv
      obtain ⟨t, rfl⟩ := ty_term.mp hv1
      obtain ⟨q, _, f1, _, rfl, rfl, hr1, hr'⟩ := hr.of_cons
      obtain ⟨n, rfl, rfl⟩ := hr1.of_term
      have := markArgs hv hr' (by simp) (fun h => h1 (.tail _ h)) (fun h => h2 (.tail _ h))
      exact sim_asked hfit .quest .quest (fun _ _ _ => rfl) (by decide) (marks_have hv (by simp))
        (by simpa using this)
  case truth =>
    have key : ∃ xs : List ℚ, vs = xs.map .dbl ∧ xs.length ≤ 3 ∧ xs ≠ [] := by
      rcases hp with rfl | rfl | rfl <;> have hv := have_only hf hv <;>
      · obtain ⟨xs, rfl, hl⟩ := have_dbls hv (by simp)
        exact ⟨xs, rfl, by simp at hl; omega, by rintro rfl; simp at hl⟩
    obtain ⟨xs, rfl, hl, hne⟩ := key
    have hl' := hr.length
    obtain ⟨a, ha, hs⟩ := sim_truth (M := M) hfit hl hr
    cases xs with
    | nil => exact absurd rfl hne
    | cons x xs =>
      cases ps with
      | nil => simp at hl'
      | cons q qs => exact ⟨a, ha, hs⟩
  case budget =>
    have key : ∃ xs : List ℚ, vs = xs.map .dbl ∧ xs.length ≤ 3 ∧ xs ≠ [] := by
      rcases hp with rfl | rfl | rfl <;> have hv := have_only hf hv <;>
      · obtain ⟨xs, rfl, hl⟩ := have_dbls hv (by simp)
        exact ⟨xs, rfl, by simp at hl; omega, by rintro rfl; simp at hl⟩
    obtain ⟨xs, rfl, hl, hne⟩ := key
    have hl' := hr.length
    obtain ⟨a, ha, hs⟩ := sim_budget (M := M) hfit hl hr
    cases xs with
    | nil => exact absurd rfl hne
    | cons x xs =>
      cases ps with
      | nil => simp at hl'
      | cons q qs => exact ⟨a, ha, hs⟩
  case statement =>
    subst hp
    have hv := have_only hf hv
    simp only [Have.cons_iff, Have.nil_iff, ty_term, ty_copula] at hv
    obtain ⟨_, _, rfl, ⟨a, rfl⟩, _, _, rfl, ⟨b, rfl⟩, _, _, rfl, ⟨c, rfl⟩, rfl⟩ := hv
    obtain ⟨_, _, _, _, rfl, rfl, hr1, hr⟩ := hr.of_cons
    obtain ⟨_, _, _, _, rfl, rfl, hr2, hr⟩ := hr.of_cons
    obtain ⟨_, _, _, _, rfl, rfl, hr3, hr⟩ := hr.of_cons
    obtain ⟨rfl, rfl⟩ := hr.of_nil
    obtain ⟨n1, rfl, rfl⟩ := hr1.of_term
    obtain ⟨rfl, rfl⟩ := hr2.of_copula
    obtain ⟨n3, rfl, rfl⟩ := hr3.of_term
    exact ⟨_, rfl, Sim.get hfit (List.Perm.refl _) (Sim.get hfit (List.Perm.refl _)
      (sim_newTerm _ _))⟩
  case statement_operation1 =>
    subst hp
    obtain ⟨n, rfl⟩ := hf
    simp only [List.cons_append, List.nil_append, Have.cons_iff, ty_term] at hv
    obtain ⟨_, us, rfl, ⟨t, rfl⟩, hv⟩ := hv
    obtain ⟨ts, rfl⟩ := have_terms hv
    obtain ⟨_, _, _, _, rfl, rfl, hr1, hr'⟩ := hr.of_cons
    obtain ⟨n1, rfl, rfl⟩ := hr1.of_term
    exact ⟨_, by simp only [Parser.act, List.isEmpty_cons, Bool.false_eq_true, if_false,
      Action.statement_operation1, terms?_map, Option.map_some], sim_op1 hfit hr'⟩
  case statement_operation2 =>
    subst hp
    obtain ⟨n, rfl⟩ := hf
    simp only [List.cons_append, List.nil_append, Have.cons_iff, ty_term, ty_str] at hv
    obtain ⟨_, us, rfl, ⟨s, rfl⟩, _, us, rfl, ⟨t, rfl⟩, hv⟩ := hv
    obtain ⟨ts, rfl⟩ := have_terms hv
    obtain ⟨_, _, _, _, rfl, rfl, hr1, hr'⟩ := hr.of_cons
    obtain ⟨n1, rfl, rfl⟩ := hr1.of_str
    refine ⟨_, by simp only [Parser.act, List.isEmpty_cons, Bool.false_eq_true, if_false,
      Action.statement_operation2, Action.terms?, terms?_map, Option.map_some]; rfl, ?_⟩
    exact sim_operation hfit rfl fun op k => sim_op1 (ts := t :: ts) hfit hr'
  case multi_prefix =>
    rcases hp with rfl | rfl <;> obtain ⟨n, rfl⟩ := hf <;>
      simp only [List.cons_append, List.nil_append, Have.cons_iff, ty_term, ty_conn] at hv
    · obtain ⟨_, us, rfl, ⟨c, rfl⟩, _, us, rfl, ⟨t, rfl⟩, _, us, rfl, ⟨u, rfl⟩, hv⟩ := hv
      obtain ⟨ts, rfl⟩ := have_terms hv
      obtain ⟨_, _, _, _, rfl, rfl, hr1, hr'⟩ := hr.of_cons
      obtain ⟨rfl, rfl⟩ := hr1.of_conn
      exact sim_multi (ts := t :: u :: ts) hfit c hr'
    · obtain ⟨_, us, rfl, ⟨c, rfl⟩, _, us, rfl, ⟨t, rfl⟩, hv⟩ := hv
      obtain ⟨ts, rfl⟩ := have_terms hv
      obtain ⟨_, _, _, _, rfl, rfl, hr1, hr'⟩ := hr.of_cons
      obtain ⟨rfl, rfl⟩ := hr1.of_conn
      exact sim_multi (ts := t :: ts) hfit c hr'
  case negation =>
    subst hp
    have hv := have_only hf hv
    simp only [Have.cons_iff, Have.nil_iff, ty_term, ty_conn] at hv
    obtain ⟨_, _, rfl, ⟨a, rfl⟩, _, _, rfl, ⟨b, rfl⟩, rfl⟩ := hv
    obtain ⟨_, _, _, _, rfl, rfl, hr1, hr⟩ := hr.of_cons
    obtain ⟨_, _, _, _, rfl, rfl, hr2, hr⟩ := hr.of_cons
    obtain ⟨rfl, rfl⟩ := hr.of_nil
    obtain ⟨rfl, rfl⟩ := hr1.of_conn
    obtain ⟨n2, rfl, rfl⟩ := hr2.of_term
    exact ⟨_, rfl, Sim.get hfit (List.Perm.refl _) (sim_newTerm _ _)⟩
  case single_prefix =>
    subst hp
    have hv := have_only hf hv
    simp only [Have.cons_iff, Have.nil_iff, ty_term, ty_conn] at hv
    obtain ⟨_, _, rfl, ⟨a, rfl⟩, _, _, rfl, ⟨b, rfl⟩, _, _, rfl, ⟨c, rfl⟩, rfl⟩ := hv
    obtain ⟨_, _, _, _, rfl, rfl, hr1, hr⟩ := hr.of_cons
    obtain ⟨_, _, _, _, rfl, rfl, hr2, hr⟩ := hr.of_cons
    obtain ⟨_, _, _, _, rfl, rfl, hr3, hr⟩ := hr.of_cons
    obtain ⟨rfl, rfl⟩ := hr.of_nil
    obtain ⟨rfl, rfl⟩ := hr1.of_conn
    obtain ⟨n2, rfl, rfl⟩ := hr2.of_term
    obtain ⟨n3, rfl, rfl⟩ := hr3.of_term
    exact ⟨_, rfl, Sim.get hfit (List.Perm.refl _) (Sim.get hfit (List.Perm.refl _)
      (sim_newTerm _ _))⟩
  case single_infix =>
    subst hp
    have hv := have_only hf hv
    simp only [Have.cons_iff, Have.nil_iff, ty_term, ty_conn] at hv
    obtain ⟨_, _, rfl, ⟨a, rfl⟩, _, _, rfl, ⟨b, rfl⟩, _, _, rfl, ⟨c, rfl⟩, rfl⟩ := hv
    obtain ⟨_, _, _, _, rfl, rfl, hr1, hr⟩ := hr.of_cons
    obtain ⟨_, _, _, _, rfl, rfl, hr2, hr⟩ := hr.of_cons
    obtain ⟨_, _, _, _, rfl, rfl, hr3, hr⟩ := hr.of_cons
    obtain ⟨rfl, rfl⟩ := hr.of_nil
    obtain ⟨n1, rfl, rfl⟩ := hr1.of_term
    obtain ⟨rfl, rfl⟩ := hr2.of_conn
    obtain ⟨n3, rfl, rfl⟩ := hr3.of_term
    exact ⟨_, rfl, Sim.get hfit (List.Perm.refl _) (Sim.get hfit (List.Perm.refl _)
      (sim_newTerm _ _))⟩
  case atom_term =>
    subst hp
    have hv := have_only hf hv
    simp only [Have.cons_iff, Have.nil_iff, ty_str] at hv
    obtain ⟨_, _, rfl, ⟨a, rfl⟩, rfl⟩ := hv
    obtain ⟨_, _, _, _, rfl, rfl, hr1, hr⟩ := hr.of_cons
    obtain ⟨rfl, rfl⟩ := hr.of_nil
    obtain ⟨n1, rfl, rfl⟩ := hr1.of_str
    refine ⟨_, rfl, ?_⟩
    rw [← bind_assoc]
    refine Sim.look List.mem_cons_self (Sim.step fun t => ?_)
    exact Sim.delete (List.Perm.refl _) (hfit _) (Sim.new_last fun m => Sim.pure (.term m t))
  case operation =>
    subst hp
    have hv := have_only hf hv
    simp only [Have.cons_iff, Have.nil_iff, ty_str] at hv
    obtain ⟨_, _, rfl, ⟨a, rfl⟩, rfl⟩ := hv
    obtain ⟨_, _, _, _, rfl, rfl, hr1, hr⟩ := hr.of_cons
    obtain ⟨rfl, rfl⟩ := hr.of_nil
    obtain ⟨n1, rfl, rfl⟩ := hr1.of_str
    refine ⟨_, rfl, ?_⟩
    refine Sim.look List.mem_cons_self (Sim.step fun t => ?_)
    exact Sim.delete (List.Perm.refl _) (hfit _) (Sim.new_last fun m => Sim.pure (.term m t))
  case interval =>
    subst hp
    have hv := have_only hf hv
    simp only [Have.cons_iff, Have.nil_iff, ty_dbl] at hv
    obtain ⟨_, _, rfl, ⟨a, rfl⟩, rfl⟩ := hv
    obtain ⟨_, _, _, _, rfl, rfl, hr1, hr⟩ := hr.of_cons
    obtain ⟨rfl, rfl⟩ := hr.of_nil
    obtain ⟨n1, rfl, rfl⟩ := hr1.of_dbl
    refine ⟨_, rfl, ?_⟩
    refine Sim.look List.mem_cons_self (Sim.step fun t => ?_)
    refine Sim.new fun m => ?_
    exact Sim.delete (List.Perm.swap ..) (hfit _) (Sim.pure (.term m _))
  case tense_time =>
    subst hp
    have hv := have_only hf hv
    simp only [Have.cons_iff, Have.nil_iff, ty_dbl] at hv
    obtain ⟨_, _, rfl, ⟨a, rfl⟩, rfl⟩ := hv
    obtain ⟨_, _, _, _, rfl, rfl, hr1, hr⟩ := hr.of_cons
    obtain ⟨rfl, rfl⟩ := hr.of_nil
    obtain ⟨n1, rfl, rfl⟩ := hr1.of_dbl
    refine ⟨_, rfl, ?_⟩
    refine Sim.look List.mem_cons_self (Sim.step fun t => ?_)
    simp only [newTense, bind_assoc]
    refine Sim.new fun m => Sim.new fun k => ?_
    refine Sim.delete (rest := [(k, .tense (.obj m)), (m, .int t)])
      (((List.Perm.swap ..).cons _).trans (List.Perm.swap ..)) (hfit _) ?_
    exact Sim.pure (.tense k m t)
  case independent_var =>
    subst hp
    have hv := have_only hf hv
    simp only [Have.cons_iff, Have.nil_iff, ty_str] at hv
    obtain ⟨_, _, rfl, ⟨a, rfl⟩, rfl⟩ := hv
    obtain ⟨_, _, _, _, rfl, rfl, hr1, hr⟩ := hr.of_cons
    obtain ⟨rfl, rfl⟩ := hr.of_nil
    obtain ⟨n1, rfl, rfl⟩ := hr1.of_str
    exact ⟨_, rfl, sim_aVar hfit .independent n1 a⟩
  case dependent_var =>
    subst hp
    have hv := have_only hf hv
    simp only [Have.cons_iff, Have.nil_iff, ty_str] at hv
    obtain ⟨_, _, rfl, ⟨a, rfl⟩, rfl⟩ := hv
    obtain ⟨_, _, _, _, rfl, rfl, hr1, hr⟩ := hr.of_cons
    obtain ⟨rfl, rfl⟩ := hr.of_nil
    obtain ⟨n1, rfl, rfl⟩ := hr1.of_str
    exact ⟨_, rfl, sim_aVar hfit .dependent n1 a⟩
  case query_var =>
    subst hp
    have hv := have_only hf hv
    simp only [Have.cons_iff, Have.nil_iff, ty_str] at hv
    obtain ⟨_, _, rfl, ⟨a, rfl⟩, rfl⟩ := hv
    obtain ⟨_, _, _, _, rfl, rfl, hr1, hr⟩ := hr.of_cons
    obtain ⟨rfl, rfl⟩ := hr.of_nil
    obtain ⟨n1, rfl, rfl⟩ := hr1.of_str
    exact ⟨_, rfl, sim_aVar hfit .query n1 a⟩
  all_goals subst hp
  all_goals first
    | (have hv := have_only hf hv
       simp only [Have.nil_iff] at hv
       subst hv
       obtain ⟨rfl, rfl⟩ := hr.of_nil
       first
       | exact ⟨_, rfl, Sim.pure (.copula _)⟩
       | exact ⟨_, rfl, Sim.pure (.conn _)⟩
       | exact ⟨_, rfl, Sim.new fun m => Sim.new_last fun n => Sim.pure (.tense n m _)⟩)
    | (have hv := have_only hf hv
       simp only [Have.cons_iff, Have.nil_iff, ty_term] at hv
       obtain ⟨_, _, rfl, ⟨a, rfl⟩, rfl⟩ := hv
       obtain ⟨_, _, _, _, rfl, rfl, hr1, hr⟩ := hr.of_cons
       obtain ⟨rfl, rfl⟩ := hr.of_nil
       rw [List.append_nil]
       exact ⟨_, rfl, Sim.pure hr1⟩)
    | (obtain ⟨n, rfl⟩ := hf
       simp only [List.cons_append, List.nil_append, Have.cons_iff, ty_term, ty_conn] at hv
       obtain ⟨_, us, rfl, ⟨c, rfl⟩, _, us, rfl, ⟨t, rfl⟩, hv⟩ := hv
       obtain ⟨ts, rfl⟩ := have_terms hv
       obtain ⟨_, _, _, _, rfl, rfl, hr1, hr1'⟩ := hr.of_cons
       first
       | (obtain ⟨rfl, rfl⟩ := hr1.of_conn
          exact sim_multi (ts := t :: ts) hfit c hr1')
       | exact sim_multi (ts := c :: t :: ts) hfit _ hr)

theorem emits_head : ∀ a : Ast, ∃ e ∈ a.emits, a.ty = e.res
  | .leaf e _ => ⟨e, by simp [Ast.emits], rfl⟩
  | .node e _ => ⟨e, by simp [Ast.emits], rfl⟩

theorem mem_emitsAll {e : Emit} : ∀ {as : List Ast}, e ∈ emitsAll as ↔ ∃ a ∈ as, e ∈ a.emits
  | [] => by simp [emitsAll]
  | a :: as => by simp [emitsAll, mem_emitsAll (as := as)]

/-- Deleting marks under another type is fine, if there are any. -/
def MarksFit (fit : Cls → Cls → Bool) (es : List Emit) : Prop :=
  (∀ e ∈ es, e.res = .tense → fit .tupleInt .tupleVoid = true) ∧
  (∀ e ∈ es, e.res = .truth → fit .tupleTruth .tupleVoid = true)

theorem MarksFit.sub {es es' : List Emit} (h : MarksFit fit es) (hs : ∀ e ∈ es', e ∈ es) :
    MarksFit fit es' := ⟨fun e he => h.1 e (hs e he), fun e he => h.2 e (hs e he)⟩

theorem sim_push {n : Nat} {ps : List Ptr} {p : Ptr} {x : Act γ} {g : Unit → HAct δ}
    {post : δ → γ → Fp → Prop} {pre rest : Fp} (hp : pre.Perm ((n, .args ps) :: rest))
    (h : Sim ((n, .args (ps ++ [p])) :: rest) x (g ()) post) :
    Sim pre x (push (.obj n) p >>= g) post := by
  unfold push
  rw [bind_assoc]
  refine Sim.look (hp.mem_iff.mpr List.mem_cons_self) ?_
  exact Sim.write hp h

/-- The loop over siblings. -/
theorem sim_loop : ∀ {as : List Ast},
    (∀ a ∈ as, Sim [] (Parser.evalNode M undefined a) (evalNode M fit a) Rep) → ∀ (n : Nat)
    (ps0 : List Ptr), Sim [(n, .args ps0)] (Parser.evalAll M undefined as)
      (evalLoop M fit (.obj n) as)
      fun _ vs fp => ∃ ps fp', RepAll ps vs fp' ∧ fp.Perm ((n, .args (ps0 ++ ps)) :: fp')
  | [], _, n, ps0 => by
    rw [Parser.evalAll, evalLoop]
    exact Sim.pure ⟨[], [], .nil, by simp⟩
  | a :: as, h, n, ps0 => by
    rw [Parser.evalAll, evalLoop]
    refine ((h a (by simp)).frame [(n, .args ps0)]).bind ?_
    rintro p v _ ⟨f1, rfl, hr⟩
    refine sim_push (rest := f1)
      (List.perm_append_comm (l₂ := [(n, Obj.args ps0)])) ?_
    have := (sim_loop (as := as) (fun x hx => h x (by simp [hx])) n (ps0 ++ [p])).frame f1
    have hb := this.bind (f := fun vs => (pure (v :: vs) : Act (List Val)))
      (g := fun u => (Pure.pure u : HAct Unit))
      (post := fun _ vs fp => ∃ ps fp', RepAll ps vs fp' ∧ fp.Perm ((n, .args (ps0 ++ ps)) :: fp'))
      (by
        rintro _ vs _ ⟨_, rfl, ps, fp', hr', hp⟩
        refine Sim.pure ⟨p :: ps, f1 ++ fp', .cons hr hr', ?_⟩
        refine (hp.append_right f1).trans ?_
        simp only [List.append_assoc, List.cons_append, List.nil_append]
        exact List.perm_append_comm.cons _)
    simpa using hb

/-- Typed trees: the same outcome, and the cells of the result and no others. -/
theorem sim_evalNode (hfit : ∀ c, fit c c = true) {a : Ast} (h : a.Typed)
    (hm : MarksFit fit a.emits) :
    Sim [] (Parser.evalNode M undefined a) (evalNode M fit a) Rep := by
  induction h with
  | leaf h =>
    obtain ⟨f, hf, hs⟩ := sim_leaf (M := M) (fit := fit) h _
    rw [Parser.evalNode, evalNode, dispatch_works (leaf_registered h) hf, dispatch,
      if_pos (leaf_registered h)]
    exact hs
  | @node e cs p hc hp hf ih =>
    have hsub : ∀ c ∈ cs, MarksFit fit c.emits := fun c hc => hm.sub fun x hx => by
      simp only [Ast.emits, List.mem_cons, mem_emitsAll]
      exact .inr ⟨c, hc, hx⟩
    have hloop := sim_loop (M := M) fun c hc' => ih c hc' (hsub c hc')
    have htyped := (evalAll_typed (M := M) (bad := undefined) (bad' := undefined)
      fun c hc' => evalNode_typed M undefined undefined (hc c hc')).2
    have h1 : .tense ∈ cs.map Ast.ty → fit .tupleInt .tupleVoid = true := by
      intro ht
      obtain ⟨c, hc', hty⟩ := List.mem_map.mp ht
      obtain ⟨x, hx, hxe⟩ := emits_head c
      exact (hsub c hc').1 x hx (hxe ▸ hty)
    have h2 : .truth ∈ cs.map Ast.ty → fit .tupleTruth .tupleVoid = true := by
      intro ht
      obtain ⟨c, hc', hty⟩ := List.mem_map.mp ht
      obtain ⟨x, hx, hxe⟩ := emits_head c
      exact (hsub c hc').2 x hx (hxe ▸ hty)
    rw [Parser.evalNode]
    cases cs with
    | nil =>
      rw [evalNode, Parser.evalAll, pure_bind]
      obtain ⟨f, hf, hs⟩ := sim_node (M := M) hfit hp hf (vs := []) rfl .nil h1 h2
      simp only [List.isEmpty_nil, if_true] at hf hs ⊢
      rw [dispatch_works (node_registered hp) hf, dispatch, if_pos (node_registered hp)]
      exact hs
    | cons c cs =>
      rw [evalNode]
      refine Sim.new fun n => ?_
      refine ((hloop n []).also htyped).bind ?_
      rintro _ vs fp ⟨⟨ps, fp', hr, hpm⟩, hv⟩
      refine Sim.perm hpm (Sim.look List.mem_cons_self ?_)
      obtain ⟨f, hf, hs⟩ := sim_node (M := M) hfit hp hf hv hr h1 h2
      have hl := congrArg List.length hv
      have hl' := hr.length
      have e1 : vs.isEmpty = false := by
        cases vs
        · simp at hl
        · rfl
      have e2 : ps.isEmpty = false := by
        cases ps
        · cases vs
          · simp at hl
          · simp at hl'
        · rfl
      simp only [e1, e2, Bool.false_eq_true, if_false, List.isEmpty_cons] at hf hs ⊢
      rw [dispatch_works (node_registered hp) hf]
      simp only [List.nil_append, dispatch, if_pos (node_registered hp)]
      have := (Sim.perm (List.perm_append_comm (l₁ := [(n, Obj.args ps)])) (hs.frame _)).bind
        (f := fun v => (pure v : Act Val)) (g := fun r => do
          delete fit .args (.obj n)
          Pure.pure r) (post := Rep)
        (by
          rintro r v _ ⟨fp', rfl, hr⟩
          exact Sim.delete (rest := fp') (List.perm_append_comm (l₂ := [(n, Obj.args ps)])) (hfit _)
            (Sim.pure hr))
      simpa using this

/-- The whole of a tree that makes a task. -/
theorem sim_evalTask (hfit : ∀ c, fit c c = true) {a : Ast} (h : a.Typed) (ht : a.ty = .task)
    (hm : MarksFit fit a.emits) :
    Sim [] (Parser.evalTask M undefined [a]) (evalTask M fit [a])
      fun p t fp => Rep p (.task t) fp := by
  unfold Parser.evalTask evalTask
  refine Sim.new fun n => ?_
  have hloop := sim_loop (M := M) (fit := fit) (as := [a])
    (by rintro x hx; rw [List.mem_singleton] at hx; subst hx; exact sim_evalNode hfit h hm) n []
  have htyped := (evalAll_typed (M := M) (bad := undefined) (bad' := undefined) (as := [a])
    (by rintro x hx; rw [List.mem_singleton] at hx; subst hx
        exact evalNode_typed M undefined undefined h)).2
  refine (hloop.also htyped).bind ?_
  rintro _ vs fp ⟨⟨ps, fp', hr, hpm⟩, hv⟩
  simp only [List.map_cons, List.map_nil, ht, Have.cons_iff, Have.nil_iff, ty_task] at hv
  obtain ⟨_, _, rfl, ⟨t, rfl⟩, rfl⟩ := hv
  obtain ⟨q, _, f1, _, rfl, rfl, hr1, hr⟩ := hr.of_cons
  obtain ⟨rfl, rfl⟩ := hr.of_nil
  rw [List.append_nil] at hpm
  refine Sim.perm hpm (Sim.look List.mem_cons_self ?_)
  exact Sim.delete (List.Perm.refl _) (hfit _) (Sim.pure hr1)

theorem Sim.delete_last {c : Cls} {n : Nat} {o : Obj} {pre rest : Fp} {x : Act γ}
    {post : Unit → γ → Fp → Prop} (hp : pre.Perm ((n, o) :: rest)) (hc : fit o.cls c = true)
    (h : Sim rest x (Pure.pure () : HAct Unit) post) :
    Sim pre x (HAct.delete fit c (.obj n)) post := by
  have := Sim.delete (g := fun u => (Pure.pure u : HAct Unit)) hp hc h
  rwa [bind_pure] at this

/-- The end of a task, if the classes do not matter. -/
theorem sim_dropTask (hfit : ∀ c d, fit c d = true) {p : Ptr} {t : Task} {fp : Fp}
    (h : Rep p (.task t) fp) :
    Sim fp (Act.onWorld fun w => (addrs t.sentence.term).foldlM (fun w a => dropAddr a w) w)
      (dropTask fit p) fun _ _ fp => fp = [] := by
  have hrel : release fit t.sentence.term =
      ofAct (Act.onWorld fun w => (addrs t.sentence.term).foldlM (fun w a => dropAddr a w) w) :=
    if_pos (List.all_eq_true.mpr fun c _ => hfit _ _)
  rw [← bind_pure (Act.onWorld _)]
  cases h with
  | task n b s _ fp hs =>
    cases hs with
    | asked k m _ hn hc =>
      refine Sim.look List.mem_cons_self ?_
      refine Sim.look (.tail _ (.tail _ List.mem_cons_self)) ?_
      simp only [ne_eq, not_true_eq_false, if_false, hrel]
      refine Sim.delete (n := m) (o := .stamp t.sentence.stamp)
        (rest := [(n, .task (.obj b) (.obj k)), (b, .budget t.budget),
          (k, .sentence t.sentence.cls t.sentence.term t.sentence.punct .null (.obj m))])
        (by simpa using (List.perm_append_comm (l₁ := [_, _, _]) (l₂ := [_]))) (hfit _ _) ?_
      refine Sim.step fun _ => ?_
      refine Sim.delete (n := k)
        (o := .sentence t.sentence.cls t.sentence.term t.sentence.punct .null (.obj m))
        (rest := [(n, .task (.obj b) (.obj k)), (b, .budget t.budget)])
        (by simpa using (List.perm_append_comm (l₁ := [_, _]) (l₂ := [_]))) (hfit _ _) ?_
      refine Sim.delete (n := b) (o := .budget t.budget) (rest := [(n, .task (.obj b) (.obj k))])
        (List.Perm.swap ..) (hfit _ _) ?_
      exact Sim.delete_last (List.Perm.refl _) (hfit _ _) (Sim.pure rfl)
    | believed k m j _ tr hn hc =>
      refine Sim.look List.mem_cons_self ?_
      refine Sim.look (.tail _ (.tail _ List.mem_cons_self)) ?_
      simp only [ne_eq, reduceCtorEq, not_false_eq_true, if_true, hrel]
      refine Sim.delete (n := m) (o := .stamp t.sentence.stamp)
        (rest := [(n, .task (.obj b) (.obj k)), (b, .budget t.budget),
          (k, .sentence t.sentence.cls t.sentence.term t.sentence.punct (.obj j) (.obj m)),
          (j, .truth tr)])
        (by
          have := (List.perm_append_comm (l₁ := [(n, Obj.task (.obj b) (.obj k)), (b, .budget t.budget),
            (k, .sentence t.sentence.cls t.sentence.term t.sentence.punct (.obj j) (.obj m))])
            (l₂ := [(m, .stamp t.sentence.stamp)])).append_right [(j, .truth tr)]
          simpa using this) (hfit _ _) ?_
      refine Sim.delete (n := j) (o := .truth tr)
        (rest := [(n, .task (.obj b) (.obj k)), (b, .budget t.budget),
          (k, .sentence t.sentence.cls t.sentence.term t.sentence.punct (.obj j) (.obj m))])
        (by simpa using (List.perm_append_comm (l₁ := [_, _, _]) (l₂ := [_]))) (hfit _ _) ?_
      refine Sim.step fun _ => ?_
      refine Sim.delete (n := k)
        (o := .sentence t.sentence.cls t.sentence.term t.sentence.punct (.obj j) (.obj m))
        (rest := [(n, .task (.obj b) (.obj k)), (b, .budget t.budget)])
        (by simpa using (List.perm_append_comm (l₁ := [_, _]) (l₂ := [_]))) (hfit _ _) ?_
      refine Sim.delete (n := b) (o := .budget t.budget) (rest := [(n, .task (.obj b) (.obj k))])
        (List.Perm.swap ..) (hfit _ _) ?_
      exact Sim.delete_last (List.Perm.refl _) (hfit _ _) (Sim.pure rfl)

/-- Deleting an object under a class that does not fit. -/
theorem Sim.delete_ub {c : Cls} {n : Nat} {o : Obj} {pre : Fp} {g : Unit → HAct δ}
    {post : δ → γ → Fp → Prop} (hm : (n, o) ∈ pre) (hc : fit o.cls c = false) :
    Sim pre (undefined : Act γ) (HAct.delete fit c (.obj n) >>= g) post := by
  intro F s w hs
  have hl : s.heap.cells.lookup n = some o :=
    lookup_of_mem w.nodup (hs.mem_iff.mpr (List.mem_append_left _ hm))
  change Outcome F post (undefined s.env) (HAct.bind (HAct.delete fit c (.obj n)) g s)
  unfold HAct.bind HAct.delete
  simp only [hl, hc, Bool.false_eq_true, if_false]
  rfl

/-- The end of a task, if the class of the sentence or of one of the terms matters. -/
theorem sim_dropTask_bad (hfit : ∀ c, fit c c = true) {p : Ptr} {t : Task} {fp : Fp}
    (h : Rep p (.task t) fp)
    (hb : fit (.sentence t.sentence.cls) (.sentence .sentence) = false ∨
      ∃ c ∈ classes t.sentence.term, fit (.term c) (.term .term) = false) :
    ∃ x : Act Unit, Sim fp x (dropTask fit p) fun _ _ _ => False := by
  have key : ∀ {pre : Fp} {k b n : Nat} {o : Obj}, (k, o) ∈ pre → o.cls = .sentence t.sentence.cls →
      ∃ x : Act Unit, Sim pre x (do
        release fit t.sentence.term
        delete fit (.sentence .sentence) (.obj k)
        delete fit .budget (.obj b)
        delete fit .task (.obj n)) fun _ _ _ => False := by
    intro pre k b n o hm hk
    by_cases hall : ((classes t.sentence.term).all fun c => fit (.term c) (.term .term)) = true
    · refine ⟨(Act.onWorld fun w => (addrs t.sentence.term).foldlM (fun w a => dropAddr a w) w) >>=
        fun _ => undefined, ?_⟩
      rw [release, if_pos hall]
      refine Sim.step fun _ => Sim.delete_ub hm ?_
      rw [hk]
      rcases hb with hb | ⟨c, hc, hb⟩
      · exact hb
      · rw [List.all_eq_true.mp hall c hc] at hb
        cases hb
    · refine ⟨undefined, ?_⟩
      rw [release, if_neg hall]
      intro F s w hs
      rfl
  cases h with
  | task n b s _ fp hs =>
    cases hs with
    | asked k m _ hn hc =>
      obtain ⟨x, hx⟩ := key (b := b) (n := n) (pre := [(n, .task (.obj b) (.obj k)), (b, .budget t.budget),
          (k, .sentence t.sentence.cls t.sentence.term t.sentence.punct .null (.obj m))])
          (.tail _ (.tail _ List.mem_cons_self)) rfl
      refine ⟨x, ?_⟩
      refine Sim.look List.mem_cons_self ?_
      refine Sim.look (.tail _ (.tail _ List.mem_cons_self)) ?_
      simp only [ne_eq, not_true_eq_false, if_false]
      refine Sim.delete (n := m) (o := .stamp t.sentence.stamp)
        (by simpa using (List.perm_append_comm (l₁ := [_, _, _]) (l₂ := [_]))) (hfit _) hx
    | believed k m j _ tr hn hc =>
      obtain ⟨x, hx⟩ := key (b := b) (n := n) (pre := [(n, .task (.obj b) (.obj k)), (b, .budget t.budget),
          (k, .sentence t.sentence.cls t.sentence.term t.sentence.punct (.obj j) (.obj m))])
          (.tail _ (.tail _ List.mem_cons_self)) rfl
      refine ⟨x, ?_⟩
      refine Sim.look List.mem_cons_self ?_
      refine Sim.look (.tail _ (.tail _ List.mem_cons_self)) ?_
      simp only [ne_eq, reduceCtorEq, not_false_eq_true, if_true]
      refine Sim.delete (n := m) (o := .stamp t.sentence.stamp)
        (rest := [(n, .task (.obj b) (.obj k)), (b, .budget t.budget),
          (k, .sentence t.sentence.cls t.sentence.term t.sentence.punct (.obj j) (.obj m)),
          (j, .truth tr)])
        (by
          have := (List.perm_append_comm (l₁ := [(n, Obj.task (.obj b) (.obj k)), (b, .budget t.budget),
            (k, .sentence t.sentence.cls t.sentence.term t.sentence.punct (.obj j) (.obj m))])
            (l₂ := [(m, .stamp t.sentence.stamp)])).append_right [(j, .truth tr)]
          simpa using this) (hfit _) ?_
      exact Sim.delete (n := j) (o := .truth tr)
        (by simpa using (List.perm_append_comm (l₁ := [_, _, _]) (l₂ := [_]))) (hfit _) hx

end Cnars.Parser.Mem
