import Mathlib.Data.List.Perm.Basic
import Verif.Parser.ActionTypes
import Verif.Parser.Memory

/-!
# Pointers and values

A computation on pointers follows one on values: rules for proving it.
-/

namespace Cnars.Parser.Mem
open Cnars HAct

instance : LawfulMonad HAct := LawfulMonad.mk'
  (id_map := by
    intro α x
    funext s
    change HAct.bind x (fun a => pure (id a)) s = x s
    unfold HAct.bind
    rcases x s with ⟨r, s'⟩
    cases r <;> rfl)
  (pure_bind := by intros; rfl)
  (bind_assoc := by
    intro α β γ x f g
    funext s
    change HAct.bind (HAct.bind x f) g s = HAct.bind x (fun a => HAct.bind (f a) g) s
    unfold HAct.bind
    rcases x s with ⟨r, s'⟩
    cases r <;> rfl)

/-- Cells. -/
abbrev Fp := List (Nat × Obj)

/-- Every address is in use at most once, and has been given out. -/
structure Heap.Wf (h : Heap) : Prop where
  nodup : (h.cells.map (·.1)).Nodup
  below : ∀ c ∈ h.cells, c.1 < h.next

theorem lookup_of_mem {n : Nat} {o : Obj} : ∀ {l : Fp}, (l.map (·.1)).Nodup → (n, o) ∈ l →
    l.lookup n = some o
  | [], _, h => by simp at h
  | (k, x) :: l, hn, h => by
    rw [List.map_cons, List.nodup_cons] at hn
    rcases List.mem_cons.mp h with h | h
    · obtain ⟨rfl, rfl⟩ := Prod.mk.inj h
      simp [List.lookup]
    · have : n ≠ k := by
        rintro rfl
        exact hn.1 (List.mem_map_of_mem (f := (·.1)) ‹(_, o) ∈ l›)
      simp only [List.lookup, beq_eq_false_iff_ne.mpr this]
      exact lookup_of_mem hn.2 h

theorem perm_eraseP {n : Nat} {o : Obj} : ∀ {l : Fp}, (l.map (·.1)).Nodup → (n, o) ∈ l →
    l.Perm ((n, o) :: l.eraseP (·.1 == n))
  | [], _, h => by simp at h
  | (k, x) :: l, hn, h => by
    rw [List.map_cons, List.nodup_cons] at hn
    rcases List.mem_cons.mp h with h | h
    · obtain ⟨rfl, rfl⟩ := Prod.mk.inj h
      simp
    · have : k ≠ n := by
        rintro rfl
        exact hn.1 (List.mem_map_of_mem (f := (·.1)) ‹(_, o) ∈ l›)
      rw [List.eraseP_cons_of_neg (by simpa using this)]
      exact ((perm_eraseP hn.2 h).cons _).trans (List.Perm.swap ..)

theorem eraseP_perm {n : Nat} {o : Obj} {l rest : Fp} (hn : (l.map (·.1)).Nodup)
    (h : l.Perm ((n, o) :: rest)) : (l.eraseP (·.1 == n)).Perm rest :=
  ((perm_eraseP hn (h.mem_iff.mpr (by simp))).symm.trans h).cons_inv

theorem Heap.Wf.erase {h : Heap} (w : h.Wf) (n : Nat) :
    (Heap.mk (h.cells.eraseP (·.1 == n)) h.next).Wf :=
  ⟨w.nodup.sublist ((List.eraseP_sublist).map _),
    fun c hc => w.below c (List.mem_of_mem_eraseP hc)⟩

theorem Heap.Wf.new {h : Heap} (w : h.Wf) (o : Obj) :
    (Heap.mk ((h.next, o) :: h.cells) (h.next + 1)).Wf := by
  constructor
  · rw [List.map_cons, List.nodup_cons]
    refine ⟨fun hm => ?_, w.nodup⟩
    obtain ⟨c, hc, e⟩ := List.mem_map.mp hm
    exact absurd (w.below c hc) (by simp at e; omega)
  · intro c hc
    rcases List.mem_cons.mp hc with rfl | hc
    · simp
    · exact Nat.lt_succ_of_lt (w.below c hc)

/-- What a computation on values and one on pointers may end with: the same outcome and state; the
result satisfies `post`; of the cells only those of the result and `F` are left, if it returns;
if it throws, at least the cells `F`. -/
def Outcome {α β : Type} (F : Fp) (post : β → α → Fp → Prop) : Res α × Env → Res β × St → Prop
  | (.ok a, e), (.ok b, s) =>
    s.env = e ∧ s.heap.Wf ∧ ∃ fp, s.heap.cells.Perm (fp ++ F) ∧ post b a fp
  | (.throw m, e), (.throw m', s) =>
    m' = m ∧ s.env = e ∧ s.heap.Wf ∧ ∃ fp, s.heap.cells.Perm (fp ++ F)
  | (.ub, e), (.ub, s) => s.env = e
  | (.outOfFuel, e), (.outOfFuel, s) => s.env = e
  | _, _ => False

/-- Started with the cells `pre` and others, the computation on pointers ends like the one on values. -/
def Sim {α β : Type} (pre : Fp) (x : Act α) (y : HAct β) (post : β → α → Fp → Prop) : Prop :=
  ∀ (F : Fp) (s : St), s.heap.Wf → s.heap.cells.Perm (pre ++ F) → Outcome F post (x s.env) (y s)

section
variable {α β γ δ : Type} {pre : Fp}

theorem Sim.pure {a : α} {b : β} {post : β → α → Fp → Prop} (h : post b a pre) :
    Sim pre (pure a) (pure b) post :=
  fun _ _ w hp => ⟨rfl, w, pre, hp, h⟩

theorem Sim.mono {x : Act α} {y : HAct β} {post post' : β → α → Fp → Prop} (h : Sim pre x y post)
    (hp : ∀ b a fp, post b a fp → post' b a fp) : Sim pre x y post' := by
  intro F s w hs
  have := h F s w hs
  generalize x s.env = o at this ⊢
  generalize y s = o' at this ⊢
  obtain ⟨r, e⟩ := o
  obtain ⟨r', s'⟩ := o'
  cases r <;> cases r' <;> try exact this
  obtain ⟨h1, h2, fp, h3, h4⟩ := this
  exact ⟨h1, h2, fp, h3, hp _ _ _ h4⟩

theorem Sim.perm {pre' : Fp} {x : Act α} {y : HAct β} {post : β → α → Fp → Prop}
    (hp : pre.Perm pre') (h : Sim pre' x y post) : Sim pre x y post :=
  fun F s w hs => h F s w (hs.trans (hp.append_right F))

theorem Sim.bind {x : Act α} {y : HAct β} {mid : β → α → Fp → Prop} {f : α → Act γ} {g : β → HAct δ}
    {post : δ → γ → Fp → Prop} (h : Sim pre x y mid)
    (hf : ∀ b a fp, mid b a fp → Sim fp (f a) (g b) post) : Sim pre (x >>= f) (y >>= g) post := by
  intro F s w hs
  have h := h F s w hs
  change Outcome F post (Act.bind x f s.env) (HAct.bind y g s)
  unfold Act.bind HAct.bind
  generalize x s.env = o at h ⊢
  generalize y s = o' at h ⊢
  obtain ⟨r, e⟩ := o
  obtain ⟨r', s'⟩ := o'
  cases r <;> cases r' <;> first | exact False.elim h | exact h | skip
  obtain ⟨rfl, h2, fp, h3, h4⟩ := h
  exact hf _ _ _ h4 F s' h2 h3

/-- The cells of others are not touched. -/
theorem Sim.frame {x : Act α} {y : HAct β} {post : β → α → Fp → Prop} (h : Sim pre x y post)
    (G : Fp) : Sim (pre ++ G) x y fun b a fp => ∃ fp', fp = fp' ++ G ∧ post b a fp' := by
  intro F s w hs
  rw [List.append_assoc] at hs
  have := h (G ++ F) s w hs
  generalize x s.env = o at this ⊢
  generalize y s = o' at this ⊢
  obtain ⟨r, e⟩ := o
  obtain ⟨r', s'⟩ := o'
  cases r <;> cases r' <;> try exact this
  · obtain ⟨h1, h2, fp, h3, h4⟩ := this
    exact ⟨h1, h2, fp ++ G, by rwa [List.append_assoc], fp, rfl, h4⟩
  · obtain ⟨h1, h2, h3, fp, h4⟩ := this
    exact ⟨h1, h2, h3, fp ++ G, by rwa [List.append_assoc]⟩

/-- Facts about the value. -/
theorem Sim.also {x : Act α} {y : HAct β} {post : β → α → Fp → Prop} {T : α → Prop}
    (h : Sim pre x y post) (ht : ∀ e a e', x e = (.ok a, e') → T a) :
    Sim pre x y fun b a fp => post b a fp ∧ T a := by
  intro F s w hs
  have := h F s w hs
  have ht := ht s.env
  generalize x s.env = o at this ht ⊢
  generalize y s = o' at this ⊢
  obtain ⟨r, e⟩ := o
  obtain ⟨r', s'⟩ := o'
  cases r <;> cases r' <;> try exact this
  obtain ⟨h1, h2, fp, h3, h4⟩ := this
  exact ⟨h1, h2, fp, h3, h4, ht _ _ rfl⟩

theorem Sim.ofAct (x : Act α) : Sim pre x (ofAct x) fun b a fp => b = a ∧ fp = pre := by
  intro F s w hs
  unfold HAct.ofAct
  generalize x s.env = o
  obtain ⟨r, e⟩ := o
  cases r
  · exact ⟨rfl, w, pre, hs, rfl, rfl⟩
  · exact ⟨rfl, rfl, w, pre, hs⟩
  · rfl
  · rfl

/-- The same step on both sides. -/
theorem Sim.step {x : Act α} {f : α → Act γ} {g : α → HAct δ} {post : δ → γ → Fp → Prop}
    (h : ∀ a, Sim pre (f a) (g a) post) : Sim pre (x >>= f) (HAct.ofAct x >>= g) post :=
  (Sim.ofAct x).bind fun b a fp ⟨e1, e2⟩ => by subst e1 e2; exact h b

theorem Sim.new {o : Obj} {x : Act γ} {g : Ptr → HAct δ} {post : δ → γ → Fp → Prop}
    (h : ∀ n, Sim ((n, o) :: pre) x (g (.obj n)) post) : Sim pre x (new o >>= g) post :=
  fun F s w hs => h s.heap.next F ⟨⟨(s.heap.next, o) :: s.heap.cells, s.heap.next + 1⟩, s.env⟩
    (w.new o) (hs.cons _)

theorem Sim.new_last {o : Obj} {x : Act γ} {post : Ptr → γ → Fp → Prop}
    (h : ∀ n, Sim ((n, o) :: pre) x (Pure.pure (.obj n) : HAct Ptr) post) :
    Sim pre x (HAct.new o) post := by
  have := Sim.new (g := fun p => (Pure.pure p : HAct Ptr)) h
  rwa [bind_pure] at this

theorem Sim.look {n : Nat} {o : Obj} {x : Act γ} {g : Obj → HAct δ} {post : δ → γ → Fp → Prop}
    (hm : (n, o) ∈ pre) (h : Sim pre x (g o) post) : Sim pre x (HAct.look (.obj n) >>= g) post := by
  intro F s w hs
  have : s.heap.cells.lookup n = some o :=
    lookup_of_mem w.nodup (hs.mem_iff.mpr (List.mem_append_left _ hm))
  have := h F s w hs
  change Outcome F post (x s.env) (HAct.bind (HAct.look (.obj n)) g s)
  unfold HAct.bind HAct.look
  simp only [‹List.lookup _ _ = _›]
  exact this

theorem Sim.delete {fit : Cls → Cls → Bool} {c : Cls} {n : Nat} {o : Obj} {rest : Fp} {x : Act γ}
    {g : Unit → HAct δ} {post : δ → γ → Fp → Prop} (hp : pre.Perm ((n, o) :: rest))
    (hc : fit o.cls c = true) (h : Sim rest x (g ()) post) :
    Sim pre x (HAct.delete fit c (.obj n) >>= g) post := by
  intro F s w hs
  have hs' : s.heap.cells.Perm ((n, o) :: (rest ++ F)) := hs.trans (hp.append_right F)
  have hl : s.heap.cells.lookup n = some o := lookup_of_mem w.nodup (hs'.mem_iff.mpr (by simp))
  have := h F ⟨⟨s.heap.cells.eraseP (·.1 == n), s.heap.next⟩, s.env⟩ (w.erase n)
    (eraseP_perm w.nodup hs')
  change Outcome F post (x s.env) (HAct.bind (HAct.delete fit c (.obj n)) g s)
  unfold HAct.bind HAct.delete
  simp only [hl, hc, if_true]
  exact this

theorem Sim.write {n : Nat} {o o' : Obj} {rest : Fp} {x : Act γ}
    {g : Unit → HAct δ} {post : δ → γ → Fp → Prop} (hp : pre.Perm ((n, o) :: rest))
    (h : Sim ((n, o') :: rest) x (g ()) post) :
    Sim pre x (HAct.write (.obj n) o' >>= g) post := by
  intro F s w hs
  have hs' : s.heap.cells.Perm ((n, o) :: (rest ++ F)) := hs.trans (hp.append_right F)
  have hl : s.heap.cells.lookup n = some o := lookup_of_mem w.nodup (hs'.mem_iff.mpr (by simp))
  have he := eraseP_perm w.nodup hs'
  have := h F ⟨⟨(n, o') :: s.heap.cells.eraseP (·.1 == n), s.heap.next⟩, s.env⟩
    (by
      constructor
      · have h1 := w.nodup
        rw [(hs'.map _).nodup_iff] at h1
        rw [List.map_cons, List.nodup_cons] at h1 ⊢
        refine ⟨fun hm => h1.1 ?_, (w.erase n).nodup⟩
        exact (he.map _).mem_iff.mp hm
      · intro c hc
        rcases List.mem_cons.mp hc with rfl | hc
        · exact w.below (n, o) (hs'.mem_iff.mpr (by simp))
        · exact (w.erase n).below c hc)
    (he.cons _)
  change Outcome F post (x s.env) (HAct.bind (HAct.write (.obj n) o') g s)
  unfold HAct.bind HAct.write
  simp only [hl]
  exact this

end

/-! ## What is behind a pointer -/

/-- The pointer stands for the value, with these cells. -/
inductive Rep : Ptr → Val → Fp → Prop where
  | term (n : Nat) (t : Term) : Rep (.obj n) (.term t) [(n, .handle t)]
  | copula (c : Copula) : Rep (.copula c) (.copula c) []
  | conn (c : Connector) : Rep (.conn c) (.conn c) []
  | str (n : Nat) (s : List Char) : Rep (.obj n) (.str s) [(n, .str s)]
  | dbl (n : Nat) (x : ℚ) : Rep (.obj n) (.dbl x) [(n, .dbl x)]
  | tense (n m : Nat) (k : Int) : Rep (.obj n) (.tense k) [(n, .tense (.obj m)), (m, .int k)]
  | truth (n m : Nat) (t : Truth ℚ) : Rep (.obj n) (.truth t) [(n, .mark (.obj m)), (m, .truth t)]
  | budget (n : Nat) (b : Budget) : Rep (.obj n) (.budget b) [(n, .budget b)]
  | asked (n m : Nat) (s : Sentence ℚ) : s.truth = none → s.cls ≠ .sentence → Rep (.obj n) (.sentence s)
      [(n, .sentence s.cls s.term s.punct .null (.obj m)), (m, .stamp s.stamp)]
  | believed (n m k : Nat) (s : Sentence ℚ) (t : Truth ℚ) : s.truth = some t → s.cls ≠ .sentence →
      Rep (.obj n) (.sentence s) [(n, .sentence s.cls s.term s.punct (.obj k) (.obj m)),
        (m, .stamp s.stamp), (k, .truth t)]
  | task (n b : Nat) (s : Ptr) (t : Task) (fp : Fp) : Rep s (.sentence t.sentence) fp →
      Rep (.obj n) (.task t) ((n, .task (.obj b) s) :: (b, .budget t.budget) :: fp)

/-- The same for lists. -/
inductive RepAll : List Ptr → List Val → Fp → Prop where
  | nil : RepAll [] [] []
  | cons {p : Ptr} {v : Val} {fp : Fp} {ps : List Ptr} {vs : List Val} {fps : Fp} :
      Rep p v fp → RepAll ps vs fps → RepAll (p :: ps) (v :: vs) (fp ++ fps)

theorem RepAll.snoc {ps : List Ptr} {vs : List Val} {fps : Fp} (h : RepAll ps vs fps) {p : Ptr}
    {v : Val} {fp : Fp} (hr : Rep p v fp) : RepAll (ps ++ [p]) (vs ++ [v]) (fps ++ fp) := by
  induction h with
  | nil => simpa using RepAll.cons hr .nil
  | cons h _ ih => simpa [List.append_assoc] using RepAll.cons h ih

section
variable {M : Mach} {fit : Cls → Cls → Bool} {γ δ : Type} {pre rest : Fp}

theorem Sim.get (hfit : ∀ c, fit c c = true) {n : Nat} {t : Term} {x : Act γ} {g : Term → HAct δ}
    {post : δ → γ → Fp → Prop} (hp : pre.Perm ((n, .handle t) :: rest))
    (h : Sim rest x (g t) post) : Sim pre x (Mem.get fit (.obj n) >>= g) post := by
  unfold Mem.get
  rw [bind_assoc]
  refine Sim.look (hp.mem_iff.mpr List.mem_cons_self) ?_
  simp only [bind_assoc, pure_bind]
  exact Sim.delete hp (hfit _) h

theorem Sim.getDouble (hfit : ∀ c, fit c c = true) {n : Nat} {v : ℚ} {x : Act γ}
    {g : ℚ → HAct δ} {post : δ → γ → Fp → Prop} (hp : pre.Perm ((n, .dbl v) :: rest))
    (h : Sim rest x (g v) post) : Sim pre x (Mem.getDouble fit (.obj n) >>= g) post := by
  unfold Mem.getDouble
  rw [bind_assoc]
  refine Sim.look (hp.mem_iff.mpr List.mem_cons_self) ?_
  simp only [bind_assoc, pure_bind]
  exact Sim.delete hp (hfit _) h

theorem Sim.getAll (hfit : ∀ c, fit c c = true) : ∀ {ts : List Term} {ps : List Ptr} {fp : Fp}
    {x : Act γ} {g : List Term → HAct δ} {post : δ → γ → Fp → Prop},
    RepAll ps (ts.map .term) fp → Sim rest x (g ts) post →
    Sim (fp ++ rest) x (Mem.getAll fit ps >>= g) post
  | [], _, _, x, g, post, hr, h => by
    cases hr
    simpa [Mem.getAll] using h
  | t :: ts, _, _, x, g, post, hr, h => by
    rw [List.map_cons] at hr
    cases hr with
    | cons h1 h2 =>
      cases h1
      unfold Mem.getAll
      simp only [bind_assoc, pure_bind]
      exact Sim.get hfit (List.Perm.refl _) (Sim.getAll hfit h2 h)

theorem sim_newTerm (args : List Term) (r : Res Term) :
    Sim [] (making args r) (newTerm args r) Rep :=
  Sim.step fun t => Sim.step fun _ => Sim.new_last fun n => Sim.pure (.term n t)

theorem sim_multi (hfit : ∀ c, fit c c = true) (c : Connector) {ts : List Term} {ps : List Ptr}
    {fp : Fp} (hr : RepAll ps (ts.map .term) fp) :
    ∃ a, Action.multi_prefix M (.conn c :: ts.map .term) = some a ∧
      Sim fp a (multi_prefix M fit (.conn c :: ps)) Rep := by
  refine ⟨_, by rw [Action.multi_prefix, terms?_map]; rfl, ?_⟩
  rw [← List.append_nil fp]
  exact Sim.getAll hfit hr (sim_newTerm ts _)

theorem sim_op1 (hfit : ∀ c, fit c c = true) {op : Term} {n : Nat} {ts : List Term} {ps : List Ptr}
    {fp : Fp} (hr : RepAll ps (ts.map .term) fp) :
    Sim ((n, .handle op) :: fp) (making (op :: ts) (Action.newOperation M op ts))
      (statement_operation1 M fit (.obj n :: ps)) Rep := by
  unfold statement_operation1
  refine Sim.perm (pre' := fp ++ [(n, .handle op)]) (by simpa using List.perm_append_comm (l₁ := [(n, Obj.handle op)])) ?_
  refine Sim.getAll hfit hr ?_
  exact Sim.get hfit (List.Perm.refl _) (sim_newTerm _ _)

/-- The number is read and deleted, a value made from it. -/
theorem sim_operation (hfit : ∀ c, fit c c = true) {n : Nat} {s : List Char} {x : Act γ}
    {f : Term → Act γ} {g : Ptr → HAct δ} {post : δ → γ → Fp → Prop} {ps : List Ptr}
    (hx : x = Action.theOperation M s >>= f)
    (h : ∀ t k, Sim ((k, .handle t) :: rest) (f t) (g (.obj k)) post) :
    Sim ((n, .str s) :: rest) x (operation M fit (.obj n :: ps) >>= g) post := by
  subst hx
  unfold operation
  rw [bind_assoc]
  refine Sim.look List.mem_cons_self ?_
  simp only [bind_assoc]
  refine Sim.step fun t => ?_
  refine Sim.delete (List.Perm.refl _) (hfit _) ?_
  exact Sim.new fun k => h t k

end

/-! ## Sentences -/

/-- A pointer that may be null. -/
inductive RepOpt {α : Type} (mk : α → Obj) : Ptr → Option α → Fp → Prop where
  | none : RepOpt mk .null none []
  | some (n : Nat) (a : α) : RepOpt mk (.obj n) (some a) [(n, mk a)]

section
variable {M : Mach} {fit : Cls → Cls → Bool} {γ δ : Type} {pre rest : Fp}

/-- What the loop over the marks leaves. -/
def MarksPost (r : Ptr × Ptr) (v : Option Stamp.Stamp × Option (Truth ℚ)) (fp : Fp) : Prop :=
  ∃ f1 f2, fp = f1 ++ f2 ∧ RepOpt .stamp r.1 v.1 f1 ∧ RepOpt .truth r.2 v.2 f2

/-- At most one tense mark, then at most one truth value. -/
inductive MarkArgs (fit : Cls → Cls → Bool) : List Ptr → List Val → Fp → Bool → Prop where
  | none : MarkArgs fit [] [] [] false
  | tense {p : Ptr} {k : Int} {fp : Fp} : fit .tupleInt .tupleVoid = true → Rep p (.tense k) fp →
      MarkArgs fit [p] [.tense k] fp false
  | truth {p : Ptr} {t : Truth ℚ} {fp : Fp} : fit .tupleTruth .tupleVoid = true →
      Rep p (.truth t) fp → MarkArgs fit [p] [.truth t] fp true
  | both {p q : Ptr} {k : Int} {t : Truth ℚ} {fp fp' : Fp} : fit .tupleInt .tupleVoid = true →
      fit .tupleTruth .tupleVoid = true → Rep p (.tense k) fp → Rep q (.truth t) fp' →
      MarkArgs fit [p, q] [.tense k, .truth t] (fp ++ fp') true

theorem sim_marks (hfit : ∀ c, fit c c = true) {ps : List Ptr} {vs : List Val} {fp : Fp} {b : Bool}
    (h : MarkArgs fit ps vs fp b) :
    Sim fp (Action.marks vs none none) (marks fit ps .null .null)
      fun r v fp' => MarksPost r v fp' ∧ (b = false → v.2 = none) := by
  cases h with
  | none => exact Sim.pure ⟨⟨[], [], rfl, .none, .none⟩, fun _ => rfl⟩
  | tense h1 hr =>
    cases hr with
    | tense n m =>
      simp only [marks, Action.marks]
      refine Sim.look List.mem_cons_self ?_
      simp only
      refine Sim.delete (List.Perm.refl _) h1 ?_
      refine Sim.look List.mem_cons_self ?_
      simp only
      refine Sim.delete (List.Perm.refl _) (hfit _) ?_
      refine Sim.step fun s => ?_
      refine Sim.new fun j => ?_
      exact Sim.pure ⟨⟨[(j, .stamp s)], [], rfl, .some j s, .none⟩, fun _ => rfl⟩
  | @truth p t fp h1 hr =>
    cases hr with
    | truth n m =>
      simp only [marks, Action.marks]
      refine Sim.look List.mem_cons_self ?_
      simp only
      refine Sim.delete (List.Perm.refl _) h1 ?_
      exact Sim.pure ⟨⟨[], [(m, .truth t)], rfl, .none, .some m t⟩, nofun⟩
  | @both p q k t fp fp' h1 h2 hr hr' =>
    cases hr with
    | tense n m =>
      cases hr' with
      | truth n' m' =>
        simp only [marks, Action.marks]
        refine Sim.look List.mem_cons_self ?_
        simp only
        refine Sim.delete (List.Perm.refl _) h1 ?_
        refine Sim.look List.mem_cons_self ?_
        simp only
        refine Sim.delete (List.Perm.refl _) (hfit _) ?_
        refine Sim.step fun s => ?_
        refine Sim.new fun j => ?_
        refine Sim.look (o := .mark (.obj m')) (by simp) ?_
        simp only
        refine Sim.delete (List.Perm.swap ..) h2 ?_
        exact Sim.pure ⟨⟨[(j, .stamp s)], [(m', .truth t)], rfl, .some j s, .some m' t⟩, nofun⟩

theorem sim_stampOr {p : Ptr} {v : Option Stamp.Stamp} {f1 : Fp} (h : RepOpt .stamp p v f1)
    {f : Stamp.Stamp → Act γ} {g : Ptr → HAct δ} {post : δ → γ → Fp → Prop}
    (hk : ∀ n s, Sim ((n, .stamp s) :: rest) (f s) (g (.obj n)) post) :
    Sim (f1 ++ rest) (Action.stampOr v >>= f) (stampOr p >>= g) post := by
  cases h with
  | none =>
    simp only [stampOr, if_pos, Action.stampOr, bind_assoc]
    exact Sim.step fun s => Sim.new fun n => hk n s
  | some n a =>
    simp only [stampOr, reduceCtorEq, if_false, Action.stampOr, pure_bind]
    exact hk n a

theorem sim_truthOr (c : ℚ) {p : Ptr} {v : Option (Truth ℚ)} {f1 : Fp} (h : RepOpt .truth p v f1)
    {x : Act γ} {g : Ptr → HAct δ} {post : δ → γ → Fp → Prop}
    (hk : ∀ n, Sim ((n, .truth (Action.truthOr M c v)) :: rest) x (g (.obj n)) post) :
    Sim (f1 ++ rest) x (truthOr M c p >>= g) post := by
  cases h with
  | none =>
    simp only [truthOr, if_pos]
    exact Sim.new fun n => hk n
  | some n a =>
    simp only [truthOr, reduceCtorEq, if_false, bind_assoc]
    refine Sim.look List.mem_cons_self ?_
    simp only [bind_assoc, pure_bind]
    exact Sim.write (List.Perm.refl _) (hk n)

/-- A result that depends on the globals. -/
theorem Sim.reader {α β : Type} {f : Stamp.Globals → α} {y : HAct β} {post : β → α → Fp → Prop}
    (h : ∀ g, Sim pre (Pure.pure (f g)) y post) :
    Sim pre (fun e => (.ok (f e.globals), e)) y post :=
  fun F s w hs => h s.env.globals F s w hs

theorem sim_believed (hfit : ∀ c, fit c c = true) (c : ℚ) (cls : SClass) (punct : Punct)
    {mk : Stamp.Globals → Term → Truth ℚ → Stamp.Stamp → Sentence ℚ}
    (hmk : ∀ g t tr s, mk g t tr s = ⟨t, punct, some tr, s, cls⟩) (hc : cls ≠ .sentence) {n : Nat} {t : Term}
    {ps : List Ptr} {vs : List Val} {fp : Fp} {b : Bool} (hm : Action.allMarks vs = true)
    (h : MarkArgs fit ps vs fp b) :
    ∃ a, Action.believed M mk c (.term t :: vs) = some a ∧
      Sim ((n, .handle t) :: fp) a (believed M fit cls punct c (.obj n :: ps)) Rep := by
  refine ⟨_, if_pos hm, ?_⟩
  unfold believed
  refine Sim.get hfit (List.Perm.refl _) ?_
  refine (sim_marks hfit h).bind ?_
  rintro ⟨sp, tp⟩ ⟨so, tr⟩ _ ⟨⟨f1, f2, rfl, h1, h2⟩, _⟩
  refine sim_stampOr h1 fun m s => ?_
  refine Sim.reader (f := fun g => Val.sentence (mk g t (Action.truthOr M c tr) s)) fun g => ?_
  refine Sim.perm (pre' := f2 ++ [(m, .stamp s)])
    (by simpa using List.perm_append_comm (l₁ := [(m, Obj.stamp s)])) ?_
  refine sim_truthOr c h2 fun k => ?_
  refine Sim.new_last fun j => ?_
  refine Sim.perm ((List.Perm.swap ..).cons _) (Sim.pure ?_)
  rw [hmk]
  exact Rep.believed j m k ⟨t, punct, some _, s, cls⟩ _ rfl hc

theorem sim_asked (hfit : ∀ c, fit c c = true) (cls : SClass) (punct : Punct)
    {mk : Stamp.Globals → Term → Stamp.Stamp → Sentence ℚ}
    (hmk : ∀ g t s, mk g t s = ⟨t, punct, none, s, cls⟩) (hc : cls ≠ .sentence) {n : Nat} {t : Term}
    {ps : List Ptr} {vs : List Val} {fp : Fp} (hm : Action.allMarks vs = true)
    (h : MarkArgs fit ps vs fp false) :
    ∃ a, Action.asked mk (.term t :: vs) = some a ∧
      Sim ((n, .handle t) :: fp) a (asked fit cls punct (.obj n :: ps)) Rep := by
  refine ⟨_, if_pos hm, ?_⟩
  unfold asked
  refine Sim.get hfit (List.Perm.refl _) ?_
  refine (sim_marks hfit h).bind ?_
  rintro ⟨sp, tp⟩ ⟨so, tr⟩ _ ⟨⟨f1, f2, rfl, h1, h2⟩, hn⟩
  obtain rfl : tr = none := hn rfl
  cases h2
  refine sim_stampOr h1 fun m s => ?_
  refine Sim.reader (f := fun g => Val.sentence (mk g t s)) fun g => ?_
  refine Sim.new_last fun j => Sim.pure ?_
  rw [hmk]
  exact Rep.asked j m ⟨t, punct, none, s, cls⟩ rfl hc

theorem run_ok {α β : Type} {x : HAct α} {f : α → HAct β} {s s' : St} {a : α}
    (h : x s = (.ok a, s')) : (x >>= f) s = f a s' := by
  change HAct.bind x f s = _
  simp only [HAct.bind, h]

theorem run_ub {α β : Type} {x : HAct α} {f : α → HAct β} {s s' : St} (h : x s = (.ub, s')) :
    (x >>= f) s = (.ub, s') := by
  change HAct.bind x f s = _
  simp only [HAct.bind, h]

theorem sim_finish {b : Budget} {s : Sentence ℚ} {p : Ptr} {fp : Fp}
    (hr : Rep p (.sentence s) fp) {n : Nat} (hn : p = .obj n) :
    ∃ tr st, (n, Obj.sentence s.cls s.term s.punct tr st) ∈ fp ∧
      Sim fp (Act.lift (Action.finishBudget M b s)) (finishBudget M b s.punct tr)
        fun b' a fp' => b' = a ∧ fp' = fp := by
  subst hn
  have key : ∀ {q : Ptr} {pr : Fp}, (s.truth = none → q = .null) →
      (∀ t, s.truth = some t → ∃ k, q = .obj k ∧ (k, Obj.truth t) ∈ pr) →
      Sim pr (Act.lift (Action.finishBudget M b s)) (finishBudget M b s.punct q)
        fun b' a fp' => b' = a ∧ fp' = pr := by
    intro q pr h1 h2 F st w hs
    have hq : ∀ t, s.truth = some t → HAct.look q st = (.ok (.truth t), st) := by
      intro t ht
      obtain ⟨k, rfl, hk⟩ := h2 t ht
      unfold HAct.look
      simp only [lookup_of_mem w.nodup (hs.mem_iff.mpr (List.mem_append_left _ hk))]
    have hq0 : s.truth = none → HAct.look q st = (.ub, st) := by
      intro ht
      rw [h1 ht]
      rfl
    unfold Action.finishBudget finishBudget
    cases hp : s.punct <;> simp only
    case question => exact ⟨rfl, w, pr, hs, rfl, rfl⟩
    case quest => exact ⟨rfl, w, pr, hs, rfl, rfl⟩
    all_goals
      by_cases hqq : b.quality < -(1 / 2)
      · simp only [hqq, if_true]
        cases ht : s.truth with
        | none =>
          rw [bind_assoc, run_ub (hq0 ht)]
          rfl
        | some t =>
          rw [bind_assoc, run_ok (hq t ht)]
          exact ⟨rfl, w, pr, hs, rfl, rfl⟩
      · simp only [hqq, if_false]
        exact ⟨rfl, w, pr, hs, rfl, rfl⟩
  cases hr with
  | asked _ m _ ht =>
    exact ⟨_, _, List.mem_cons_self, key (fun _ => rfl) fun t h => by rw [ht] at h; cases h⟩
  | believed _ m k _ t ht =>
    refine ⟨_, _, List.mem_cons_self, key (fun h => by rw [ht] at h; cases h) fun t' h => ?_⟩
    rw [ht] at h
    cases h
    exact ⟨k, rfl, by simp⟩

theorem sim_taskOf {b : Budget} {s : Sentence ℚ} {p : Ptr} {fp : Fp} {k : Nat}
    (hr : Rep p (.sentence s) fp) :
    Sim ((k, .budget b) :: fp)
      (do let b ← Act.lift (Action.finishBudget M b s); pure (.task ⟨b, s⟩))
      (taskOf M (.obj k) p) Rep := by
  obtain ⟨n, rfl⟩ : ∃ n, p = .obj n := by cases hr <;> exact ⟨_, rfl⟩
  obtain ⟨tr, st, hm, hs⟩ := sim_finish (M := M) (b := b) hr rfl
  unfold taskOf
  refine Sim.look List.mem_cons_self ?_
  simp only
  refine Sim.look (List.mem_cons_of_mem _ hm) ?_
  simp only
  refine Sim.perm (pre' := fp ++ [(k, .budget b)])
    (by simpa using List.perm_append_comm (l₁ := [(k, Obj.budget b)])) ?_
  refine (hs.frame _).bind ?_
  rintro b1 b2 _ ⟨fp', rfl, rfl, rfl⟩
  refine Sim.write (o := .budget b) (rest := fp')
    (List.perm_append_comm (l₂ := [(k, Obj.budget b)])) ?_
  exact Sim.new_last fun j => Sim.pure (Rep.task j k (.obj n) ⟨b1, s⟩ fp' hr)

end

end Cnars.Parser.Mem
