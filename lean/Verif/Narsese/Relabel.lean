import Verif.Narsese.CompoundLemmas
import Verif.Narsese.Shape

/-!
# Names of variables do not matter

No function on terms reads the name of a variable: comparison, construction and cloning commute with
changing names.
-/

namespace Cnars

namespace Res
theorem map_bind {α β γ : Type} (g : β → γ) (x : Res α) (f : α → Res β) :
    g <$> (x >>= f) = x >>= fun a => g <$> f a := by cases x <;> rfl
theorem bind_map {α β γ : Type} (g : α → β) (x : Res α) (f : β → Res γ) :
    (g <$> x) >>= f = x >>= fun a => f (g a) := by cases x <;> rfl
@[simp] theorem map_throw {α β : Type} (g : α → β) (m : String) :
    g <$> (throw m : Res α) = throw m := rfl
@[simp] theorem map_ub {α β : Type} (g : α → β) : g <$> (ub : Res α) = ub := rfl
@[simp] theorem map_outOfFuel {α β : Type} (g : α → β) :
    g <$> (outOfFuel : Res α) = outOfFuel := rfl
theorem map_eq_ok {α β : Type} {g : α → β} {x : Res α} {b : β} :
    g <$> x = ok b ↔ ∃ a, x = ok a ∧ g a = b := by cases x <;> simp
end Res

open Term

mutual
/-- Other names for the variables. -/
def Term.relabel (f : VarKind → String → String) : Term → Term
  | .atom a i => .atom a i
  | .interval n i => .interval n i
  | .var k n i => .var k (f k n) i
  | .stmt s c p i => .stmt (s.relabel f) c (p.relabel f) i
  | .comp c ts i => .comp c (Term.relabelAll f ts) i
/-- The same for lists. -/
def Term.relabelAll (f : VarKind → String → String) : List Term → List Term
  | [] => []
  | t :: ts => t.relabel f :: Term.relabelAll f ts
end

variable (f : VarKind → String → String)

theorem relabelAll_eq (ts : List Term) : Term.relabelAll f ts = ts.map (Term.relabel f) := by
  induction ts with
  | nil => rfl
  | cons t ts ih => simp [Term.relabelAll, ih]

mutual
theorem relabel_id : ∀ t : Term, t.relabel (fun _ n => n) = t
  | .atom .. => by simp [Term.relabel]
  | .interval .. => by simp [Term.relabel]
  | .var .. => by simp [Term.relabel]
  | .stmt s c p i => by simp [Term.relabel, relabel_id s, relabel_id p]
  | .comp c ts i => by simp [Term.relabel, relabelAll_id ts]
theorem relabelAll_id : ∀ ts : List Term, Term.relabelAll (fun _ n => n) ts = ts
  | [] => rfl
  | t :: ts => by simp [Term.relabelAll, relabel_id t, relabelAll_id ts]
end

@[simp] theorem info_relabel (t : Term) : (t.relabel f).info = t.info := by
  cases t <;> simp [Term.relabel, Term.info]
@[simp] theorem hash_relabel (t : Term) : (t.relabel f).hash = t.hash := by
  simp [Term.hash]
@[simp] theorem typeIdx_relabel (t : Term) : (t.relabel f).typeIdx = t.typeIdx := by
  cases t <;> simp [Term.relabel, Term.typeIdx]
@[simp] theorem varKind_relabel (t : Term) : (t.relabel f).varKind = t.varKind := by
  cases t <;> simp [Term.relabel, Term.varKind]
@[simp] theorem comps_relabel (t : Term) : (t.relabel f).comps = t.comps.map (Term.relabel f) := by
  cases t <;> simp [Term.relabel, Term.comps, relabelAll_eq]
@[simp] theorem category_relabel (t : Term) : category (t.relabel f) = category t := by
  cases t <;> simp [Term.relabel, category]

mutual
@[simp] theorem height_relabel : ∀ t : Term, (t.relabel f).height = t.height
  | .atom .. => by simp [Term.relabel, Term.height]
  | .interval .. => by simp [Term.relabel, Term.height]
  | .var .. => by simp [Term.relabel, Term.height]
  | .stmt s c p i => by simp [Term.relabel, Term.height, height_relabel s, height_relabel p]
  | .comp c ts i => by simp [Term.relabel, Term.height, heights_relabel ts]
theorem heights_relabel : ∀ ts : List Term, heights (Term.relabelAll f ts) = heights ts
  | [] => rfl
  | t :: ts => by simp [Term.relabelAll, heights, height_relabel t, heights_relabel ts]
end

@[simp] theorem ltHead_relabel (a b : Term) : ltHead (a.relabel f) (b.relabel f) = ltHead a b := by
  simp [ltHead]
@[simp] theorem leafLt_relabel (a b : Term) : leafLt (a.relabel f) (b.relabel f) = leafLt a b := by
  simp [leafLt]
@[simp] theorem leafEq_relabel (a b : Term) : leafEq (a.relabel f) (b.relabel f) = leafEq a b := by
  simp [leafEq]

mutual
@[simp] theorem shape_relabel : ∀ t : Term, shape (t.relabel f) = shape t
  | .atom .. => by simp [Term.relabel, shape]
  | .interval .. => by simp [Term.relabel, shape]
  | .var .. => by simp [Term.relabel, shape]
  | .stmt s c p i => by simp [Term.relabel, shape, shape_relabel s, shape_relabel p]
  | .comp c ts i => by simp [Term.relabel, shape, shapes_relabel ts]
theorem shapes_relabel : ∀ ts : List Term, shapes (Term.relabelAll f ts) = shapes ts
  | [] => rfl
  | t :: ts => by simp [Term.relabelAll, shapes, shape_relabel t, shapes_relabel ts]
end

theorem lt_atom {a b : Term} (h : a.typeIdx = 0) :
    Term.lt a b = match ltHead a b with | some r => .ok r | none => leafLt a b := by
  cases a <;> simp [Term.typeIdx] at h <;> simp only [Term.lt] <;> split <;> simp_all

mutual
@[simp] theorem lt_relabel : ∀ a b : Term, Term.lt (a.relabel f) (b.relabel f) = Term.lt a b
  | .stmt s1 c1 p1 i1, b => by
    have h := ltHead_relabel f (.stmt s1 c1 p1 i1) b
    simp only [Term.relabel] at h ⊢
    simp only [Term.lt, h]
    cases ltHead (.stmt s1 c1 p1 i1) b with
    | some r => rfl
    | none =>
      cases b with
      | stmt s2 c2 p2 i2 => simp only [Term.relabel, lt_relabel s1 s2, lt_relabel p1 p2]
      | _ => simp [Term.relabel]
  | .comp c1 ts1 i1, b => by
    have h := ltHead_relabel f (.comp c1 ts1 i1) b
    simp only [Term.relabel] at h ⊢
    simp only [Term.lt, h]
    cases ltHead (.comp c1 ts1 i1) b with
    | some r => rfl
    | none =>
      cases b with
      | comp c2 ts2 i2 =>
        simp only [Term.relabel, ltAny_relabel ts1 ts2]
        simp only [relabelAll_eq, List.length_map]
      | _ => simp [Term.relabel]
  | .atom d i, b => by
    rw [lt_atom (by rw [typeIdx_relabel]; rfl), lt_atom (by rfl), ltHead_relabel,
      leafLt_relabel]
  | .interval n i, b => by
    rw [lt_atom (by rw [typeIdx_relabel]; rfl), lt_atom (by rfl), ltHead_relabel,
      leafLt_relabel]
  | .var k n i, b => by
    rw [lt_atom (by rw [typeIdx_relabel]; rfl), lt_atom (by rfl), ltHead_relabel,
      leafLt_relabel]
theorem ltAny_relabel : ∀ as bs : List Term,
    Term.ltAny (Term.relabelAll f as) (Term.relabelAll f bs) = Term.ltAny as bs
  | [], _ => by simp [Term.relabelAll, Term.ltAny]
  | a :: as, [] => by simp [Term.relabelAll, Term.ltAny]
  | a :: as, b :: bs => by simp [Term.relabelAll, Term.ltAny, lt_relabel a b, ltAny_relabel as bs]
end

mutual
/-- Comparing terms for equality does not look at the names. -/
theorem eq_relabel (g : VarKind → String → String) :
    ∀ a b : Term, Term.eq (a.relabel f) (b.relabel g) = Term.eq a b
  | .stmt s1 c1 p1 i1, b => by
    cases b with
    | stmt s2 c2 p2 i2 => simp only [Term.relabel, Term.eq, eq_relabel g s1 s2, eq_relabel g p1 p2]
    | _ => simp [Term.relabel, Term.eq]
  | .comp c1 ts1 i1, b => by
    cases b with
    | comp c2 ts2 i2 =>
      simp only [Term.relabel, Term.eq, eqAll_relabel g ts1 ts2]
      simp only [relabelAll_eq, List.length_map]
    | _ => simp [Term.relabel, Term.eq]
  | .atom d i, b => by
    simp only [Term.relabel, Term.eq, typeIdx_relabel, hash_relabel, leafEq, varKind_relabel,
      info_relabel]
  | .interval n i, b => by
    simp only [Term.relabel, Term.eq, typeIdx_relabel, hash_relabel, leafEq, varKind_relabel,
      info_relabel]
  | .var k n i, b => by
    simp only [Term.relabel, Term.eq, typeIdx_relabel, hash_relabel, leafEq, varKind_relabel,
      info_relabel]
    rfl
theorem eqAll_relabel (g : VarKind → String → String) : ∀ as bs : List Term,
    Term.eqAll (Term.relabelAll f as) (Term.relabelAll g bs) = Term.eqAll as bs
  | [], _ => by simp [Term.relabelAll, Term.eqAll]
  | a :: as, [] => by simp [Term.relabelAll, Term.eqAll]
  | a :: as, b :: bs => by simp [Term.relabelAll, Term.eqAll, eq_relabel g a b, eqAll_relabel g as bs]
end

theorem checkAbove_relabel (x : Term) : ∀ zs : List Term,
    checkAbove (x.relabel f) (zs.map (Term.relabel f)) = checkAbove x zs
  | [] => rfl
  | z :: zs => by simp [checkAbove, checkAbove_relabel x zs]

theorem Res.map_ite {α β : Type} (g : α → β) (c : Prop) [Decidable c] (x y : Res α) :
    g <$> (if c then x else y) = if c then g <$> x else g <$> y := by split <;> rfl

theorem setInsert_relabel (x : Term) : ∀ ys : List Term,
    setInsert (x.relabel f) (ys.map (Term.relabel f)) =
      (List.map (Term.relabel f)) <$> setInsert x ys
  | [] => by simp [setInsert]
  | y :: ys => by
    simp only [setInsert, List.map_cons, lt_relabel, setInsert_relabel x ys, Res.map_bind,
      Res.bind_map, checkAbove_relabel, Res.map_ite, Res.pure_eq, Res.map_ok, Res.map_ub]

theorem setInsertAll_relabel : ∀ xs s : List Term,
    setInsertAll (xs.map (Term.relabel f)) (s.map (Term.relabel f)) =
      (List.map (Term.relabel f)) <$> setInsertAll xs s
  | [], s => by simp [setInsertAll]
  | x :: xs, s => by
    simp only [setInsertAll, List.map_cons, setInsert_relabel, Res.map_bind, Res.bind_map,
      setInsertAll_relabel xs]

/-- The same for component lists. -/
def Terms.relabel (t : Terms) : Terms := ⟨t.comm, t.items.map (Term.relabel f)⟩

theorem ofList_relabel (b : Bool) (xs : List Term) :
    Terms.ofList b (xs.map (Term.relabel f)) = (Terms.relabel f) <$> Terms.ofList b xs := by
  have := setInsertAll_relabel f xs []
  simp only [List.map_nil] at this
  simp only [Terms.ofList, this, Res.map_ite, Res.map_bind, Res.bind_map, Res.pure_eq, Res.map_ok,
    Terms.relabel]

/-- An operation on lists of terms that commutes with changing names. -/
def Blind (op : List Term → List Term → Res (List Term)) : Prop := ∀ xs ys,
  op (xs.map (Term.relabel f)) (ys.map (Term.relabel f)) = (List.map (Term.relabel f)) <$> op xs ys

theorem mergeUnion_blind : Blind f Terms.mergeUnion := by
  intro xs ys
  fun_induction Terms.mergeUnion xs ys with
  | case1 => simp [Terms.mergeUnion]
  | case2 => simp [Terms.mergeUnion]
  | case3 x xs y ys ih1 ih2 ih3 =>
    simp only [List.map_cons] at *
    simp only [Terms.mergeUnion, lt_relabel, Res.map_bind, Res.map_ite, ih1, ih2, ih3, Res.bind_map,
      Res.pure_eq, Res.map_ok, List.map_cons]

theorem mergeInter_blind : Blind f Terms.mergeInter := by
  intro xs ys
  fun_induction Terms.mergeInter xs ys with
  | case1 => simp [Terms.mergeInter]
  | case2 => simp [Terms.mergeInter]
  | case3 x xs y ys ih1 ih2 ih3 =>
    simp only [List.map_cons] at *
    simp only [Terms.mergeInter, lt_relabel, Res.map_bind, Res.map_ite, ih1, ih2, ih3, Res.bind_map,
      Res.pure_eq, Res.map_ok, List.map_cons]

theorem mergeDiff_blind : Blind f Terms.mergeDiff := by
  intro xs ys
  fun_induction Terms.mergeDiff xs ys with
  | case1 => simp [Terms.mergeDiff]
  | case2 => simp [Terms.mergeDiff]
  | case3 x xs y ys ih1 ih2 ih3 =>
    simp only [List.map_cons] at *
    simp only [Terms.mergeDiff, lt_relabel, Res.map_bind, Res.map_ite, ih1, ih2, ih3, Res.bind_map,
      Res.pure_eq, Res.map_ok, List.map_cons]

theorem foldOp_relabel {op : List Term → List Term → Res (List Term)} (h : Blind f op) :
    ∀ (ts : List Terms) (acc : List Term),
    Terms.foldOp op (acc.map (Term.relabel f)) (ts.map (Terms.relabel f)) =
      (List.map (Term.relabel f)) <$> Terms.foldOp op acc ts
  | [], acc => by simp [Terms.foldOp]
  | t :: ts, acc => by
    have h1 := fun r => setInsertAll_relabel f r []
    simp only [List.map_nil] at h1
    have hc : (Terms.relabel f t).comm = t.comm := rfl
    have hi : (Terms.relabel f t).items = t.items.map (Term.relabel f) := rfl
    simp only [Terms.foldOp, List.map_cons, hc, hi, h acc, h1, foldOp_relabel h ts, Res.map_ite,
      Res.map_bind, Res.bind_map, Res.map_throw]

theorem setOp_relabel {op : List Term → List Term → Res (List Term)} (h : Blind f op)
    (ts : List Terms) :
    Terms.setOp op (ts.map (Terms.relabel f)) = (Terms.relabel f) <$> Terms.setOp op ts := by
  cases ts with
  | nil => simp [Terms.setOp]
  | cons t ts =>
    have hu : (Terms.relabel f t).unordered = t.unordered.map (Term.relabel f) := by
      cases h : t.comm <;> simp [Terms.unordered, Terms.relabel, h]
    simp only [Terms.setOp, List.map_cons, hu, foldOp_relabel f h, Res.bind_map, Res.map_bind,
      ofList_relabel]

mutual
theorem clone_relabel : ∀ t : Term, clone (t.relabel f) = (Term.relabel f) <$> clone t
  | .atom a i => by simp only [Term.relabel, clone]; split <;> simp [Term.relabel]
  | .interval n i => by simp only [Term.relabel, clone]; split <;> simp [Term.relabel]
  | .var k n i => by simp [Term.relabel, clone]
  | .stmt s c p i => by
    simp only [Term.relabel, clone, clone_relabel s, clone_relabel p, Res.map_ite, Res.map_bind,
      Res.bind_map, Res.pure_eq, Res.map_ok, buildTable, List.map_cons, info_relabel]
  | .comp c ts i => by
    have := clonePush_relabel c.isCommutative ts []
    simp only [List.map_nil] at this
    simp only [Term.relabel, clone, this, Res.map_ite, Res.map_bind, Res.bind_map, Res.pure_eq,
      Res.map_ok, buildTable, List.map_map, Function.comp_def, info_relabel]
    simp only [relabelAll_eq]
theorem clonePush_relabel (b : Bool) : ∀ ts acc : List Term,
    clonePush b (Term.relabelAll f ts) (acc.map (Term.relabel f)) =
      (List.map (Term.relabel f)) <$> clonePush b ts acc
  | [], acc => by simp [Term.relabelAll, clonePush]
  | t :: ts, acc => by
    have h1 := clonePush_relabel b ts
    have h2 : ∀ t : Term, acc.map (Term.relabel f) ++ [t.relabel f] = (acc ++ [t]).map (Term.relabel f) := by
      simp
    cases b with
    | true =>
      simp only [Term.relabelAll, clonePush, clone_relabel t, Res.bind_map, Res.map_bind,
        setInsert_relabel, if_true, h1]
    | false =>
      simp only [Term.relabelAll, clonePush, clone_relabel t, Res.bind_map, Res.map_bind,
        Bool.false_eq_true, if_false, h1, Res.pure_eq, Res.ok_bind, h2]
end

theorem termsOf_relabel (t : Term) : termsOf (t.relabel f) = (termsOf t).relabel f := by
  cases t <;> simp [termsOf, Term.relabel, Terms.relabel, relabelAll_eq]

theorem termsOf_map_relabel (ts : List Term) :
    (ts.map (Term.relabel f)).map termsOf = (ts.map termsOf).map (Terms.relabel f) := by
  simp [termsOf_relabel]

theorem items_relabel (t : Terms) : (t.relabel f).items = t.items.map (Term.relabel f) := rfl

theorem mergeCompounds_relabel (p c : Connector) (ts : List Term) :
    mergeCompounds p c (ts.map (Term.relabel f)) =
      (Option.map (List.map (Term.relabel f))) <$> mergeCompounds p c ts := by
  have hf : (ts.map (Term.relabel f)).flatMap comps = (ts.flatMap comps).map (Term.relabel f) := by
    simp [List.flatMap_map, List.map_flatMap]
  unfold mergeCompounds
  cases mergeKind p c <;>
    simp only [Terms.intersection, Terms.union, Terms.difference, termsOf_map_relabel,
      setOp_relabel f (mergeUnion_blind f), setOp_relabel f (mergeInter_blind f),
      setOp_relabel f (mergeDiff_blind f), hf, ofList_relabel, Res.bind_map, Res.map_bind,
      Res.pure_eq, Res.map_ok, Option.map_some, Option.map_none, items_relabel]

theorem keys_relabel : ∀ ts : List Term, keys (ts.map (Term.relabel f)) = keys ts
  | [] => rfl
  | t :: ts => by simp [keys, keys_relabel ts]

theorem group_relabel (k : Option Connector) (ts : List Term) :
    group k (ts.map (Term.relabel f)) = (group k ts).map (Term.relabel f) := by
  simp [group, List.filter_map, Function.comp_def]

theorem unfold_relabel (p : Connector) (ts : List Term) :
    unfold p (ts.map (Term.relabel f)) = (unfold p ts).map (Term.relabel f) := by
  simp only [unfold, List.flatMap_map, List.map_flatMap]
  congr 1
  funext t
  cases t with
  | comp c us i => simp only [Term.relabel, relabelAll_eq]; split <;> simp [Term.relabel, relabelAll_eq]
  | _ => simp [Term.relabel]

/-- The same for entries of the normalised groups. -/
def entry (q : Option Connector × List Term) : Option Connector × List Term :=
  (q.1, q.2.map (Term.relabel f))

theorem normGroup_relabel (p : Connector) (ts : List Term) (k : Option Connector) :
    normGroup p (ts.map (Term.relabel f)) k = (List.map (entry f)) <$> normGroup p ts k := by
  cases k with
  | none => simp [normGroup, group_relabel, entry]
  | some c =>
    simp only [normGroup, group_relabel, mergeCompounds_relabel, Res.bind_map, Res.map_bind]
    congr 1
    funext r
    cases r <;> simp [entry]

theorem normAll_relabel (p : Connector) (ts : List Term) : ∀ ks : List (Option Connector),
    normAll p (ts.map (Term.relabel f)) ks = (List.map (entry f)) <$> normAll p ts ks
  | [] => rfl
  | k :: ks => by
    simp only [normAll, normGroup_relabel, normAll_relabel p ts ks, Res.bind_map, Res.map_bind,
      Res.pure_eq, Res.map_ok, List.map_append]

/-- A constructor that commutes with changing names. -/
def BlindMk (mk : Connector → List Term → Res Term) : Prop := ∀ c us,
  mk c (us.map (Term.relabel f)) = (Term.relabel f) <$> mk c us

theorem collect_relabel {mk : Connector → List Term → Res Term} (h : BlindMk f mk) (p : Connector) :
    ∀ qs : List (Option Connector × List Term),
    collect mk p (qs.map (entry f)) = (List.map (Term.relabel f)) <$> collect mk p qs
  | [] => rfl
  | (k, us) :: qs => by
    cases k with
    | none =>
      simp only [List.map_cons, entry, collect, collect_relabel h p qs, Res.bind_map, Res.map_bind,
        Res.pure_eq, Res.map_ok, Res.ok_bind, List.map_append]
    | some c =>
      simp only [List.map_cons, entry, collect, collect_relabel h p qs, h c, List.length_map]
      split
      · simp [Res.bind_map, Res.map_bind]
      · split
        · simp [Res.bind_map, Res.map_bind]
        · simp

theorem finalStep_relabel (p : Connector) (k : Option Connector) (us : List Term) :
    finalStep p k (us.map (Term.relabel f)) =
      (fun q => (q.1, q.2.map (Term.relabel f))) <$> finalStep p k us := by
  have h := setInsertAll_relabel f us []
  simp only [List.map_nil] at h
  simp only [finalStep, h, Res.bind_map, Res.map_bind]
  congr 1
  funext r
  split <;> (try split) <;> rfl

theorem prepocess_relabel (ord : Order) {mk : Connector → List Term → Res Term} (h : BlindMk f mk)
    (p : Connector) (ts : List Term) :
    prepocess ord mk p (ts.map (Term.relabel f)) =
      (fun q => (q.1, q.2.map (Term.relabel f))) <$> prepocess ord mk p ts := by
  unfold prepocess
  split
  · rfl
  · split
    · have h1 := fun us => setInsertAll_relabel f us []
      simp only [List.map_nil] at h1
      simp only [unfold_relabel, h1, Res.bind_map, Res.map_bind, keys_relabel, normAll_relabel]
      congr 1
      funext us
      congr 1
      funext norm
      simp only [List.length_map, collect_relabel f h, Res.bind_map]
      split
      · simp only [Res.map_bind]
        congr 1
        funext all
        simp only [h1]
        split
        · simp [Res.bind_map, Res.map_bind]
        · cases all with
          | nil => rfl
          | cons t all =>
            cases t with
            | comp c vs i =>
              simp only [List.map_cons, Term.relabel, relabelAll_eq, finalStep_relabel]
            | _ =>
              simp only [List.map_cons, Term.relabel]
              rw [← finalStep_relabel]
              simp [Term.relabel]
      · cases norm with
        | nil => rfl
        | cons q qs => simp only [List.map_cons, entry, finalStep_relabel]
    · simp [unfold_relabel]

theorem finishComp_relabel (c : Connector) (ts : List Term) :
    finishComp c (ts.map (Term.relabel f)) = (finishComp c ts).relabel f := by
  simp [finishComp, Term.relabel, relabelAll_eq, structInfo, buildTable, Function.comp_def,
    List.any_map]

theorem mkCompF_relabel (ord : Order) : ∀ (n : Nat) (b : Bool),
    BlindMk f fun c us => mkCompF ord n c us b
  | 0, b => by intro c us; rfl
  | n + 1, b => by
    intro c us
    have h := fun b us => clonePush_relabel f b us []
    simp only [relabelAll_eq, List.map_nil] at h
    simp only [mkCompF, prepocess_relabel f ord (mkCompF_relabel ord n false), Res.bind_map,
      Res.map_bind]
    congr 1
    funext q
    cases b with
    | true => simp [finishComp_relabel]
    | false => simp [h, Res.bind_map, finishComp_relabel]

theorem mkComp_relabel (ord : Order) (c : Connector) (ts : List Term) (b : Bool) :
    mkComp ord c (ts.map (Term.relabel f)) b = (Term.relabel f) <$> mkComp ord c ts b := by
  have h := fun n us => mkCompF_relabel f ord n b c us
  simp only at h
  have hh := heights_relabel f ts
  rw [relabelAll_eq] at hh
  simp only [mkComp, ofList_relabel, Res.bind_map, Res.map_bind, items_relabel, h, hh]

theorem mkStmt_relabel (s : Term) (c : Copula) (p : Term) :
    mkStmt (s.relabel f) c (p.relabel f) = (mkStmt s c p).relabel f := by
  have h : stmtIsOperation (s.relabel f) (p.relabel f) = stmtIsOperation s p := by
    cases s <;> simp [stmtIsOperation, Term.relabel]
  simp [mkStmt, Term.relabel, structInfo, buildTable, h]

theorem newStmt_relabel (s : Term) (c : Copula) (p : Term) (b : Bool) :
    newStmt (s.relabel f) c (p.relabel f) b = (Term.relabel f) <$> newStmt s c p b := by
  simp only [newStmt, clone_relabel, Res.map_ite, Res.bind_map, Res.map_bind, Res.pure_eq,
    Res.map_ok, mkStmt_relabel]

end Cnars
