import Verif.Narsese.Weight
import Verif.Parser.TaskLemmas
import Verif.Props.Interning
import Mathlib.Data.List.Perm.Basic
import Mathlib.Data.List.Perm.Subperm

/-!
# Whose handles the handles are
-/

namespace Cnars.Parser
open Cnars Cnars.Props

/-! ## Leaves, counted -/

section
open Classical

theorem leafCount_all (l : Term) (ts : List Term) :
    (leafTermsAll ts).count l = total (fun t => (leafTerms t).count l) ts := by
  induction ts with
  | nil => simp [leafTermsAll]
  | cons t ts ih => simp [leafTermsAll, ih]

theorem leafCount_adds (l : Term) : Adds fun t => (leafTerms t).count l := by
  intro c ts i
  simp only [leafTerms]
  exact leafCount_all l ts

/-- No leaf occurs more often in a compound than in the arguments. -/
theorem mkComp_subperm {ord : Order} (hord : ∀ l, (ord l).Perm l) {c : Connector} {args : List Term}
    {b : Bool} {r : Term} (hg : ∀ t ∈ args, Good t) (h : mkComp ord c args b = .ok r) :
    (leafTerms r).Subperm (leafTermsAll args) := by
  rw [List.subperm_ext_iff]
  intro l _
  rw [leafCount_all]
  exact mkComp_total (leafCount_adds l) hord hg h

end

theorem newStmt_subperm {s p r : Term} {c : Copula} {b : Bool} (hs : Good s) (hp : Good p)
    (h : newStmt s c p b = .ok r) : leafTerms r = leafTerms s ++ leafTerms p := by
  obtain rfl := Good.newStmt hs hp h
  simp [Term.mkStmt, leafTerms]

theorem newStatement_subperm {M : Mach} (hord : ∀ l, (M.ord l).Perm l) {s p r : Term} {c : Copula}
    (hs : Good s) (hp : Good p) (h : Action.newStatement M s c p = .ok r) :
    (leafTerms r).Subperm (leafTermsAll [s, p]) := by
  have set : ∀ {k : Connector} {t t' : Term}, Good t → mkComp M.ord k [t] false = .ok t' →
      Good t' ∧ (leafTerms t').Subperm (leafTerms t) := fun hg h => by
    refine ⟨(mkComp_leaves (by simpa using hg) h).1, ?_⟩
    have := mkComp_subperm hord (by simpa using hg) h
    simpa [leafTermsAll] using this
  simp only [leafTermsAll, List.append_nil]
  unfold Action.newStatement at h
  split at h
  · simp only [Res.bind_eq_ok] at h
    obtain ⟨s', h1, h2⟩ := h
    obtain ⟨g, hl⟩ := set hs h1
    rw [newStmt_subperm g hp h2]
    exact hl.append (List.Subperm.refl _)
  · simp only [Res.bind_eq_ok] at h
    obtain ⟨p', h1, h2⟩ := h
    obtain ⟨g, hl⟩ := set hp h1
    rw [newStmt_subperm hs g h2]
    exact (List.Subperm.refl _).append hl
  · simp only [Res.bind_eq_ok] at h
    obtain ⟨s', h1, p', h3, h2⟩ := h
    obtain ⟨g, hl⟩ := set hs h1
    obtain ⟨g1, hl1⟩ := set hp h3
    rw [newStmt_subperm g g1 h2]
    exact hl.append hl1
  · rw [newStmt_subperm hs hp h]

theorem newOperation_subperm {M : Mach} (hord : ∀ l, (M.ord l).Perm l) {f r : Term} {ts : List Term}
    (hf : Good f) (hts : ∀ t ∈ ts, Good t) (h : Action.newOperation M f ts = .ok r) :
    (leafTerms r).Subperm (leafTermsAll (f :: ts)) := by
  unfold Action.newOperation at h
  simp only [Res.bind_eq_ok] at h
  obtain ⟨s, h1, h2⟩ := h
  obtain ⟨g, _⟩ := mkComp_leaves hts h1
  rw [newStmt_subperm g hf h2, leafTermsAll]
  exact ((mkComp_subperm hord hts h1).append (List.Subperm.refl _)).trans
    (List.perm_append_comm.subperm)

/-- The atoms of a term with repetitions, and whether they are operations. -/
def atomOf : Term → Option (Word × Bool)
  | .atom a i => some (a, i.isOperation)
  | _ => none

/-- Of a list of terms. -/
def atomsAll (ts : List Term) : List (Word × Bool) := (leafTermsAll ts).filterMap atomOf

theorem leafTermsAll_append (ts us : List Term) :
    leafTermsAll (ts ++ us) = leafTermsAll ts ++ leafTermsAll us := by
  induction ts with
  | nil => rfl
  | cons t ts ih => simp [leafTermsAll, ih]

theorem atomsAll_append (ts us : List Term) : atomsAll (ts ++ us) = atomsAll ts ++ atomsAll us := by
  simp [atomsAll, leafTermsAll_append]

mutual
theorem addrs_eq : ∀ t : Term, addrs t = ((leafTerms t).filterMap atomOf).map Prod.fst
  | .atom a i => by simp [addrs, leafTerms, atomOf]
  | .interval .. => by simp [addrs, leafTerms, atomOf]
  | .var .. => by simp [addrs, leafTerms, atomOf]
  | .stmt s c p i => by simp [addrs, leafTerms, addrs_eq s, addrs_eq p]
  | .comp c ts i => by rw [addrs, addrsAll_eq, leafTerms]; rfl
theorem addrsAll_eq : ∀ ts : List Term, addrsAll ts = (atomsAll ts).map Prod.fst
  | [] => rfl
  | t :: ts => by simp [addrsAll, atomsAll, leafTermsAll, addrs_eq t, addrsAll_eq ts]
end

theorem addrs_one (t : Term) : addrs t = (atomsAll [t]).map Prod.fst := by
  rw [addrs_eq]; simp [atomsAll, leafTermsAll]

theorem subperm_filterMap {α β : Type} {f : α → Option β} {l m : List α} (h : l.Subperm m) :
    (l.filterMap f).Subperm (m.filterMap f) := by
  obtain ⟨k, h1, h2⟩ := h
  exact ⟨_, h1.filterMap f, h2.filterMap f⟩

/-- Related lists: a part of the one is related to a part of the other. -/
theorem forall₂_subperm {α β : Type} {R : α → β → Prop} {js : List α} {ls ls' : List β}
    (h : List.Forall₂ R js ls) (hs : ls'.Subperm ls) :
    ∃ js1 js2 ls2, js.Perm (js1 ++ js2) ∧ List.Forall₂ R js1 ls' ∧ List.Forall₂ R js2 ls2 ∧
      ls.Perm (ls' ++ ls2) := by
  obtain ⟨l, hl, hs⟩ := hs
  obtain ⟨ls2, hp⟩ := hs.exists_perm_append
  have hp := hp.trans (hl.append_right ls2)
  have h' : List.Forall₂ (flip R) ls js := h.flip
  obtain ⟨ks, h1, h2⟩ := List.perm_comp_forall₂ hp.symm h'
  have h1 : List.Forall₂ R ks (ls' ++ ls2) := h1.flip
  refine ⟨ks.take ls'.length, ks.drop ls'.length, ls2, ?_, ?_, ?_, hp⟩
  · rw [List.take_append_drop]; exact h2.symm
  · exact List.forall₂_take_append _ _ _ h1
  · exact List.forall₂_drop_append _ _ _ h1

theorem diff_self_append {α : Type} [BEq α] [LawfulBEq α] (l m : List α) : (l ++ m).diff l = m := by
  induction l with
  | nil => rfl
  | cons a l ih => rw [List.cons_append, List.diff_cons, List.erase_cons_head, ih]

/-! ## The account -/

/-- From `w0` on: the handles are those of `w0` and one for each atom in `live`, whose names satisfy
`W`. -/
structure Acct (W : String → Prop) (w0 w : World) (live : List Term) : Prop where
  reach : Reach false w
  atoms : w0.atoms <+: w.atoms
  bal : ∃ js, w.handles.Perm (w0.handles ++ js) ∧
    List.Forall₂ (fun j l => ∃ n, W n ∧ w.atoms[j]? = some ⟨l.1, n, l.2⟩) js (atomsAll live)

theorem prefix_get {α : Type} {l m : List α} (h : l <+: m) {j : Nat} {x : α} (hj : l[j]? = some x) :
    m[j]? = some x := by
  obtain ⟨k, rfl⟩ := h
  rw [List.getElem?_append_left]
  · exact hj
  · exact (List.getElem?_eq_some_iff.mp hj).1

theorem Acct.mono {W : String → Prop} {w0 w : World} {live live' : List Term} (h : Acct W w0 w live)
    (hl : atomsAll live' = atomsAll live) : Acct W w0 w live' :=
  ⟨h.reach, h.atoms, by rw [hl]; exact h.bal⟩

theorem Acct.start {W : String → Prop} {w : World} (h : Reach false w) : Acct W w w [] :=
  ⟨h, List.prefix_rfl, [], by simp, .nil⟩

/-- A handle that was there is still there. -/
theorem Acct.keeps {W : String → Prop} {w0 w : World} {live : List Term} (h : Acct W w0 w live) {j : Nat}
    (hj : j ∈ w0.handles) : j ∈ w.handles := by
  obtain ⟨js, hp, _⟩ := h.bal
  exact hp.mem_iff.mpr (List.mem_append_left _ hj)

/-- One more handle. -/
theorem Acct.add {W : String → Prop} {w0 w w' : World} {live : List Term} (h : Acct W w0 w live)
    (hr : Reach false w') (ha : w.atoms <+: w'.atoms) {j : Nat} (hh : w'.handles = w.handles ++ [j])
    {a : Named} (hj : w'.atoms[j]? = some a) (hn : W a.name) {t : Term}
    (ht : atomsAll [t] = [(a.addr, a.isOp)]) : Acct W w0 w' (live ++ [t]) := by
  obtain ⟨js, hp, hb⟩ := h.bal
  refine ⟨hr, h.atoms.trans ha, js ++ [j], ?_, ?_⟩
  · rw [hh, ← List.append_assoc]
    exact hp.append_right _
  · rw [atomsAll_append, ht]
    refine List.rel_append (hb.imp fun j l ⟨n, h1, h2⟩ => ⟨n, h1, prefix_get ha h2⟩) (.cons ?_ .nil)
    exact ⟨a.name, hn, hj⟩

theorem lastAtom_last {w : World} {t : Term} {hs : List Nat} {j : Nat} {a : Named}
    (hh : w.handles = hs ++ [j]) (hj : w.atoms[j]? = some a) (h : lastAtom w = .ok t) :
    atomsAll [t] = [(a.addr, a.isOp)] := by
  unfold lastAtom at h
  simp only [hh, List.getLast?_append, List.getLast?_singleton, Option.some_or, hj, Res.ok.injEq] at h
  subst h
  split
  · rename_i ho
    simp [atomsAll, leafTermsAll, Term.mkOperation, leafTerms, atomOf, ho, Term.leafInfo]
  · rename_i ho
    simp [atomsAll, leafTermsAll, Term.mkAtom, leafTerms, atomOf, ho, Term.leafInfo]

theorem lookup_grows {w w' : World} {n : String} (h : w.lookup n = .ok w') :
    w.atoms <+: w'.atoms ∧ w'.dictH.length ≤ w.dictH.length + 1 := by
  unfold World.lookup at h
  simp only at h
  split at h
  · cases h
  · split at h
    · simp only [Res.ok.injEq] at h
      rw [← h]
      exact ⟨List.prefix_rfl, by simp⟩
    · cases h

theorem create_grows {w w' : World} {n : String} {a : Word} (h : w.create n a = .ok w') :
    w.atoms <+: w'.atoms ∧ w'.dictH.length ≤ w.dictH.length + 1 := by
  unfold World.create at h
  split at h
  · exact lookup_grows h
  · cases h
    simp [World.alloc]

theorem operation_grows {w w' : World} {n : String} {a : Word} (h : w.operation n a = .ok w') :
    w.atoms <+: w'.atoms ∧ w'.dictH.length ≤ w.dictH.length + 1 := by
  unfold World.operation at h
  split at h
  · exact lookup_grows h
  · cases h
    simp [World.alloc]

theorem nameOf_some {w : World} {j : Nat} {n : String} (h : w.nameOf j = some n) :
    ∃ a, w.atoms[j]? = some a ∧ a.name = n := by
  unfold World.nameOf at h
  rw [Option.map_eq_some_iff] at h
  exact h

theorem known_of_handle {w : World} (h : World.Tidy w) {j : Nat} {n : String} (hj : j ∈ w.handles)
    (hn : w.nameOf j = some n) : w.store.checkByName n = true := by
  have := (h.inv n (w.key j)).2 ⟨j, h.sub j hj, rfl, hn⟩
  simp [Store.checkByName, this]

theorem nameOf_mono {w w' : World} (h : w.atoms <+: w'.atoms) {j : Nat} {n : String}
    (hj : w.nameOf j = some n) : w'.nameOf j = some n := by
  obtain ⟨a, ha, rfl⟩ := nameOf_some hj
  simp [World.nameOf, prefix_get h ha]

theorem forall₂_left {α β : Type} {R : α → β → Prop} {js : List α} {ls : List β}
    (h : List.Forall₂ R js ls) {j : α} (hj : j ∈ js) : ∃ l ∈ ls, R j l := by
  induction h with
  | nil => cases hj
  | cons h1 _ ih =>
    rcases List.mem_cons.mp hj with rfl | hj
    · exact ⟨_, List.mem_cons_self, h1⟩
    · obtain ⟨l, k1, k2⟩ := ih hj
      exact ⟨l, List.mem_cons_of_mem _ k1, k2⟩

/-- Names that were known are known. -/
theorem Acct.known {W : String → Prop} {w0 w : World} {live : List Term} (h : Acct W w0 w live)
    (h0 : Reach false w0) {n : String} (hn : w0.store.checkByName n = true) :
    w.store.checkByName n = true := by
  obtain ⟨j, hj, hn⟩ := ((C31_entries_partial h0).1 n).mp hn
  exact known_of_handle h.reach.tidy.1 (h.keeps hj) (nameOf_mono h.atoms hn)

/-- Names that are known were known or are in `W`. -/
theorem Acct.unknown {W : String → Prop} {w0 w : World} {live : List Term} (h : Acct W w0 w live)
    (h0 : Reach false w0) {n : String} (hn : w0.store.checkByName n = false) (hW : ¬ W n) :
    w.store.checkByName n = false := by
  rw [Bool.eq_false_iff]
  intro hk
  obtain ⟨j, hj, hj'⟩ := ((C31_entries_partial h.reach).1 n).mp hk
  obtain ⟨js, hp, hb⟩ := h.bal
  rcases List.mem_append.mp (hp.mem_iff.mp hj) with hj | hj
  · have hlt := h0.tidy.1.lt j (h0.tidy.1.sub j hj)
    have hx := List.getElem?_eq_getElem hlt
    have : w0.nameOf j = some n := by
      rw [← hj']
      simp [World.nameOf, hx, prefix_get h.atoms hx]
    rw [known_of_handle h0.tidy.1 hj this] at hn
    cases hn
  · obtain ⟨l, _, m, hm, ha⟩ := forall₂_left hb hj
    simp only [World.nameOf, ha, Option.map_some, Option.some.injEq] at hj'
    exact hW (hj' ▸ hm)

theorem Acct.weaken {W W' : String → Prop} {w0 w : World} {live : List Term} (h : Acct W w0 w live)
    (hW : ∀ n, W n → W' n) : Acct W' w0 w live := by
  obtain ⟨js, hp, hb⟩ := h.bal
  exact ⟨h.reach, h.atoms, js, hp, hb.imp fun j l ⟨n, k1, k2⟩ => ⟨n, hW n k1, k2⟩⟩

theorem Acct.create {W : String → Prop} {w0 w w' : World} {live : List Term} (h : Acct W w0 w live)
    {n : String} {a : Word} (hf : FreshAddr w a) (hW : W n) (hc : w.create n a = .ok w') {t : Term}
    (ht : lastAtom w' = .ok t) : Acct W w0 w' (live ++ [t]) := by
  have hr : Reach false w' := .step (.create n a) h.reach hf hc
  obtain ⟨w1, h1, _, _, r, h2, h3, _⟩ := step_create h.reach.tidy.1 (n := n) hf
  rw [hc] at h1; cases h1
  obtain ⟨x, hx, hn⟩ := nameOf_some h3
  exact h.add hr (create_grows hc).1 h2 hx (by rw [hn]; exact hW) (lastAtom_last h2 hx ht)

theorem Acct.operation {W : String → Prop} {w0 w w' : World} {live : List Term} (h : Acct W w0 w live)
    {n : String} {a : Word} (hf : FreshAddr w a) (hW : W ("^" ++ n))
    (hg : w.store.checkByName n = w.store.checkByName ("^" ++ n)) (hc : w.operation n a = .ok w')
    {t : Term} (ht : lastAtom w' = .ok t) : Acct W w0 w' (live ++ [t]) := by
  have hr : Reach false w' := .step (.operation n a) h.reach ⟨hf, hg⟩ hc
  obtain ⟨w1, h1, _, _, r, h2, h3, _⟩ := step_operation h.reach.tidy.1 (n := n) hf hg
  rw [hc] at h1; cases h1
  obtain ⟨x, hx, hn⟩ := nameOf_some h3
  exact h.add hr (operation_grows hc).1 h2 hx (by rw [hn]; exact hW) (lastAtom_last h2 hx ht)

/-! ## Dropping -/

theorem addr_inj {w : World} (h : World.Tidy w) {i j : Nat} {x y : Named} (hi : i ∈ w.dictH)
    (hj : j ∈ w.dictH) (hx : w.atoms[i]? = some x) (hy : w.atoms[j]? = some y) (e : x.addr = y.addr) :
    i = j := by
  refine h.keyInj i hi j hj ?_
  simp only [World.key, hx, hy, e]

theorem dropAddr_spec {w : World} (h : Reach false w) {j : Nat} {x : Named} (hj : j ∈ w.handles)
    (hx : w.atoms[j]? = some x) : ∃ w', dropAddr x.addr w = .ok w' ∧ Reach false w' ∧
      w'.handles.Perm (w.handles.erase j) ∧ w'.atoms = w.atoms ∧ w'.dictH.length ≤ w.dictH.length := by
  have ht := h.tidy.1
  unfold dropAddr
  cases hf : w.handles.findIdx? fun t => (w.atoms[t]?).map (·.addr) == some x.addr with
  | none =>
    rw [List.findIdx?_eq_none_iff] at hf
    have := hf j hj
    simp [hx] at this
  | some i =>
    rw [List.findIdx?_eq_some_iff_getElem] at hf
    obtain ⟨hi, hp, _⟩ := hf
    simp only [beq_iff_eq, Option.map_eq_some_iff] at hp
    obtain ⟨y, hy, hxy⟩ := hp
    have hij : w.handles[i] = j := addr_inj ht (ht.sub _ (List.getElem_mem hi)) (ht.sub j hj) hy hx hxy
    have hget : w.handles[i]? = some w.handles[i] := List.getElem?_eq_getElem hi
    obtain ⟨w', h1, h2, h3, h4, h5⟩ := ht.drop hget
    refine ⟨w', h1, .step (.drop i) h (show i < w.handles.length from hi) h1, ?_, h4, ?_⟩
    · rw [h3]
      refine List.Perm.cons_inv (a := j) ?_
      have e1 : (j :: w.handles.eraseIdx i).Perm w.handles := by
        rw [← hij]; exact List.getElem_cons_eraseIdx_perm hi
      exact e1.trans (List.perm_cons_erase hj)
    · rw [h5]
      split
      · exact List.length_erase_le
      · exact Nat.le_refl _

theorem dropAll_spec {w : World} (h : Reach false w) {H : List Nat} : ∀ {D : List Word} {K : List Nat},
    w.handles.Perm (H ++ K) →
    List.Forall₂ (fun j a => ∃ x, w.atoms[j]? = some x ∧ x.addr = a) K D →
    ∃ w', D.foldlM (fun w a => dropAddr a w) w = .ok w' ∧ Reach false w' ∧ w'.handles.Perm H ∧
      w'.atoms = w.atoms ∧ w'.dictH.length ≤ w.dictH.length := by
  intro D
  induction D generalizing w with
  | nil =>
    intro K hp hf
    cases hf
    exact ⟨w, rfl, h, by simpa using hp, rfl, Nat.le_refl _⟩
  | cons a D ih =>
    intro K hp hf
    cases hf with
    | cons hx hf =>
      rename_i j K
      obtain ⟨x, hx, rfl⟩ := hx
      have hj : j ∈ w.handles := hp.mem_iff.mpr (by simp)
      obtain ⟨w1, h1, h2, h3, h4, h5⟩ := dropAddr_spec h hj hx
      have hp1 : w1.handles.Perm (H ++ K) := by
        refine h3.trans ?_
        have := hp.erase j
        refine this.trans ?_
        have e : (H ++ j :: K).Perm (j :: (H ++ K)) := List.perm_middle
        have := e.erase j
        simpa using this
      obtain ⟨w', k1, k2, k3, k4, k5⟩ := ih h2 hp1 (by rw [h4]; exact hf)
      refine ⟨w', ?_, k2, k3, by rw [k4, h4], by omega⟩
      rw [List.foldlM_cons]
      simp only [h1, Res.ok_bind]
      exact k1

/-- The end of an action. -/
theorem Acct.settled {W : String → Prop} {w0 : World} {e : Env} {live args : List Term} {r : Term}
    (h : Acct W w0 e.world (live ++ args)) (hs : (leafTerms r).Subperm (leafTermsAll args)) :
    ∃ w', Parser.settle args r e = (.ok (), { e with world := w' }) ∧
      Acct W w0 w' (live ++ [r]) ∧ w'.dictH.length ≤ e.world.dictH.length := by
  obtain ⟨js, hp, hb⟩ := h.bal
  rw [atomsAll_append] at hb
  have hsub : (atomsAll live ++ atomsAll [r]).Subperm (atomsAll live ++ atomsAll args) := by
    refine (List.Subperm.refl _).append ?_
    have := subperm_filterMap (f := atomOf) hs
    simpa [atomsAll, leafTermsAll] using this
  obtain ⟨js1, js2, ls2, p1, f1, f2, p2⟩ := forall₂_subperm hb hsub
  -- what is dropped
  let D := ((addrsAll args).diff (addrs r)).insertionSort (· ≤ ·)
  have hD : (ls2.map Prod.fst).Perm D := by
    have q : (atomsAll args).Perm (atomsAll [r] ++ ls2) := by
      have := p2
      rw [List.append_assoc] at this
      exact (List.perm_append_left_iff _).mp this
    have q1 : (addrsAll args).Perm (addrs r ++ ls2.map Prod.fst) := by
      rw [addrsAll_eq, addrs_one, ← List.map_append]
      exact q.map _
    refine List.Perm.trans ?_ (List.perm_insertionSort (· ≤ ·) _).symm
    have := q1.diff_right (addrs r)
    refine List.Perm.trans ?_ this.symm
    rw [diff_self_append]
  obtain ⟨ks, g1, g2⟩ : ∃ ks, js2.Perm ks ∧
      List.Forall₂ (fun j a => ∃ x, e.world.atoms[j]? = some x ∧ x.addr = a) ks D := by
    have f3 : List.Forall₂ (fun a j => ∃ x, e.world.atoms[j]? = some x ∧ x.addr = a)
        (ls2.map Prod.fst) js2 := by
      rw [List.forall₂_map_left_iff]
      exact f2.flip.imp fun l j ⟨n, _, hx⟩ => ⟨_, hx, rfl⟩
    obtain ⟨ks, g1, g2⟩ := List.perm_comp_forall₂ hD.symm f3
    exact ⟨ks, g2.symm, g1.flip⟩
  obtain ⟨w', k1, k2, k3, k4, k5⟩ := dropAll_spec h.reach (H := w0.handles ++ js1) (by
    refine hp.trans ?_
    rw [List.append_assoc]
    exact (p1.trans (g1.append_left _)).append_left _) g2
  refine ⟨w', ?_, ⟨k2, by rw [k4]; exact h.atoms, js1, k3, ?_⟩, k5⟩
  · unfold Parser.settle Act.onWorld
    have k1' : (((addrsAll args).diff (addrs r)).insertionSort (· ≤ ·)).foldlM
      (fun w a => dropAddr a w) e.world = .ok w' := k1
    simp only [k1']
  · rw [atomsAll_append, k4]
    exact f1

theorem Acct.settle {W : String → Prop} {w0 : World} {e e' : Env} {live args : List Term} {r : Term}
    {u : Unit} (h : Acct W w0 e.world (live ++ args)) (hs : (leafTerms r).Subperm (leafTermsAll args))
    (he : Parser.settle args r e = (.ok u, e')) :
    Acct W w0 e'.world (live ++ [r]) ∧ e'.world.dictH.length ≤ e.world.dictH.length := by
  obtain ⟨w', h1, h2⟩ := h.settled hs
  rw [he] at h1
  simp only [Prod.mk.injEq] at h1
  rw [h1.2]
  exact h2

end Cnars.Parser
