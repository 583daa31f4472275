import Verif.Interp.StoreLemmas
import Verif.Narsese.Term

/-!
# C32-C35: the dictionaries
-/

namespace Cnars.Props
open Cnars Term

variable {P : Type}

/-! ## C32 -/

/-- A name maps to a key exactly when that key maps to that name. -/
def Agree (s : Store P) : Prop := ∀ n k, s.inv n = some k ↔ s.dict k = some n

/-- `put` does not rebind: the key is free or has this name, and the name is free or has this key.
Lookups by name or key are of what is there. -/
def NoRebind (s : Store P) : StoreOp P → Prop
  | .put k n _ => (s.dict k = none ∨ s.dict k = some n) ∧ (s.inv n = none ∨ s.inv n = some k)
  | .get k => s.dict k ≠ none
  | .getByName n => s.inv n ≠ none
  | _ => True

/-- States reachable without rebinding. -/
inductive Faithful : Store P → Prop
  | init : Faithful Store.init
  | step {s : Store P} (op : StoreOp P) : Faithful s → NoRebind s op → Faithful (s.step op)

theorem Agree.put {s : Store P} (h : Agree s) {k : Key} {n : String} {p : Option P}
    (hg : (s.dict k = none ∨ s.dict k = some n) ∧ (s.inv n = none ∨ s.inv n = some k)) :
    Agree (s.put k n p) := by
  intro m j
  rw [put_dict, put_inv, Map.set_apply, Map.set_apply]
  by_cases hm : m = n
  · subst hm
    by_cases hj : j = k
    · subst hj; simp
    · simp only [if_true, if_neg hj, Option.some.injEq]
      refine ⟨fun e => absurd e.symm hj, fun e => ?_⟩
      rcases hg.2 with h2 | h2
      · rw [← h m j, h2] at e; cases e
      · rw [← h m j, h2] at e; exact Option.some.inj e
  · rw [if_neg hm]
    by_cases hj : j = k
    · subst hj
      simp only [if_true, Option.some.injEq]
      refine ⟨fun e => ?_, fun e => absurd e.symm hm⟩
      rw [h m j] at e
      rcases hg.1 with h2 | h2
      · rw [h2] at e; cases e
      · rw [h2] at e; exact Option.some.inj e
    · rw [if_neg hj]; exact h m j

theorem Agree.remove {s : Store P} (h : Agree s) (k : Key) : Agree (s.remove k).2 := by
  intro m j
  rw [remove_dict, remove_inv, Map.erase_apply]
  cases hk : s.dict k with
  | none =>
    by_cases hj : j = k
    · subst hj; simp [h m j, hk]
    · simp [hj, h m j]
  | some n =>
    simp only [Map.erase_apply]
    by_cases hj : j = k
    · subst hj
      by_cases hm : m = n
      · simp [hm]
      · simp only [hm, if_false, if_true, reduceCtorEq, iff_false]
        rw [h m j, hk]; simpa using Ne.symm hm
    · simp only [hj, if_false]
      by_cases hm : m = n
      · subst hm
        simp only [if_true, reduceCtorEq, false_iff]
        intro e
        rw [← h m j] at e
        have := (h m k).2 hk
        rw [e] at this; exact hj (Option.some.inj this)
      · simp only [hm, if_false]; exact h m j

theorem Agree.congr {s t : Store P} (h : Agree s) (hd : t.dict = s.dict) (hi : t.inv = s.inv) :
    Agree t := by intro n k; rw [hd, hi]; exact h n k

theorem Agree.step {s : Store P} (h : Agree s) {op : StoreOp P} (hg : NoRebind s op) :
    Agree (s.step op) := by
  cases op with
  | put k n p => exact h.put hg
  | get k =>
    have hg : s.dict k ≠ none := hg
    obtain ⟨n, hn⟩ := Option.ne_none_iff_exists'.1 hg
    simpa [Store.step, Store.get, hn] using h
  | getObject k =>
    refine h.congr ?_ ?_ <;> (simp only [Store.step, Store.getObject]; split <;> rfl)
  | getByName n =>
    have hg : s.inv n ≠ none := hg
    obtain ⟨k, hk⟩ := Option.ne_none_iff_exists'.1 hg
    simpa [Store.step, Store.getByName, hk] using h
  | remove k => exact h.remove k
  | removeByName n =>
    simp only [Store.step, Store.removeByName]
    cases hn : s.inv n with
    | none => exact h
    | some k =>
      have hk := (h n k).1 hn
      simp only [Store.check, hk, Option.isSome_some, if_true]
      intro m j
      simp only [Map.erase_apply]
      by_cases hm : m = n
      · subst hm
        by_cases hj : j = k
        · simp [hj]
        · simp only [if_true, hj, if_false, reduceCtorEq, false_iff]
          intro e; rw [← h m j, hn] at e; exact hj (Option.some.inj e).symm
      · by_cases hj : j = k
        · subst hj
          simp only [hm, if_false, if_true, reduceCtorEq, iff_false]
          rw [h m j, hk]; simpa using Ne.symm hm
        · simp only [hm, hj, if_false]; exact h m j
  | erase k =>
    simp only [Store.step, Store.erase]
    have hc : Agree (s.checkCount k).2 := h.congr (checkCount_dict s k) (checkCount_inv s k)
    split
    · split
      · exact Agree.remove (s := { (s.checkCount k).2 with
          count := (s.checkCount k).2.count.set k ((s.checkCount k).1 - 1) }) hc k
      · exact hc
    · exact hc
  | checkCount k => exact h.congr (checkCount_dict s k) (checkCount_inv s k)

/-- Histories that never rebind a key or a name, of any length; missing: rebinding. -/
theorem C32_agree_partial {s : Store P} (h : Faithful s) (n : String) (k : Key) :
    s.inv n = some k ↔ s.dict k = some n := by
  have : Agree s := by
    induction h with
    | init => intro n k; simp [Store.init, Map.empty]
    | step op _ hg ih => exact ih.step hg
  exact this n k

/-- Two names for one key: the first name still maps to it. -/
theorem C32_two_names_counterexample :
    let s := (Store.init : Store Unit).run [.put 7 "a" none, .put 7 "b" none]
    s.inv "a" = some 7 ∧ s.dict 7 = some "b" := by decide +kernel

/-- Two keys for one name; removing the first key takes the name away from the second. -/
theorem C32_two_keys_counterexample :
    let s := (Store.init : Store Unit).run [.put 7 "a" none, .put 8 "a" none, .remove 7]
    s.inv "a" = none ∧ s.dict 8 = some "a" := by decide +kernel

example : Faithful ((Store.init : Store Unit).run
    [.put 7 "a" none, .put 8 "b" none, .put 7 "a" none, .erase 7, .removeByName "b"]) := by
  refine Faithful.step (.removeByName "b") (Faithful.step (.erase 7) (Faithful.step (.put 7 "a" none)
    (Faithful.step (.put 8 "b" none) (Faithful.step (.put 7 "a" none) .init ?_) ?_) ?_) ?_) ?_
  · exact ⟨.inl rfl, .inl rfl⟩
  · exact ⟨.inl (by decide +kernel), .inl (by decide +kernel)⟩
  · exact ⟨.inr (by decide +kernel), .inr (by decide +kernel)⟩
  · trivial
  · trivial

/-! ## C33 -/

/-- An operation on another key: it does not name `k`, and if it goes by name, the name does not
mean `k`. -/
def OnOther (s : Store P) (k : Key) : StoreOp P → Prop
  | .put j _ _ | .get j | .getObject j | .remove j | .erase j | .checkCount j => j ≠ k
  | .getByName _ => True
  | .removeByName n => s.inv n ≠ some k

/-- Puts of `k`, erases of `k`, and operations on other keys, from a state `s`. -/
inductive Interleaving (k : Key) : Store P → List (StoreOp P) → Prop
  | nil (s : Store P) : Interleaving k s []
  | put {s : Store P} {ops : List (StoreOp P)} (n : String) (p : Option P) :
      Interleaving k (s.step (.put k n p)) ops → Interleaving k s (.put k n p :: ops)
  | erase {s : Store P} {ops : List (StoreOp P)} :
      Interleaving k (s.step (.erase k)) ops → Interleaving k s (.erase k :: ops)
  | other {s : Store P} {ops : List (StoreOp P)} (op : StoreOp P) : OnOther s k op →
      Interleaving k (s.step op) ops → Interleaving k s (op :: ops)

/-- How many puts of `k` a history has. -/
def puts (k : Key) (ops : List (StoreOp P)) : Nat :=
  ops.countP fun | .put j _ _ => j = k | _ => false

/-- How many erases of `k` a history has. -/
def erases (k : Key) (ops : List (StoreOp P)) : Nat :=
  ops.countP fun | .erase j => j = k | _ => false

/-- Being there `c` times. -/
def Has (s : Store P) (k : Key) (c : Nat) : Prop :=
  if c = 0 then s.count k = none ∧ s.dict k = none
  else s.count k = some (c : Int) ∧ (s.dict k).isSome

theorem Has.put {s : Store P} {k : Key} {c : Nat} (h : Has s k c) (n : String) (p : Option P) :
    Has (s.put k n p) k (c + 1) := by
  rw [Has, if_neg (Nat.succ_ne_zero c)]
  refine ⟨?_, by rw [put_dict]; simp⟩
  simp only [Store.put, Store.checkCount, Map.set_self]
  by_cases hc : c = 0
  · subst hc; simp [Has] at h; simp [h.1]
  · simp only [Has, hc, if_false] at h
    simp [h.1, hc]

theorem Has.erase {s : Store P} {k : Key} {c : Nat} (h : Has s k c) :
    Has (s.erase k).2 k (c - 1) ∧ (s.erase k).1 = decide (0 < c) := by
  by_cases hc : c = 0
  · subst hc
    simp [Has] at h
    simp [Store.erase, Store.checkCount, h.1, Has, h.2]
  · simp only [Has, hc, if_false] at h
    have h0 : ¬ (c : Int) = 0 := by omega
    have h1 : (0 : Int) < c := by omega
    simp only [Store.erase, Store.checkCount, h.1, h0, if_false, h1, if_true]
    by_cases h2 : (c : Int) - 1 = 0
    · rw [if_pos h2]
      have : c = 1 := by omega
      subst this
      refine ⟨?_, by simp⟩
      simp only [Has, Nat.sub_self, if_true]
      refine ⟨?_, by rw [remove_dict]; simp⟩
      unfold Store.remove Store.startRemove
      obtain ⟨n, hn⟩ := Option.isSome_iff_exists.1 h.2
      simp only [hn]
      cases h3 : s.objs k <;> simp [Store.finishRemove]
    · rw [if_neg h2]
      have : ¬ c - 1 = 0 := by omega
      refine ⟨?_, by simp; omega⟩
      simp only [Has, this, if_false, Map.set_self, h.2, and_true]
      congr 1; omega

theorem Has.congr {s t : Store P} {k : Key} {c : Nat} (h : Has s k c)
    (h1 : t.count k = s.count k) (h2 : t.dict k = s.dict k) : Has t k c := by
  unfold Has at *; rw [h1, h2]; exact h

theorem Has.other {s : Store P} {k : Key} {c : Nat} (h : Has s k c) {op : StoreOp P}
    (ho : OnOther s k op) : Has (s.step op) k c := by
  have key : ∀ {j : Key}, j ≠ k → k ≠ j := fun h => Ne.symm h
  cases op with
  | put j n p =>
    refine h.congr ?_ ?_
    · have h1 := checkCount_count { s with dict := s.dict.set j n, objs := s.objs.set j p, inv := s.inv.set n j } j k
      simp only [Store.step, Store.put, Map.set_ne _ _ (key ho), h1, if_neg (fun h : k = j ∧ s.count j = some 0 => key ho h.1)]
    · rw [Store.step, put_dict, Map.set_ne _ _ (key ho)]
  | get j =>
    refine h.congr ?_ ?_
    · simp only [Store.step, Store.get]; split <;> rfl
    · simp only [Store.step, Store.get]; split
      · rfl
      · simp only [Map.set_ne _ _ (key ho)]
  | getObject j =>
    refine h.congr ?_ ?_ <;> (simp only [Store.step, Store.getObject]; split <;> rfl)
  | getByName n =>
    refine h.congr ?_ ?_ <;> (simp only [Store.step, Store.getByName]; split <;> rfl)
  | remove j =>
    refine h.congr ?_ ?_
    · exact remove_count s j k (key ho)
    · rw [Store.step, remove_dict, Map.erase_ne _ (key ho)]
  | removeByName n =>
    refine h.congr ?_ ?_
    all_goals
      simp only [Store.step, Store.removeByName]
      split
      · rfl
      · next j hj =>
        have hjk : k ≠ j := by
          rintro rfl; exact ho hj
        split
        · simp only [Map.erase_ne _ hjk]
        · rfl
  | erase j =>
    have hjk : k ≠ j := key ho
    have cc : (s.checkCount j).2.count k = s.count k := by
      rw [checkCount_count, if_neg (fun h => hjk h.1)]
    have cd := checkCount_dict s j
    refine h.congr ?_ ?_
    · simp only [Store.step, Store.erase]
      split
      · split
        · rw [remove_count _ j k hjk]; simp only [Map.set_ne _ _ hjk]; exact cc
        · simp only [Map.set_ne _ _ hjk]; exact cc
      · exact cc
    · simp only [Store.step, Store.erase]
      split
      · split
        · rw [remove_dict, Map.erase_ne _ hjk]; simp only [cd]
        · simp only [cd]
      · simp only [cd]
  | checkCount j =>
    refine h.congr ?_ ?_
    · rw [Store.step, checkCount_count, if_neg (fun h => key ho h.1)]
    · rw [Store.step, checkCount_dict]

/-- Any interleaving of puts and erases of `k` with operations on other keys, of any length, from
any state in which `k` has been put `c` times (in a fresh interpreter, 0 times), erasing never more
often than putting: the entry is there exactly if it was put more often than erased, and the next
`erase` says so. -/
theorem C33_balance {k : Key} {s : Store P} {ops : List (StoreOp P)} (hi : Interleaving k s ops)
    {c : Nat} (hc : Has s k c)
    (hpre : ∀ pre, pre <+: ops → erases k pre ≤ c + puts k pre) :
    (s.run ops).check k = decide (erases k ops < c + puts k ops) ∧
    ((s.run ops).erase k).1 = decide (erases k ops < c + puts k ops) := by
  have key : Has (s.run ops) k (c + puts k ops - erases k ops) := by
    induction hi generalizing c with
    | nil s => simpa [Store.run, puts, erases] using hc
    | @put s ops n p _ ih =>
      have := ih (c := c + 1) (hc.put n p) (by
        intro pre hp
        have := hpre (.put k n p :: pre) (List.cons_prefix_cons.2 ⟨rfl, hp⟩)
        simp [erases, puts] at this ⊢; omega)
      have e : c + puts k (.put k n p :: ops) - erases k (.put k n p :: ops) =
          c + 1 + puts k ops - erases k ops := by simp [erases, puts]; omega
      rw [e]; exact this
    | @erase s ops _ ih =>
      have h0 : 0 < c := by
        have := hpre [.erase k] (List.cons_prefix_cons.2 ⟨rfl, List.nil_prefix⟩)
        simp [erases, puts] at this; omega
      have := ih (c := c - 1) hc.erase.1 (by
        intro pre hp
        have := hpre (.erase k :: pre) (List.cons_prefix_cons.2 ⟨rfl, hp⟩)
        simp [erases, puts] at this ⊢; omega)
      have e : c + puts k (.erase k :: ops) - erases k (.erase k :: ops) =
          c - 1 + puts k ops - erases k ops := by
        simp [erases, puts]; omega
      rw [e]; exact this
    | @other s ops op ho _ ih =>
      have h1 : puts k (op :: ops) = puts k ops ∧ ∀ l, puts k (op :: l) = puts k l := by
        cases op <;> simp_all [puts, OnOther]
      have h2 : erases k (op :: ops) = erases k ops ∧ ∀ l, erases k (op :: l) = erases k l := by
        cases op <;> simp_all [erases, OnOther]
      rw [h1.1, h2.1]
      refine ih (hc.other ho) ?_
      intro pre hp
      have := hpre (op :: pre) (List.cons_prefix_cons.2 ⟨rfl, hp⟩)
      rw [h1.2, h2.2] at this; exact this
  have hck : (s.run ops).check k = decide (0 < c + puts k ops - erases k ops) := by
    unfold Has at key
    split at key
    · next h0 => simp [Store.check, key.2]; omega
    · next h0 => simp [Store.check, key.2]; omega
  have heq : decide (0 < c + puts k ops - erases k ops) = decide (erases k ops < c + puts k ops) := by
    simp [Nat.sub_pos_iff_lt]
  exact ⟨hck.trans heq, key.erase.2.trans heq⟩

/-- In particular: put `n` times, the entry survives `n - 1` erases and is gone after `n`; the
`n + 1`-st erase answers `false`. -/
theorem C33_n_times (k : Key) (name : String) (p : Option P) (n m : Nat) (hm : m ≤ n) :
    let s := (Store.init : Store P).run (List.replicate n (.put k name p) ++ List.replicate m (.erase k))
    s.check k = decide (m < n) ∧ (s.erase k).1 = decide (m < n) := by
  have hi : ∀ (a b : Nat) (s : Store P),
      Interleaving k s (List.replicate a (.put k name p) ++ List.replicate b (.erase k)) := by
    intro a b
    induction a with
    | zero =>
      induction b with
      | zero => intro s; exact .nil s
      | succ b ih => intro s; exact .erase (ih _)
    | succ a ih => intro s; exact .put name p (ih _)
  have hp : ∀ a, puts k (List.replicate a (.put k name p : StoreOp P)) = a := by
    intro a; simp [puts, List.countP_replicate]
  have he : ∀ a, erases k (List.replicate a (.erase k : StoreOp P)) = a := by
    intro a; simp [erases, List.countP_replicate]
  have hp0 : ∀ a, puts k (List.replicate a (.erase k : StoreOp P)) = 0 := by
    intro a; simp [puts, List.countP_replicate]
  have he0 : ∀ a, erases k (List.replicate a (.put k name p : StoreOp P)) = 0 := by
    intro a; simp [erases, List.countP_replicate]
  have pa : ∀ a b : List (StoreOp P), puts k (a ++ b) = puts k a + puts k b := by
    intro a b; simp [puts]
  have ea : ∀ a b : List (StoreOp P), erases k (a ++ b) = erases k a + erases k b := by
    intro a b; simp [erases]
  have := C33_balance (hi n m Store.init) (c := 0) (by simp [Has, Store.init, Map.empty]) (by
    intro pre hpre
    rw [List.prefix_iff_eq_take] at hpre
    rw [hpre, List.take_append, List.take_replicate, List.take_replicate, pa, ea, hp, he0, hp0, he,
      List.length_replicate]
    omega)
  simpa [pa, ea, hp, he, hp0, he0] using this

example : Interleaving (P := Unit) 3 Store.init
    [.put 3 "a" none, .put 4 "b" none, .get 9, .put 3 "a" none, .erase 3, .erase 4] :=
  .put _ _ (.other _ (by simp [OnOther]) (.other _ (by simp [OnOther]) (.put _ _ (.erase
    (.other _ (by simp [OnOther]) (.nil _))))))

/-! ## C34 -/

/-- Looking up an absent key makes `check` find it. -/
theorem C34_get_counterexample :
    (Store.init : Store Unit).check 5 = false ∧ ((Store.init : Store Unit).get 5).2.check 5 = true := by
  decide +kernel

/-- Looking up an absent name makes `check_by_name` find it, as key 0. -/
theorem C34_get_by_name_counterexample :
    (Store.init : Store Unit).checkByName "a" = false ∧
    ((Store.init : Store Unit).getByName "a").2.checkByName "a" = true ∧
    ((Store.init : Store Unit).getByName "a").2.inv "a" = some 0 := by
  decide +kernel

/-- Looking up what is there changes nothing at all; missing: looking up what is not there. -/
theorem C34_present_partial (s : Store P) (k : Key) (n : String) :
    (s.dict k ≠ none → (s.get k).2 = s) ∧ (s.objs k ≠ none → (s.getObject k).2 = s) ∧
    (s.inv n ≠ none → (s.getByName n).2 = s) := by
  refine ⟨fun h => ?_, fun h => ?_, fun h => ?_⟩
  · obtain ⟨_, h⟩ := Option.ne_none_iff_exists'.1 h; simp [Store.get, h]
  · obtain ⟨_, h⟩ := Option.ne_none_iff_exists'.1 h; simp [Store.getObject, h]
  · obtain ⟨_, h⟩ := Option.ne_none_iff_exists'.1 h; simp [Store.getByName, h]

/-- A list of lookups. -/
def LookupsOnly (ops : List (StoreOp P)) : Prop :=
  ∀ op ∈ ops, match op with
    | .get _ | .getObject _ | .getByName _ => True
    | _ => False

theorem get_fst (s : Store P) (k : Key) : (s.get k).1 = (s.dict k).getD "" := by
  unfold Store.get; split <;> simp_all
theorem getObject_fst (s : Store P) (k : Key) : (s.getObject k).1 = (s.objs k).getD none := by
  unfold Store.getObject; split <;> simp_all
theorem getByName_fst (s : Store P) (n : String) : (s.getByName n).1 = (s.inv n).getD 0#32 := by
  unfold Store.getByName; split <;> simp_all

/-- However many lookups were made, present or absent, the answer of each further lookup is what it
was; missing: `check` and `check_by_name`, which become true for the keys and names looked up. -/
theorem C34_answers_partial (s : Store P) (ops : List (StoreOp P)) (h : LookupsOnly ops)
    (k : Key) (n : String) :
    ((s.run ops).get k).1 = (s.get k).1 ∧ ((s.run ops).getObject k).1 = (s.getObject k).1 ∧
    ((s.run ops).getByName n).1 = (s.getByName n).1 ∧
    (s.run ops).check k = (s.check k || ops.any fun | .get j => j = k | _ => false) ∧
    (s.run ops).checkByName n =
      (s.checkByName n || ops.any fun | .getByName m => m = n | _ => false) := by
  simp only [get_fst, getObject_fst, getByName_fst]
  induction ops generalizing s with
  | nil => simp [Store.run]
  | cons op ops ih =>
    have ih := ih (s.step op) (fun o ho => h o (List.mem_cons_of_mem _ ho))
    have h0 := h op List.mem_cons_self
    have e : s.run (op :: ops) = (s.step op).run ops := rfl
    rw [e]
    obtain ⟨i1, i2, i3, i4, i5⟩ := ih
    rw [i1, i2, i3, i4, i5]
    cases op with
    | get j =>
      simp only [Store.step, Store.get]
      cases hj : s.dict j with
      | some m =>
        by_cases hk : j = k
        · subst hk; simp [Store.check, hj]
        · simp [hk]
      | none =>
        by_cases hk : j = k
        · subst hk; simp [Store.check, hj, Store.checkByName]
        · simp [Map.set_ne _ _ (Ne.symm hk), hk, Store.check, Store.checkByName]
    | getObject j =>
      simp only [Store.step, Store.getObject]
      cases hj : s.objs j with
      | some m => simp
      | none =>
        by_cases hk : j = k
        · subst hk; simp [Store.check, hj, Store.checkByName]
        · simp [Map.set_ne _ _ (Ne.symm hk), Store.check, Store.checkByName]
    | getByName m =>
      simp only [Store.step, Store.getByName]
      cases hj : s.inv m with
      | some _ =>
        by_cases hk : m = n
        · subst hk; simp [Store.checkByName, hj]
        · simp [hk]
      | none =>
        by_cases hk : m = n
        · subst hk; simp [Store.check, hj, Store.checkByName]
        · simp [Map.set_ne _ _ (Ne.symm hk), hk, Store.check, Store.checkByName]
    | _ => exact h0.elim

example : LookupsOnly (P := Unit) [.get 3, .getByName "x", .getObject 4] := by simp [LookupsOnly]

/-! ## C35 -/

/-- Two atoms share a dictionary key exactly if their addresses agree in the low 32 bits. -/
theorem C35_keys (a b : Word) :
    keyOf (mkAtom a).hash = keyOf (mkAtom b).hash ↔ a.setWidth 32 = b.setWidth 32 := by
  have h : ∀ x : Word, keyOf (mkAtom x).hash =
      0x9e3779b9#32 ^^^ (x.setWidth 32 + (atomHash 0 ^^^ 0x9e3779b9#64).setWidth 32) := by
    intro x
    have : (mkAtom x).hash = 0x9e3779b9#64 ^^^ (x + (atomHash 0 ^^^ 0x9e3779b9#64)) := by
      have e : ∀ y : Word, atomHash y = 0x9e3779b9#64 ^^^
          (y + 0x9e3779b9#64 + (0x9e3779b9#64 <<< 6) + (0x9e3779b9#64 >>> 2)) := fun y => rfl
      show atomHash x = _
      rw [e x]
      have e0 : (atomHash 0 ^^^ 0x9e3779b9#64 : Word) =
        0x9e3779b9#64 + (0x9e3779b9#64 <<< 6) + (0x9e3779b9#64 >>> 2) := by decide +kernel
      rw [e0]
      simp only [BitVec.add_assoc]
    rw [this, keyOf, BitVec.setWidth_xor, BitVec.setWidth_add _ _ (by omega)]
    rfl
  rw [h a, h b]
  constructor
  · intro e
    have := congrArg (fun y => 0x9e3779b9#32 ^^^ y) e
    simpa [← BitVec.xor_assoc] using this
  · intro e; rw [e]

/-- Addresses less than 4 GiB apart give different keys; missing: addresses further apart. -/
theorem C35_near_partial (a b : Word) (hne : a ≠ b) (hnear : b.toNat - a.toNat < 2 ^ 32)
    (hnear' : a.toNat - b.toNat < 2 ^ 32) :
    keyOf (mkAtom a).hash ≠ keyOf (mkAtom b).hash := by
  rw [Ne, C35_keys]
  intro h
  apply hne
  have h := congrArg BitVec.toNat h
  simp only [BitVec.toNat_setWidth] at h
  apply BitVec.eq_of_toNat_eq
  omega

/-- Two 16-byte aligned heap addresses 4 GiB apart. -/
theorem C35_counterexample :
    (0x555555581eb0 : Word) ≠ 0x555655581eb0 ∧
    keyOf (mkAtom 0x555555581eb0).hash = keyOf (mkAtom 0x555655581eb0).hash := by
  decide +kernel

example : keyOf (mkAtom 0x555555581eb0).hash ≠ keyOf (mkAtom 0x555555581f90).hash :=
  C35_near_partial _ _ (by decide) (by decide) (by decide)

end Cnars.Props
