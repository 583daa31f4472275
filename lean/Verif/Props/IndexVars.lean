import Verif.Narsese.IndexVarLemmas

/-!
# C28: index tables and their caches
-/

namespace Cnars.Props
open Cnars TabHeap

/-- The restrictions under which the caches stay right, per operation: sons are connected to
younger fathers; nothing is read between `connect` and `build`; `add` and `remove` work on the
table itself, not on a descendant; `rebuild` is not used. -/
def Disciplined (h : TabHeap) : TabOp → Prop
  | .connect f s _ => s < f
  | .build _ rebuild _ => rebuild = false
  | .add _ _ path => path = []
  | .remove _ path => path = []
  | .readNorm t => ∀ tab, h[t]? = some tab → tab.built = true ∨ tab.succ = []
  | .readHash t => ∀ tab, h[t]? = some tab → tab.built = true ∨ tab.succ = []
  | _ => True

/-- The states reachable by disciplined histories. -/
inductive DisciplinedRun : TabHeap → Prop
  | start : DisciplinedRun []
  | step {h h' : TabHeap} (op : TabOp) : DisciplinedRun h → Disciplined h op →
      tabStep h op = .ok h' → DisciplinedRun h'

theorem step_inv {h h' : TabHeap} {op : TabOp} (hi : TabInv h) (hd : Disciplined h op)
    (hs : tabStep h op = .ok h') : TabInv h' := by
  cases op with
  | create =>
    simp only [tabStep, Res.ok.injEq] at hs; subst hs
    exact hi.push (Tab.Cold.isFresh ⟨rfl, rfl⟩) (fun _ h => absurd rfl h) rfl
  | clone t =>
    simp only [tabStep, TabHeap.clone, Res.bind_eq_ok, Res.pure_eq, Res.ok.injEq, get_eq] at hs
    obtain ⟨tab, ht, rfl⟩ := hs
    exact hi.push (hi t tab ht).1 (fun _ h => absurd rfl h) rfl
  | connect f s gen =>
    simp only [tabStep, TabHeap.connect, Res.bind_eq_ok, get_eq] at hs
    obtain ⟨ft, hf, st, hst, hs⟩ := hs
    have hsf : s < f := hd
    have h1 : TabInv (h.set f { ft with
        hashed := false, built := false, norm := none, succ := ft.succ ++ [s] }) := by
      refine hi.set (Tab.Cold.isFresh ⟨rfl, rfl⟩) (fun _ _ => ⟨rfl, rfl⟩) ?_
      intro u hu
      simp only [List.mem_append, List.mem_singleton] at hu
      rcases hu with hu | rfl
      · exact (hi f ft hf).2.2 u hu
      · exact hsf
    split at hs
    · simp at hs; subst hs; exact h1
    · split at hs
      · cases hs
      · simp only [Res.bind_eq_ok, Res.pure_eq, Res.ok.injEq, get_eq] at hs
        obtain ⟨st', hst', rfl⟩ := hs
        refine h1.set (Tab.Cold.isFresh ⟨rfl, rfl⟩) (fun _ _ => ⟨rfl, rfl⟩) ?_
        intro u hu
        simp only [List.mem_append, List.mem_singleton] at hu
        rcases hu with hu | rfl
        · exact (hi f ft hf).2.2 u hu
        · exact hsf
  | build fuel rebuild t =>
    have hr : rebuild = false := hd
    subst hr
    exact (buildF_inv fuel hi hs).1
  | add t idx path =>
    have hp : path = [] := hd
    subst hp
    simp only [tabStep, TabHeap.add, Res.bind_eq_ok, get_eq, walk, if_true, Res.pure_eq,
      Res.ok.injEq] at hs
    obtain ⟨tab, ht, s, rfl, st, hst, rfl⟩ := hs
    have hl : t < h.length := (List.getElem?_eq_some_iff.1 ht).1
    rw [List.getElem?_set_self hl] at hst
    cases hst
    have hlt := (hi t tab ht).2.2
    refine TabInv.set ?_ (Tab.Cold.isFresh ⟨rfl, rfl⟩) (fun _ _ => ⟨rfl, rfl⟩) hlt
    exact hi.set (Tab.Cold.isFresh ⟨rfl, rfl⟩) (fun _ _ => ⟨rfl, rfl⟩) hlt
  | remove t path =>
    have hp : path = [] := hd
    subst hp
    simp only [tabStep, TabHeap.remove, Res.bind_eq_ok, get_eq, walk, Res.pure_eq,
      Res.ok.injEq] at hs
    obtain ⟨tab, ht, s, rfl, st, hst, rfl⟩ := hs
    have hl : t < h.length := (List.getElem?_eq_some_iff.1 ht).1
    rw [List.getElem?_set_self hl] at hst
    cases hst
    have hlt := (hi t tab ht).2.2
    refine TabInv.set ?_ (Tab.Cold.isFresh ⟨rfl, rfl⟩) (fun _ _ => ⟨rfl, rfl⟩) hlt
    exact hi.set (Tab.Cold.isFresh ⟨rfl, rfl⟩) (fun _ _ => ⟨rfl, rfl⟩) hlt
  | readNorm t =>
    simp only [tabStep, Res.bind_eq_ok, Res.pure_eq, Res.ok.injEq, get_eq] at hs
    obtain ⟨tab, ht, rfl⟩ := hs
    obtain ⟨hf, hr, hlt⟩ := hi t tab ht
    refine hi.set hf.cacheNorm ?_ (by simpa using hlt)
    intro hb hsu
    rcases hd tab ht with h1 | h1 <;> simp_all
  | readHash t =>
    simp only [tabStep, Res.bind_eq_ok, Res.pure_eq, Res.ok.injEq, get_eq] at hs
    obtain ⟨tab, ht, rfl⟩ := hs
    obtain ⟨hf, hr, hlt⟩ := hi t tab ht
    refine hi.set hf.rehash ?_ (by simpa using hlt)
    intro hb hsu
    rcases hd tab ht with h1 | h1 <;> simp_all
  | markBuilt t =>
    simp only [tabStep, Res.bind_eq_ok, Res.pure_eq, Res.ok.injEq, get_eq] at hs
    obtain ⟨tab, ht, rfl⟩ := hs
    obtain ⟨hf, hr, hlt⟩ := hi t tab ht
    exact hi.set hf (fun hb => by simp at hb) hlt

theorem DisciplinedRun.inv {h : TabHeap} (hr : DisciplinedRun h) : TabInv h := by
  induction hr with
  | start => intro t tab ht; simp at ht
  | step op _ hd hs ih => exact step_inv ih hd hs

/-- What a table reports is computed from its current indices. -/
def Reports (h : TabHeap) (t : Nat) (tab : Tab) : Prop :=
  h.reportedNorm t = .ok (normalize tab.indices) ∧
  h.reportedHash t =
    .ok ((Hash.container ((normalize tab.indices).map Word.ofInt)).setWidth 32)

/-- The claim for disciplined histories of any length; missing: reading between `connect` and
`build`, nested `add` and `remove`, `rebuild` (each has a counterexample below). -/
theorem C28_fresh_partial {h : TabHeap} (hr : DisciplinedRun h) {t : Nat} {tab : Tab}
    (ht : h[t]? = some tab) : Reports h t tab := by
  have hf := (hr.inv t tab ht).1
  constructor
  · simp [reportedNorm, get_eq.2 ht, Tab.cacheNorm_norm hf]
  · simp only [reportedHash, get_eq.2 ht, Res.ok_bind, Res.pure_eq, hf.rehash_hash]; rfl

/-- `build` always returns on such states, with recursion no deeper than the number of tables. -/
theorem C28_build_terminates {h : TabHeap} (hr : DisciplinedRun h) {t : Nat} (ht : t < h.length) :
    ∃ h', tabStep h (.build h.length false t) = .ok h' :=
  buildF_total h.length hr.inv ht ht

/-- Without the restriction on the graph it need not: a table connected to itself. -/
theorem C28_cycle_counterexample (fuel : Nat) :
    tabRun [] [.create, .connect 0 0 false, .build fuel false 0] = .outOfFuel := by
  have key : ∀ n, buildF n false [⟨[], [], none, 0#32, false, false, [0]⟩] 0 = .outOfFuel := by
    intro n
    induction n with
    | zero => rfl
    | succ n ih =>
      simp [buildF, TabHeap.get, buildLoop, ih]
  have h1 : tabRun [] [.create, .connect 0 0 false] =
      .ok [⟨[], [], none, 0#32, false, false, [0]⟩] := by decide +kernel
  have h2 := tabRun_append [] [.create, .connect 0 0 false] [.build fuel false 0]
  rw [h1] at h2
  simp only [List.cons_append, List.nil_append, Res.ok_bind, tabRun, tabStep, key] at h2
  exact h2

/-- A state reached by a history of table operations in which table `t` misreports. -/
def Misreports (ops : List TabOp) (t : Nat) : Prop :=
  ∃ h tab, tabRun [] ops = .ok h ∧ h[t]? = some tab ∧ ¬ Reports h t tab

theorem misreports_of {ops : List TabOp} {t : Nat} (h : TabHeap) (tab : Tab)
    (h1 : tabRun [] ops = .ok h) (h2 : h[t]? = some tab)
    (h3 : h.reportedNorm t ≠ .ok (normalize tab.indices)) : Misreports ops t :=
  ⟨h, tab, h1, h2, fun hr => h3 hr.1⟩

/-- `add` through a father leaves the cache of the son that it changes. -/
theorem C28_nested_add_counterexample :
    Misreports [.create, .create, .add 0 3 [], .connect 1 0 false, .build 2 false 1,
      .add 1 5 [0]] 0 := by
  let h : TabHeap := [⟨[3, 5], [[], []], some [0], Tab.hashVal [0], true, true, []⟩,
    ⟨[3], [[0]], none, Tab.hashVal [0], false, true, [0]⟩]
  exact misreports_of h h[0] (by decide +kernel) rfl (by decide +kernel)

/-- `remove` through a father likewise. -/
theorem C28_nested_remove_counterexample :
    Misreports [.create, .create, .add 0 3 [], .connect 1 0 false, .build 2 false 1,
      .remove 1 [0]] 0 := by
  let h : TabHeap := [⟨[], [], some [0], Tab.hashVal [0], true, true, []⟩,
    ⟨[3], [[0]], none, Tab.hashVal [0], false, true, [0]⟩]
  exact misreports_of h h[0] (by decide +kernel) rfl (by decide +kernel)

/-- `build` keeps what was cached between `connect` and `build`. -/
theorem C28_early_read_counterexample :
    Misreports [.create, .create, .add 0 3 [], .connect 1 0 false, .readNorm 1,
      .build 2 false 1] 1 := by
  let h : TabHeap := [⟨[3], [[]], some [0], Tab.hashVal [0], true, true, []⟩,
    ⟨[3], [[0]], some [], Tab.hashVal [], true, true, [0]⟩]
  exact misreports_of h h[1] (by decide +kernel) rfl (by decide +kernel)

/-- `rebuild` after a change of a son keeps the cache of the father. -/
theorem C28_rebuild_counterexample :
    Misreports [.create, .create, .create, .add 0 3 [], .add 1 4 [], .connect 2 0 false,
      .connect 2 1 false, .build 2 false 2, .remove 1 [], .build 2 true 2] 2 := by
  let h : TabHeap := [⟨[3], [[]], some [0], Tab.hashVal [0], true, true, []⟩,
    ⟨[], [], some [], Tab.hashVal [], true, true, []⟩,
    ⟨[3], [[0]], some [0, 1], Tab.hashVal [0, 1], true, true, [0, 1]⟩]
  exact misreports_of h h[2] (by decide +kernel) rfl (by decide +kernel)

/-- The index table of a new statement or compound: whatever the heap and the sons (each either
built or without successors, as the constructors leave them), the constructor's operations are
disciplined, succeed, leave the lists of all other tables alone, and the new table holds the
concatenation of the sons' lists with prefixed positions if its flag is set, nothing otherwise. -/
theorem C28_constructor {h : TabHeap} (hr : DisciplinedRun h) (sons : List Nat) (flag : Bool)
    (hs : ∀ s ∈ sons, ∃ st, h[s]? = some st ∧ (st.built = true ∨ st.succ = [])) :
    ∃ h', tabRun h (sonTableOps h.length sons flag) = .ok h' ∧ DisciplinedRun h' ∧
      (∃ tab, h'[h.length]? = some tab ∧ (tab.built = true) ∧
        tab.iv = if flag then IV.concat 0 (sons.filterMap (fun s => h[s]?.map Tab.iv))
          else IV.empty) ∧
      ∀ (u : Nat) (tab : Tab), h[u]? = some tab → ∃ tab', h'[u]? = some tab' ∧ tab'.iv = tab.iv ∧
        ((tab.built = true ∨ tab.succ = []) → (tab'.built = true ∨ tab'.succ = [])) := by
  -- create and first hash
  let f := h.length
  let t1 : Tab := Tab.fresh.rehash
  have hstep1 : tabStep h .create = .ok (h ++ [Tab.fresh]) := rfl
  have hget1 : (h ++ [Tab.fresh])[f]? = some Tab.fresh := by simp [f]
  have hset1 : (h ++ [Tab.fresh]).set f t1 = h ++ [t1] := by
    simp [f]
  have hstep2 : tabStep (h ++ [Tab.fresh]) (.readHash f) = .ok (h ++ [t1]) := by
    simp only [tabStep, get_eq.2 hget1, Res.ok_bind, Res.pure_eq, Res.ok.injEq]
    exact hset1
  have r2 : DisciplinedRun (h ++ [t1]) := by
    refine .step (.readHash f) (.step .create hr trivial hstep1) ?_ hstep2
    intro tab ht
    rw [hget1] at ht; cases ht; right; rfl
  have hget2 : (h ++ [t1])[f]? = some t1 := by simp [f]
  have hlt : ∀ s ∈ sons, s < f := by
    intro s hs'
    obtain ⟨st, hst, _⟩ := hs s hs'
    exact (List.getElem?_eq_some_iff.1 hst).1
  have hold : ∀ (u : Nat) (tab : Tab), h[u]? = some tab → (h ++ [t1])[u]? = some tab := by
    intro u tab hu
    rw [List.getElem?_append_left (List.getElem?_eq_some_iff.1 hu).1]; exact hu
  obtain ⟨h3, hrun3, ⟨ft, hft, hftiv, hftsucc, hftcold⟩, hlen3, hoth3⟩ :=
    connects_run (f := f) sons hget2 (fun s hs' => by
      obtain ⟨st, hst, _⟩ := hs s hs'
      exact ⟨st, hold s st hst, by have := hlt s hs'; omega⟩)
  have run_disc : ∀ (ss : List Nat) (g g' : TabHeap), (∀ s ∈ ss, s < f) → DisciplinedRun g →
      tabRun g (ss.map (fun s => .connect f s false)) = .ok g' → DisciplinedRun g' := by
    intro ss
    induction ss with
    | nil => intro g g' _ hg hrun; simp [tabRun] at hrun; subst hrun; exact hg
    | cons s ss ih =>
      intro g g' hss hg hrun
      simp only [List.map_cons, tabRun, Res.bind_eq_ok] at hrun
      obtain ⟨g1, hs1, hrun⟩ := hrun
      exact ih g1 g' (fun x hx => hss x (by simp [hx]))
        (.step (.connect f s false) hg (hss s (by simp)) hs1) hrun
  have r3 := run_disc sons _ h3 hlt r2 hrun3
  have hpre : tabRun h (([.create, .readHash f] : List TabOp) ++
      sons.map (fun s => .connect f s false)) = .ok h3 := by
    rw [tabRun_append]
    simp only [tabRun, hstep1, Res.ok_bind, hstep2]
    exact hrun3
  have hfl : f < h3.length := (List.getElem?_eq_some_iff.1 hft).1
  have ft_iv : ft.iv = IV.empty := by rw [hftiv]; decide +kernel
  have ft_succ : ft.succ = sons := by rw [hftsucc]; rfl
  have hold3 : ∀ (u : Nat) (tab : Tab), h[u]? = some tab → h3[u]? = some tab := by
    intro u tab hu
    have : u < f := (List.getElem?_eq_some_iff.1 hu).1
    rw [hoth3 u (by omega)]; exact hold u tab hu
  unfold sonTableOps
  rw [tabRun_append, hpre]
  simp only [Res.ok_bind]
  cases flag with
  | false =>
    have hstep4 : tabStep h3 (.markBuilt f) = .ok (h3.set f { ft with built := true }) := by
      simp [tabStep, get_eq.2 hft]
    refine ⟨h3.set f { ft with built := true }, ?_, .step (.markBuilt f) r3 trivial hstep4, ?_, ?_⟩
    · simp only [Bool.false_eq_true, if_false, tabRun]
      rw [hstep4]; rfl
    · refine ⟨_, List.getElem?_set_self hfl, rfl, ?_⟩
      simp only [Bool.false_eq_true, if_false]
      simpa [Tab.iv] using ft_iv
    · intro u tab hu
      have : u < f := (List.getElem?_eq_some_iff.1 hu).1
      exact ⟨tab, by rw [List.getElem?_set_ne (by omega)]; exact hold3 u tab hu, rfl, id⟩
  | true =>
    have hfi : ft.indices = [] ∧ ft.positions = [] := by simpa [Tab.iv, IV.empty] using ft_iv
    by_cases hnil : sons = []
    · -- no sons: the table stays empty
      obtain ⟨h4, hb, hsame, hoth4⟩ := buildF_settled hft (.inr (by rw [ft_succ, hnil])) 1
      have hstep4 : tabStep h3 (.build 2 false f) = .ok h4 := hb
      refine ⟨h4, ?_, .step (.build 2 false f) r3 rfl hstep4, ?_, ?_⟩
      · simp only [if_true, tabRun]; rw [hstep4]; rfl
      · obtain ⟨tab', hg', hiv', hsu', _⟩ := hsame f ft hft
        refine ⟨tab', hg', ?_, by simp [hiv', ft_iv, hnil, IV.concat]⟩
        simp only [buildF, get_eq.2 hft, Res.ok_bind, Bool.not_false, Bool.true_and] at hb
        split at hb
        · next hbt =>
          simp at hb; subst hb
          rw [hft] at hg'; cases hg'; exact hbt
        · simp only [ft_succ, hnil, ne_eq, not_true_eq_false, if_false, buildLoop, Res.ok_bind,
            get_eq.2 hft, Res.pure_eq, Res.ok.injEq] at hb
          subst hb
          rw [List.getElem?_set_self hfl] at hg'; cases hg'; simp
      · intro u tab hu
        obtain ⟨tab', hg', hiv', _, hk⟩ := hsame u tab (hold3 u tab hu)
        exact ⟨tab', hg', hiv', hk⟩
    · obtain ⟨hcold, hbf⟩ := hftcold hnil
      have hset : h3.set f { ft with indices := [], positions := [], built := false, succ := sons } = h3 := by
        have : ({ ft with indices := [], positions := [], built := false, succ := sons } : Tab) = ft := by
          obtain ⟨a, b, c, d, e, g, k⟩ := ft
          simp only at hfi hbf ft_succ
          rw [hfi.1, hfi.2, hbf, ft_succ]
        rw [this]
        apply List.ext_getElem?
        intro i
        rw [List.getElem?_set]
        split
        · next he => subst he; simp [hfl] at hft ⊢; exact hft.symm
        · rfl
      obtain ⟨h4, hloop, hlen4, hoth4, ft4, e1, e2, e3, e4⟩ := buildLoop_settled (f := f) 0 sons 0 hft
        (by
          intro s hs'
          obtain ⟨st, hst, hk⟩ := hs s hs'
          exact ⟨st, hold3 s st hst, hk, by have := hlt s hs'; omega⟩)
      have hfl4 : f < h4.length := by omega
      have hstep4 : tabStep h3 (.build 2 false f) =
          .ok (h4.set f ({ ft4 with built := true }.rehash)) := by
        simp only [tabStep]
        rw [buildF]
        simp only [get_eq.2 hft, Res.ok_bind, Bool.not_false, Bool.true_and, hbf,
          Bool.false_eq_true, if_false, ft_succ, ne_eq, hnil, not_false_eq_true, if_true]
        rw [hset, hloop]
        simp [get_eq.2 e1]
      refine ⟨_, ?_, .step (.build 2 false f) r3 rfl hstep4, ?_, ?_⟩
      · simp only [if_true, tabRun]; rw [hstep4]; rfl
      · refine ⟨_, List.getElem?_set_self hfl4, by simp, ?_⟩
        have hmap : sons.filterMap (fun s => h3[s]?.map Tab.iv) =
            sons.filterMap (fun s => h[s]?.map Tab.iv) := by
          apply List.filterMap_congr
          intro u hu
          obtain ⟨ut, hut, _⟩ := hs u hu
          rw [hut, hold3 u ut hut]
        rw [hmap, hfi.1] at e2
        rw [hmap, hfi.2] at e3
        simp [Tab.iv, e2, e3]
      · intro u tab hu
        have : u < f := (List.getElem?_eq_some_iff.1 hu).1
        obtain ⟨tab', hg', hiv', _, hk⟩ := hoth4 u tab (by omega) (hold3 u tab hu)
        exact ⟨tab', by rw [List.getElem?_set_ne (by omega)]; exact hg', hiv', hk⟩

/-- Two variable tables with indices 4 and 3. -/
def twoTables : TabHeap := [⟨[4], [[]], none, 0, false, false, []⟩, ⟨[3], [[]], none, 0, false, false, []⟩]

theorem twoTables_run : DisciplinedRun twoTables :=
  .step (.add 1 3 []) (.step .create (.step (.add 0 4 []) (.step .create .start trivial rfl) rfl rfl)
    trivial rfl) rfl rfl

example : ∃ h', tabRun twoTables (sonTableOps 2 [0, 1, 0] true) = .ok h' ∧
    Reports h' 2 ⟨[4, 3, 4], [[0], [1], [2]], some [1, 0, 1], Tab.hashVal [1, 0, 1], true, true, [0, 1, 0]⟩ := by
  obtain ⟨h', hrun, hd, ⟨tab, ht, _⟩, _⟩ := C28_constructor twoTables_run [0, 1, 0] true (by
    intro s hs
    simp only [List.mem_cons, List.not_mem_nil, or_false] at hs
    rcases hs with rfl | rfl | rfl
    · exact ⟨_, rfl, .inr rfl⟩
    · exact ⟨_, rfl, .inr rfl⟩
    · exact ⟨_, rfl, .inr rfl⟩)
  refine ⟨h', hrun, ?_⟩
  have h2 : tabRun twoTables (sonTableOps 2 [0, 1, 0] true) =
    .ok [⟨[4], [[]], some [0], Tab.hashVal [0], true, true, []⟩,
      ⟨[3], [[]], some [0], Tab.hashVal [0], true, true, []⟩,
      ⟨[4, 3, 4], [[0], [1], [2]], some [1, 0, 1], Tab.hashVal [1, 0, 1], true, true, [0, 1, 0]⟩] := by
    decide +kernel
  have h3 := hrun.symm.trans h2
  rw [Res.ok.injEq] at h3
  subst h3
  exact C28_fresh_partial hd rfl

end Cnars.Props
