import Verif.Narsese.IndexVar

/-!
Helper lemmas: the invariant of disciplined histories of index tables, and the relation between
the tables and the values `IV` used in `Term.lean`.
-/

namespace Cnars
open TabHeap

namespace Tab

/-- What is cached is right. -/
def Fresh (t : Tab) : Prop :=
  (∀ n, t.norm = some n → n = normalize t.indices) ∧
  (t.hashed = true → t.hash = hashVal (normalize t.indices))

/-- Nothing is cached. -/
def Cold (t : Tab) : Prop := t.norm = none ∧ t.hashed = false

/-- Nothing is cached about lists that `build` is still going to compute. -/
def Ready (t : Tab) : Prop := t.built = false → t.succ ≠ [] → t.Cold

theorem Cold.isFresh {t : Tab} (h : t.Cold) : t.Fresh := by
  obtain ⟨a, b⟩ := h
  exact ⟨by simp [a], by simp [b]⟩

theorem cacheNorm_norm {t : Tab} (h : t.Fresh) : t.cacheNorm.norm = some (normalize t.indices) := by
  unfold cacheNorm
  split
  · next n hn => rw [hn, h.1 n hn]
  · rfl

@[simp] theorem cacheNorm_indices (t : Tab) : t.cacheNorm.indices = t.indices := by
  unfold cacheNorm; split <;> rfl
@[simp] theorem cacheNorm_positions (t : Tab) : t.cacheNorm.positions = t.positions := by
  unfold cacheNorm; split <;> rfl
@[simp] theorem cacheNorm_succ (t : Tab) : t.cacheNorm.succ = t.succ := by
  unfold cacheNorm; split <;> rfl
@[simp] theorem cacheNorm_built (t : Tab) : t.cacheNorm.built = t.built := by
  unfold cacheNorm; split <;> rfl
@[simp] theorem cacheNorm_hash (t : Tab) : t.cacheNorm.hash = t.hash := by
  unfold cacheNorm; split <;> rfl
@[simp] theorem cacheNorm_hashed (t : Tab) : t.cacheNorm.hashed = t.hashed := by
  unfold cacheNorm; split <;> rfl

@[simp] theorem rehash_indices (t : Tab) : t.rehash.indices = t.indices := by
  unfold rehash doHash; split <;> simp
@[simp] theorem rehash_positions (t : Tab) : t.rehash.positions = t.positions := by
  unfold rehash doHash; split <;> simp
@[simp] theorem rehash_succ (t : Tab) : t.rehash.succ = t.succ := by
  unfold rehash doHash; split <;> simp
@[simp] theorem rehash_built (t : Tab) : t.rehash.built = t.built := by
  unfold rehash doHash; split <;> simp

theorem Fresh.cacheNorm {t : Tab} (h : t.Fresh) : t.cacheNorm.Fresh := by
  refine ⟨?_, ?_⟩
  · intro n hn; rw [cacheNorm_norm h] at hn; simpa using hn.symm
  · simpa using h.2

theorem Fresh.rehash_hash {t : Tab} (h : t.Fresh) : t.rehash.hash = hashVal (normalize t.indices) := by
  unfold rehash
  split
  · next hh => exact h.2 hh
  · simp [doHash, cacheNorm_norm h]

theorem Fresh.rehash {t : Tab} (h : t.Fresh) : t.rehash.Fresh := by
  refine ⟨?_, ?_⟩
  · intro n hn
    unfold Tab.rehash at hn
    split at hn
    · rw [rehash_indices]; exact h.1 n hn
    · simp [doHash, cacheNorm_norm h] at hn; simp [hn]
  · intro _; rw [h.rehash_hash, rehash_indices]

end Tab

/-- The invariant: every table is right, nothing is cached too early, and successors are older. -/
def TabInv (h : TabHeap) : Prop :=
  ∀ (t : Nat) (tab : Tab), h[t]? = some tab → tab.Fresh ∧ tab.Ready ∧ ∀ s ∈ tab.succ, s < t

theorem get_eq {h : TabHeap} {t : Nat} {tab : Tab} : h.get t = .ok tab ↔ h[t]? = some tab := by
  unfold TabHeap.get
  cases h[t]? <;> simp

theorem TabInv.set {h : TabHeap} {t : Nat} {tab : Tab} (hi : TabInv h)
    (hf : tab.Fresh) (hr : tab.Ready) (hs : ∀ s ∈ tab.succ, s < t) : TabInv (h.set t tab) := by
  intro u utab hu
  rw [List.getElem?_set] at hu
  split at hu
  · next he =>
    subst he
    split at hu
    · cases hu; exact ⟨hf, hr, hs⟩
    · cases hu
  · exact hi u utab hu

theorem TabInv.push {h : TabHeap} {tab : Tab} (hi : TabInv h)
    (hf : tab.Fresh) (hr : tab.Ready) (hs : tab.succ = []) : TabInv (h ++ [tab]) := by
  intro u utab hu
  rw [List.getElem?_append] at hu
  split at hu
  · exact hi u utab hu
  · rw [List.getElem?_singleton] at hu
    split at hu
    · cases hu; exact ⟨hf, hr, by simp [hs]⟩
    · cases hu

/-- Everything above `t` is left alone. -/
def SameAbove (t : Nat) (h h' : TabHeap) : Prop := ∀ u, t < u → h'[u]? = h[u]?

/-- `build` keeps the invariant, touches nothing younger than its argument, and does not change
the graph. -/
theorem buildF_inv (n : Nat) : ∀ {h h' : TabHeap} {t : Nat}, TabInv h →
    buildF n false h t = .ok h' → TabInv h' ∧ SameAbove t h h' ∧ h'.length = h.length := by
  induction n with
  | zero => intro h h' t _ hb; simp [buildF] at hb
  | succ n ih =>
    intro h h' t hi hb
    simp only [buildF, Res.bind_eq_ok, Bool.not_false, Bool.true_and] at hb
    obtain ⟨tab, hget, hb⟩ := hb
    rw [get_eq] at hget
    obtain ⟨hf, hr, hlt⟩ := hi t tab hget
    have htl : t < h.length := (List.getElem?_eq_some_iff.1 hget).1
    split at hb
    · simp at hb; subst hb; exact ⟨hi, fun _ _ => rfl, rfl⟩
    · next hnb =>
      have hnb : tab.built = false := by simpa using hnb
      rw [Res.bind_eq_ok] at hb
      obtain ⟨h2, hloop, hb⟩ := hb
      by_cases hsucc : tab.succ = []
      · simp only [hsucc, ne_eq, not_true_eq_false, if_false, buildLoop, Res.ok.injEq] at hloop
        subst hloop
        rw [get_eq.2 hget] at hb
        simp only [Res.ok_bind, Res.pure_eq, Res.ok.injEq] at hb
        subst hb
        refine ⟨hi.set ?_ ?_ (by simpa using hlt), ?_, by simp⟩
        · exact Tab.Fresh.rehash (t := { tab with built := true }) hf
        · intro hbb; simp at hbb
        · intro u hu
          rw [List.getElem?_set]
          split
          · omega
          · rfl
      · have hcold := hr hnb hsucc
        -- the loop
        have loop : ∀ (ss : List Nat) (g g' : TabHeap) (b : Nat), (∀ s ∈ ss, s < t) → TabInv g →
            (∃ tt, g[t]? = some tt ∧ tt.Cold ∧ tt.built = false ∧ tt.succ = tab.succ) →
            buildLoop (buildF n false) g t b ss = .ok g' →
            TabInv g' ∧ SameAbove t g g' ∧ g'.length = g.length ∧
            ∃ tt, g'[t]? = some tt ∧ tt.Cold ∧ tt.built = false ∧ tt.succ = tab.succ := by
          intro ss
          induction ss with
          | nil =>
            intro g g' b _ hg ht hl
            simp only [buildLoop, Res.ok.injEq] at hl; subst hl
            exact ⟨hg, fun _ _ => rfl, rfl, ht⟩
          | cons s ss ihs =>
            intro g g' b hss hg ⟨tt, htt, hc, hbu, hsu⟩ hl
            simp only [buildLoop, Res.bind_eq_ok] at hl
            obtain ⟨g1, hr1, g2, happ, hl⟩ := hl
            obtain ⟨i1, a1, l1⟩ := ih hg hr1
            have hst : s < t := hss s (by simp)
            have htt1 : g1[t]? = some tt := by rw [a1 t hst]; exact htt
            simp only [append, Res.bind_eq_ok, Res.pure_eq, Res.ok.injEq] at happ
            obtain ⟨st, hgs, tt', hgt, happ⟩ := happ
            rw [get_eq, htt1] at hgt
            cases hgt
            have htl1 : t < g1.length := (List.getElem?_eq_some_iff.1 htt1).1
            have i2 : TabInv g2 := by
              subst happ
              refine i1.set ?_ ?_ ?_
              · exact Tab.Cold.isFresh ⟨hc.1, hc.2⟩
              · intro _ _; exact ⟨hc.1, hc.2⟩
              · exact (i1 t tt htt1).2.2
            have ht2 : ∃ tt, g2[t]? = some tt ∧ tt.Cold ∧ tt.built = false ∧ tt.succ = tab.succ := by
              subst happ
              exact ⟨_, List.getElem?_set_self htl1, ⟨hc.1, hc.2⟩, hbu, hsu⟩
            have a2 : SameAbove t g1 g2 := by
              subst happ
              intro u hu
              rw [List.getElem?_set_ne (by omega)]
            have l2 : g2.length = g1.length := by subst happ; simp
            obtain ⟨i3, a3, l3, t3⟩ := ihs g2 g' (b + 1) (fun x hx => hss x (by simp [hx])) i2 ht2 hl
            refine ⟨i3, ?_, by omega, t3⟩
            intro u hu
            rw [a3 u hu, a2 u hu, a1 u (by omega)]
        simp only [ne_eq, hsucc, not_false_eq_true, if_true] at hloop
        obtain ⟨i2, a2, l2, tt, htt, hc, hbu, hsu⟩ := loop tab.succ _ h2 0 hlt
          (hi.set (tab := { tab with indices := [], positions := [] })
            (Tab.Cold.isFresh ⟨hcold.1, hcold.2⟩) (fun _ _ => ⟨hcold.1, hcold.2⟩) hlt)
          ⟨_, List.getElem?_set_self htl, ⟨hcold.1, hcold.2⟩, hnb, rfl⟩ hloop
        rw [get_eq.2 htt] at hb
        simp only [Res.ok_bind, Res.pure_eq, Res.ok.injEq] at hb
        subst hb
        refine ⟨i2.set ?_ ?_ ?_, ?_, by simpa using l2⟩
        · exact Tab.Fresh.rehash (t := { tt with built := true }) (Tab.Cold.isFresh ⟨hc.1, hc.2⟩)
        · intro hbb; simp at hbb
        · simpa using (i2 t tt htt).2.2
        · intro u hu
          rw [List.getElem?_set_ne (by omega), a2 u hu, List.getElem?_set_ne (by omega)]

/-- `build` terminates, with recursion no deeper than the age of the table. -/
theorem buildF_total (n : Nat) : ∀ {h : TabHeap} {t : Nat}, TabInv h → t < h.length → t < n →
    ∃ h', buildF n false h t = .ok h' := by
  induction n with
  | zero => intro h t _ _ hn; omega
  | succ n ih =>
    intro h t hi htl hn
    obtain ⟨tab, hget⟩ : ∃ tab, h[t]? = some tab := ⟨h[t], by simp [htl]⟩
    obtain ⟨hf, hr, hlt⟩ := hi t tab hget
    simp only [buildF, get_eq.2 hget, Res.ok_bind, Bool.not_false, Bool.true_and]
    split
    · exact ⟨h, rfl⟩
    · next hnb =>
      have hnb : tab.built = false := by simpa using hnb
      by_cases hsucc : tab.succ = []
      · simp [hsucc, buildLoop, get_eq.2 hget]
      · have hcold := hr hnb hsucc
        have loop : ∀ (ss : List Nat) (g : TabHeap) (b : Nat), (∀ s ∈ ss, s < t) → TabInv g →
            t < g.length → (∃ tt, g[t]? = some tt ∧ tt.Cold) →
            ∃ g', buildLoop (buildF n false) g t b ss = .ok g' ∧ t < g'.length := by
          intro ss
          induction ss with
          | nil => intro g b _ _ hl _; exact ⟨g, rfl, hl⟩
          | cons s ss ihs =>
            intro g b hss hg hl ⟨tt, htt, hc⟩
            have hst : s < t := hss s (by simp)
            obtain ⟨g1, hr1⟩ := ih (t := s) hg (by omega) (by omega)
            obtain ⟨i1, a1, l1⟩ := buildF_inv n hg hr1
            have htt1 : g1[t]? = some tt := by rw [a1 t hst]; exact htt
            obtain ⟨st, hst'⟩ : ∃ st, g1[s]? = some st := ⟨g1[s]'(by omega), by simp⟩
            have htl1 : t < g1.length := by omega
            obtain ⟨g', hg', hl'⟩ := ihs
              (g1.set t { tt with
                indices := tt.indices ++ st.indices
                positions := tt.positions ++ st.positions.map (b :: ·) }) (b + 1)
              (fun x hx => hss x (by simp [hx]))
              (i1.set (Tab.Cold.isFresh ⟨hc.1, hc.2⟩) (fun _ _ => ⟨hc.1, hc.2⟩)
                (i1 t tt htt1).2.2)
              (by simpa using htl1)
              ⟨_, List.getElem?_set_self htl1, ⟨hc.1, hc.2⟩⟩
            refine ⟨g', ?_, hl'⟩
            simp [buildLoop, hr1, append, get_eq.2 hst', get_eq.2 htt1, hg']
        obtain ⟨g', hg', hl'⟩ := loop tab.succ (h.set t { tab with indices := [], positions := [] }) 0
          hlt (hi.set (Tab.Cold.isFresh ⟨hcold.1, hcold.2⟩) (fun _ _ => ⟨hcold.1, hcold.2⟩) hlt)
          (by simpa using htl) ⟨_, List.getElem?_set_self htl, ⟨hcold.1, hcold.2⟩⟩
        obtain ⟨tt, htt⟩ : ∃ tt, g'[t]? = some tt := ⟨g'[t], by simp [hl']⟩
        simp [hsucc, hg', get_eq.2 htt]

/-! ## The tables of a new statement or compound -/

/-- The lists of a table, as the value used in `Term.lean`. -/
def Tab.iv (t : Tab) : IV := ⟨t.indices, t.positions⟩

/-- A table whose lists `build` leaves alone. -/
def Tab.Settled (t : Tab) : Prop := t.built = true ∨ t.succ = []

/-- Two heaps with the same lists and graph, in which settled tables stay settled. -/
def SameLists (h h' : TabHeap) : Prop :=
  ∀ (u : Nat) (tab : Tab), h[u]? = some tab → ∃ tab', h'[u]? = some tab' ∧ tab'.iv = tab.iv ∧
    tab'.succ = tab.succ ∧ (tab.Settled → tab'.Settled)

theorem SameLists.refl (h : TabHeap) : SameLists h h := fun _ tab hu => ⟨tab, hu, rfl, rfl, id⟩

theorem SameLists.trans {a b c : TabHeap} (h1 : SameLists a b) (h2 : SameLists b c) :
    SameLists a c := by
  intro u tab hu
  obtain ⟨t1, g1, i1, s1, k1⟩ := h1 u tab hu
  obtain ⟨t2, g2, i2, s2, k2⟩ := h2 u t1 g1
  exact ⟨t2, g2, i2.trans i1, s2.trans s1, fun h => k2 (k1 h)⟩

theorem buildF_settled {h : TabHeap} {s : Nat} {tab : Tab} (hs : h[s]? = some tab)
    (hset : tab.Settled) (n : Nat) : ∃ h', buildF (n + 1) false h s = .ok h' ∧ SameLists h h' ∧
      ∀ u, u ≠ s → h'[u]? = h[u]? := by
  have hl : s < h.length := (List.getElem?_eq_some_iff.1 hs).1
  simp only [buildF, get_eq.2 hs, Res.ok_bind, Bool.not_false, Bool.true_and]
  split
  · exact ⟨h, rfl, SameLists.refl h, fun _ _ => rfl⟩
  · next hnb =>
    have hsucc : tab.succ = [] := by
      rcases hset with h1 | h1
      · exact absurd h1 hnb
      · exact h1
    simp only [hsucc, ne_eq, not_true_eq_false, if_false, buildLoop, Res.ok_bind, get_eq.2 hs,
      Res.pure_eq, Res.ok.injEq, exists_eq_left']
    refine ⟨?_, fun u hu => List.getElem?_set_ne (by omega)⟩
    intro u utab hu
    by_cases he : u = s
    · subst he
      rw [hs] at hu; cases hu
      refine ⟨_, List.getElem?_set_self hl, ?_, ?_, ?_⟩
      · simp [Tab.iv]
      · simp [hsucc]
      · intro _; left; simp
    · exact ⟨utab, by rw [List.getElem?_set_ne (by omega)]; exact hu, rfl, rfl, id⟩

/-- The history of one index table in the constructors of statements and compounds
(Term.h:180-194, Term.inl:16-42): create, hash while empty, connect to the sons' tables, then build
or mark as built. -/
def sonTableOps (f : Nat) (sons : List Nat) (flag : Bool) : List TabOp :=
  [.create, .readHash f] ++ sons.map (fun s => .connect f s false) ++
    [if flag then .build 2 false f else .markBuilt f]

theorem tabRun_append (h : TabHeap) (a b : List TabOp) :
    tabRun h (a ++ b) = (tabRun h a >>= fun h => tabRun h b) := by
  induction a generalizing h with
  | nil => rfl
  | cons op a ih => simp [tabRun, ih]

theorem connects_run {f : Nat} (sons : List Nat) : ∀ {h : TabHeap} {ft : Tab}, h[f]? = some ft →
    (∀ s ∈ sons, ∃ st, h[s]? = some st ∧ s ≠ f) →
    ∃ h', tabRun h (sons.map (fun s => .connect f s false)) = .ok h' ∧
      (∃ ft', h'[f]? = some ft' ∧ ft'.iv = ft.iv ∧ ft'.succ = ft.succ ++ sons ∧
        (sons ≠ [] → ft'.Cold ∧ ft'.built = false)) ∧
      h'.length = h.length ∧ ∀ u, u ≠ f → h'[u]? = h[u]? := by
  induction sons with
  | nil =>
    intro h ft hf _
    exact ⟨h, rfl, ⟨ft, hf, rfl, by simp, by simp⟩, rfl, fun _ _ => rfl⟩
  | cons s ss ih =>
    intro h ft hf hs
    have hl : f < h.length := (List.getElem?_eq_some_iff.1 hf).1
    obtain ⟨st, hst, hne⟩ := hs s (by simp)
    have hf1 : (h.set f { ft with hashed := false, built := false, norm := none, succ := ft.succ ++ [s] })[f]? =
        some { ft with hashed := false, built := false, norm := none, succ := ft.succ ++ [s] } :=
      List.getElem?_set_self hl
    obtain ⟨h', hrun, ⟨ft', e1, e2, e3, e4⟩, hlen, hoth⟩ := ih hf1 (by
      intro u hu
      obtain ⟨ut, hut, hne'⟩ := hs u (by simp [hu])
      exact ⟨ut, by rw [List.getElem?_set_ne (by omega)]; exact hut, hne'⟩)
    refine ⟨h', ?_, ⟨ft', e1, e2, by simpa using e3, ?_⟩, by simpa using hlen, ?_⟩
    · simp [tabRun, tabStep, TabHeap.connect, get_eq.2 hf, get_eq.2 hst, hrun]
    · intro _
      cases ss with
      | nil =>
        simp only [List.map_nil, tabRun, Res.ok.injEq] at hrun
        subst hrun
        rw [hf1] at e1; cases e1
        exact ⟨⟨rfl, rfl⟩, rfl⟩
      | cons => exact e4 (by simp)
    · intro u hu
      rw [hoth u hu, List.getElem?_set_ne (by omega)]

theorem buildLoop_settled {f : Nat} (n : Nat) (sons : List Nat) : ∀ {h : TabHeap} {ft : Tab} (b : Nat),
    h[f]? = some ft → (∀ s ∈ sons, ∃ st, h[s]? = some st ∧ st.Settled ∧ s ≠ f) →
    ∃ h', buildLoop (buildF (n + 1) false) h f b sons = .ok h' ∧ h'.length = h.length ∧
      (∀ u tab, u ≠ f → h[u]? = some tab → ∃ tab', h'[u]? = some tab' ∧ tab'.iv = tab.iv ∧
        tab'.succ = tab.succ ∧ (tab.Settled → tab'.Settled)) ∧
      ∃ ft', h'[f]? = some ft' ∧
        ft'.indices = ft.indices ++ (IV.concat b (sons.filterMap (fun s => h[s]?.map Tab.iv))).indices ∧
        ft'.positions =
          ft.positions ++ (IV.concat b (sons.filterMap (fun s => h[s]?.map Tab.iv))).positions ∧
        ft'.succ = ft.succ := by
  induction sons with
  | nil =>
    intro h ft b hf _
    exact ⟨h, rfl, rfl, fun u tab _ hu => ⟨tab, hu, rfl, rfl, id⟩, ft, hf,
      by simp [IV.concat, IV.empty], by simp [IV.concat, IV.empty], rfl⟩
  | cons s ss ih =>
    intro h ft b hf hs
    obtain ⟨st, hst, hset, hne⟩ := hs s (by simp)
    obtain ⟨h1, hb, hsame, hoth⟩ := buildF_settled hst hset n
    have hl1 : h1.length = h.length := by
      have : ∀ u, u < h.length ↔ u < h1.length := by
        intro u
        constructor
        · intro hu
          obtain ⟨t', ht', _⟩ := hsame u h[u] (by simp [hu])
          exact (List.getElem?_eq_some_iff.1 ht').1
        · intro hu
          by_cases he : u = s
          · subst he; exact (List.getElem?_eq_some_iff.1 hst).1
          · have := hoth u he
            rw [List.getElem?_eq_getElem hu] at this
            exact (List.getElem?_eq_some_iff.1 this.symm).1
      have h1' := this h.length
      have h2' := this h1.length
      omega
    obtain ⟨st1, hst1, hiv1, _, _⟩ := hsame s st hst
    have hf1 : h1[f]? = some ft := by rw [hoth f (Ne.symm hne)]; exact hf
    have hfl1 : f < h1.length := (List.getElem?_eq_some_iff.1 hf1).1
    let ft2 : Tab := { ft with
        indices := ft.indices ++ st1.indices, positions := ft.positions ++ st1.positions.map (b :: ·) }
    have hf2 : (h1.set f ft2)[f]? = some ft2 := List.getElem?_set_self hfl1
    obtain ⟨h', hrun, hlen, hothers, ft', e1, e2, e3, e4⟩ := ih (b + 1) hf2 (by
      intro u hu
      obtain ⟨ut, hut, huset, hune⟩ := hs u (by simp [hu])
      obtain ⟨ut', hut', _, _, hk⟩ := hsame u ut hut
      exact ⟨ut', by rw [List.getElem?_set_ne (by omega)]; exact hut', hk huset, hune⟩)
    have hmap : ss.filterMap (fun s => (h1.set f ft2)[s]?.map Tab.iv) =
        ss.filterMap (fun s => h[s]?.map Tab.iv) := by
      apply List.filterMap_congr
      intro u hu
      obtain ⟨ut, hut, _, hune⟩ := hs u (by simp [hu])
      obtain ⟨ut', hut', hivu, _, _⟩ := hsame u ut hut
      rw [List.getElem?_set_ne (by omega), hut, hut']
      simp [hivu]
    rw [hmap] at e2 e3
    have hiv : st1.indices = st.indices ∧ st1.positions = st.positions := by
      simpa [Tab.iv] using hiv1
    refine ⟨h', ?_, by simpa [hl1] using hlen, ?_, ft', e1, ?_, ?_, e4⟩
    · simp only [buildLoop, hb, Res.ok_bind, append, get_eq.2 hst1, get_eq.2 hf1, Res.pure_eq]
      exact hrun
    · intro u tab hu htab
      obtain ⟨t1, g1, i1, s1, k1⟩ := hsame u tab htab
      obtain ⟨t2, g2, i2, s2, k2⟩ := hothers u t1 hu (by
        rw [List.getElem?_set_ne (by omega)]; exact g1)
      exact ⟨t2, g2, i2.trans i1, s2.trans s1, fun h => k2 (k1 h)⟩
    · rw [e2]; simp [ft2, hst, IV.concat, Tab.iv, hiv.1]
    · rw [e3]; simp [ft2, hst, IV.concat, Tab.iv, hiv.2]

end Cnars
