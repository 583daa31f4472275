import Verif.Parser.NodesLemmas

/-!
# The driver on linked nodes does what the driver on lists does

Helper lemmas: no node is lost when a right-hand side is dropped (`keeps_of_sim`), and the two models
of the loops run in step (`run_nodes`).
-/

namespace Cnars.Parser

/-- No link to further nodes is overwritten while `n` entries are dropped. -/
def Keeps : Nat → List Entry → List Ast → Prop
  | 0, _, _ => True
  | _ + 1, [], _ => True
  | n + 1, e :: st, acc => (acc = [] ∨ e.nodes.length ≤ 1) ∧ Keeps n st (e.nodes ++ acc)

theorem keeps_seg {T : Tables} {C : Cert} (hT : TablesOk T C) {es1 : List Entry}
    {ts1 : List PTree} {up up2 : List Ast} (hs : Seg T es1 ts1 up up2) :
    ∀ (es2 : List Entry) (acc : List Ast) (upw accw : Nat),
      (∀ t ∈ ts1, t.Valid T (LexTok T)) → widthOk C (ts1.map (PTree.root T)) upw accw →
      LeW up.length upw → LeW acc.length accw → Keeps es1.length (es1 ++ es2) acc := by
  induction hs with
  | nil => intros; trivial
  | @cons e es t ts up up2 hs hn ih =>
    intro es2 acc upw accw hv hw hup hacc
    obtain ⟨ho, hl⟩ := own_width hT (hv t (by simp))
    simp only [List.map_cons, widthOk] at hw
    have hlen : LeW e.nodes.length ((if t.root T < firstNT then C.w (t.root T) else 0) + upw) := by
      rw [hn, List.length_append]; exact ho.add hup
    refine ⟨?_, ih es2 (e.nodes ++ acc) _ _ (fun x hx => hv x (by simp [hx])) hw.2 hl
      (by rw [List.length_append, Nat.add_comm]; exact hacc.add hlen)⟩
    rcases hw.1 with h | h
    · left
      unfold LeW at hacc
      apply List.eq_nil_of_length_eq_zero; omega
    · right; unfold LeW at hlen; omega

/-- A reduction that is due keeps all nodes. -/
def KeepsAll (T : Tables) (s : St) : Prop :=
  s.act % 2 = 1 → ∀ p, T.prods[s.idx]? = some p → Keeps p.length s.stack []

theorem keeps_of_sim {T : Tables} {C : Cert} (hT : TablesOk T C) {s : St} {c : PC}
    {l : List WChar} (h : Sim T C s c l) : KeepsAll T s := by
  intro ha p hp'
  have hred : c.red = some s.idx := by rw [h.red, follow, if_pos ha]
  obtain ⟨hp, es1, es2, ts1, ts2, up2, r, h1, h2, h3, h4, h5, h6, h7, h8, h9⟩ :=
    ready_split hT h.chain h.states (h.ready _ hred)
  obtain ⟨info, hi1, hi2, hi3, hi4⟩ := prodInfo hT hp
  obtain rfl : p = info := by rw [hp'] at hi1; simpa using hi1
  have hwid := (hT.prods _ hp).2.2.2
  have hrev : ts1.map (PTree.root T) = (rhsOf T s.idx).reverse := by
    rw [← h4]; simp
  rw [h1, hi2, ← h3]
  exact keeps_seg hT h5 es2 [] 0 0 h6 (by rw [hrev]; exact hwid) (by simp [LeW]) (by simp [LeW])

/-- The invariant, for either setting of `strict`. -/
def Inv (T : Tables) (C : Cert) (s : St) : Prop := ∃ s2 c l, StRel s s2 ∧ Sim T C s2 c l

theorem Inv.keeps {T : Tables} {C : Cert} (hT : TablesOk T C) {s : St} (h : Inv T C s) :
    KeepsAll T s := by
  obtain ⟨s2, c, l, ⟨h1, h2, h3, h4, h5, h6, h7⟩, hs⟩ := h
  have := keeps_of_sim hT hs
  unfold KeepsAll at this ⊢
  rwa [h1, h4, h5]

theorem Inv.step {T : Tables} {C : Cert} {S : List Nat} (hT : TablesOk T C) (hS : EofOk T S)
    {s s' : St} (h : Inv T C s) {strict : Bool} (hs : step T strict s = .ok (.go s')) :
    Inv T C s' := by
  obtain ⟨s2, c, l, hr, hsim⟩ := h
  obtain ⟨o, h1, h2, _⟩ := step_sim hT hS hsim
  have hf : Flags true strict false := by cases strict <;> simp [Flags]
  have := step_rel hf (T := T) hr
  rw [hs, h1] at this
  generalize pstep T c = po at h2
  cases h2 with
  | @go s3 c' l' h' => exact ⟨s3, c', l', this, h'⟩
  | accept => simp [Res.Rel, OutRel] at this
  | reject => simp [Res.Rel, OutRel] at this

namespace Nodes
open Cnars

/-- The entries of the stack have the node lists of the other model. -/
inductive StackRep (cells : Cells) : List PEntry → List Entry → List Nat → Prop where
  | nil : StackRep cells [] [] []
  | cons {e e' st st' fp fps} : e.state = e'.state → e.sym = e'.sym →
      Rep cells none e.node e'.nodes fp → StackRep cells st st' fps →
      StackRep cells (e :: st) (e' :: st') (fp ++ fps)

theorem StackRep.congr {cells cells' : Cells} {st st' fps} (h : StackRep cells st st' fps)
    (hc : ∀ a ∈ fps, cells' a = cells a) : StackRep cells' st st' fps := by
  induction h with
  | nil => exact .nil
  | cons h1 h2 h3 _ ih =>
    exact .cons h1 h2 (h3.congr fun a ha => hc a (by simp [ha])) (ih fun a ha => hc a (by simp [ha]))

theorem StackRep.length {cells : Cells} {st st' fps} (h : StackRep cells st st' fps) :
    st.length = st'.length := by
  induction h with
  | nil => rfl
  | cons _ _ _ _ ih => simp [ih]

theorem collect_keep {acc nodes : List Ast} (h : acc = [] ∨ nodes.length ≤ 1) :
    Parser.collect acc nodes = nodes ++ acc := collect_eq h

theorem popRhs_nodes : ∀ (n : Nat) {h0 h : Heap} {fa fps : List Nat} {acc : Option Nat}
    {as : List Ast} {st : List PEntry} {st' : List Entry},
    Since h0 h (fa ++ fps) → Rep h.cells none acc as fa → StackRep h.cells st st' fps →
    Keeps n st' as →
    Res.Rel false (fun (x : Option Nat × List PEntry × Heap) (y : List Ast × List Entry) =>
        ∃ fa' fps', Since h0 x.2.2 (fa' ++ fps') ∧ Rep x.2.2.cells none x.1 y.1 fa' ∧
          StackRep x.2.2.cells x.2.1 y.2 fps')
      (popRhs n st acc h) (Res.ofOption (Parser.popRhs n st' as))
  | 0, h0, h, fa, fps, acc, as, st, st', hs, hr, hst, _ => by
    simp only [popRhs, Parser.popRhs, Res.ofOption_some, Res.Rel]
    exact ⟨fa, fps, hs, hr, hst⟩
  | n + 1, h0, h, fa, fps, acc, as, st, st', hs, hr, hst, hk => by
    cases hst with
    | nil => simp [popRhs, Parser.popRhs, Res.Rel]
    | @cons e e' st st' fp fps h1 h2 h3 h4 =>
      simp only [Keeps] at hk
      rw [← List.append_assoc] at hs
      obtain ⟨q, h', e1, e2, e3, e4⟩ := collect_spec hs hr h3 hk.1
      simp only [popRhs, Parser.popRhs, e1, Res.ok_bind, collect_keep hk.1]
      exact popRhs_nodes n e2 e3 (h4.congr e4) hk.2

/-- The two control blocks. -/
structure StRep (h0 h : Heap) (s : PSt) (s' : St) : Prop where
  stack : ∃ fps, Since h0 h fps ∧ StackRep h.cells s.stack s'.stack fps
  stacksize : s.stacksize = s'.stacksize
  scan : s.scan = s'.scan
  act : s.act = s'.act
  idx : s.idx = s'.idx
  len : s.len = s'.len
  errorDelay : s.errorDelay = s'.errorDelay

/-- The two outcomes of a step. -/
def OutRep (h0 : Heap) : POut × Heap → Out → Prop
  | (.go s, h), .go s' => StRep h0 h s s'
  | (.accept p scan, h), .accept a scan' =>
    scan = scan' ∧ ∃ fp, Since h0 h fp ∧ Rep h.cells none p a fp
  | (.reject len scan, h), .reject len' scan' =>
    len = len' ∧ scan = scan' ∧ ∃ fp, Since h0 h fp ∧ ∀ a ∈ fp, h.cells a ≠ none
  | _, _ => False

theorem StackRep.live {cells : Cells} {st st' fps} (h : StackRep cells st st' fps) :
    ∀ a ∈ fps, cells a ≠ none := by
  induction h with
  | nil => simp
  | cons h1 h2 h3 _ ih =>
    intro a ha
    rcases List.mem_append.mp ha with ha | ha
    · exact h3.live a ha
    · exact ih a ha

theorem push_nodes {h0 h : Heap} {fp fps : List Nat} {e : PEntry} {e' : Entry} {st : List PEntry}
    {st' : List Entry} (strict : Bool) (n : Nat) (hs : Since h0 h (fp ++ fps))
    (h1 : e.state = e'.state) (h2 : e.sym = e'.sym) (h3 : Rep h.cells none e.node e'.nodes fp)
    (hst : StackRep h.cells st st' fps) :
    Res.Rel false (fun x y => ∃ fps', Since h0 h fps' ∧ StackRep h.cells x y fps')
      (push strict n e st) (Parser.push strict n e' st') := by
  unfold push Parser.push
  rw [hst.length]
  split
  · simp [Res.Rel]
  · exact ⟨_, hs, .cons h1 h2 h3 hst⟩

theorem reduceStep_nodes {T : Tables} {strict : Bool} {h0 h : Heap} {s : PSt} {s' : St}
    (hr : StRep h0 h s s') (hk : ∀ p, T.prods[s'.idx]? = some p → Keeps p.length s'.stack []) :
    Res.Rel false (OutRep h0) (reduceStep T strict s h) (Parser.reduceStep T strict s') := by
  obtain ⟨⟨fps, hs, hst⟩, h1, h2, h3, h4, h5, h6⟩ := hr
  unfold reduceStep Parser.reduceStep
  rw [h1, h2, h3, h4, h5]
  cases hp : T.prods[s'.idx]? with
  | none => simp [Res.Rel]
  | some p =>
    simp only [Res.ofOption_some, Res.ok_bind]
    refine Res.Rel.bind (popRhs_nodes p.length (fa := []) (by simpa using hs) .nil hst (hk p hp)) ?_
    rintro ⟨acc, st, h'⟩ ⟨as, st'⟩ ⟨fa, fps', e1, e2, e3⟩
    simp only at e1 e2 e3 ⊢
    cases e3 with
    | nil => simp [Res.Rel]
    | @cons e e' st st' fp fps g1 g2 g3 g4 =>
      have e1' : Since h0 h' (fp ++ fa ++ fps) := by
        refine e1.perm ?_
        rw [← List.append_assoc]
        exact List.perm_append_comm.append_right _
      obtain ⟨n1, h1', c1, c2, c3, c4⟩ := chain_spec e1' g3 e2
      obtain ⟨n2, h2', fq, d1, d2, d3, d4⟩ := wrap_spec c2 (emit := p.emit) c3
      have hst' : StackRep h2'.cells st st' fps := (g4.congr c4).congr d4
      have hb : (st.isEmpty = true) ↔ (st' = []) := by
        rw [List.isEmpty_iff, ← List.length_eq_zero_iff, ← List.length_eq_zero_iff, g4.length]
      simp only [c1, d1, Res.ok_bind, hb]
      split
      · refine Res.Rel.bind (Res.Rel.eq _) ?_
        rintro scan _ rfl
        refine ⟨rfl, fq, ?_, d3⟩
        rename_i hg
        obtain rfl := hg.2
        cases hst'
        simpa using d2
      · rw [g1]
        refine Res.Rel.bind (Res.Rel.eq _) ?_
        rintro q _ rfl
        refine Res.Rel.bind (Res.Rel.eq _) ?_
        rintro row _ rfl
        refine Res.Rel.bind (push_nodes strict _ (fp := []) (fps := fq ++ fps) (by simpa using d2)
          rfl rfl .nil (.cons rfl g2 d3 hst')) ?_
        rintro x y ⟨f, hf1, hf2⟩
        exact ⟨⟨f, hf1, hf2⟩, rfl, rfl, rfl, rfl, rfl, h6⟩

theorem shiftStep_nodes {T : Tables} {strict : Bool} {h0 h : Heap} {s : PSt} {s' : St}
    (hr : StRep h0 h s s') (sym len act idx : Nat) (scan : Scan) :
    Res.Rel false (OutRep h0) (shiftStep T strict s sym len act idx scan h)
      (Parser.shiftStep T strict s' sym len act idx scan) := by
  obtain ⟨⟨fps, hs, hst⟩, h1, h2, h3, h4, h5, h6⟩ := hr
  unfold shiftStep Parser.shiftStep
  have hal : allocStack s.stacksize (s.stack.map PEntry.plain) = allocStack s'.stacksize s'.stack := by
    unfold allocStack
    rw [List.length_map, hst.length, h1]
  rw [hal, h6]
  refine Res.Rel.bind (Res.Rel.eq _) (fun _ _ _ => ?_)
  refine Res.Rel.bind (Res.Rel.eq _) ?_
  rintro info _ rfl
  refine Res.Rel.bind (Res.Rel.eq _) (fun _ _ _ => ?_)
  obtain ⟨p, h', fq, e1, e2, e3, e4⟩ := leafNode_spec hs info.emit (lexeme scan.buf len)
  simp only [e1, Res.ok_bind]
  refine Res.Rel.bind (push_nodes strict _ e2 rfl rfl e3 (hst.congr e4)) ?_
  rintro x y ⟨f, hf1, hf2⟩
  refine Res.Rel.bind (Res.Rel.eq _) ?_
  rintro scan' _ rfl
  exact ⟨⟨f, hf1, hf2⟩, rfl, rfl, rfl, rfl, rfl, rfl⟩

theorem step_nodes {T : Tables} {strict : Bool} {h0 h : Heap} {s : PSt} {s' : St}
    (hr : StRep h0 h s s') (hk : KeepsAll T s') :
    Res.Rel false (OutRep h0) (step T strict s h) (Parser.step T strict s') := by
  unfold step Parser.step
  rw [hr.act]
  split
  · rename_i ha
    exact reduceStep_nodes hr (hk ha)
  · unfold readStep Parser.readStep
    obtain ⟨⟨fps, hs, hst⟩, h1, h2, h3, h4, h5, h6⟩ := hr
    generalize hss : s.stack = st at *
    generalize hss' : s'.stack = st' at *
    cases hst with
    | nil => simp [Res.Rel]
    | @cons e e' st st' fp fps g1 g2 g3 g4 =>
      simp only
      rw [g1]
      refine Res.Rel.bind (Res.Rel.eq _) ?_
      rintro q _ rfl
      have hn : nextSym T strict q s.plain = nextSym T strict q s' := by
        unfold nextSym PSt.plain
        rw [h6, h2]
      rw [hn]
      refine Res.Rel.bind (Res.Rel.eq _) ?_
      rintro ⟨x, l, t⟩ _ rfl
      simp only
      have hst : StackRep h.cells s.stack s'.stack (fp ++ fps) := by
        rw [hss, hss']; exact .cons g1 g2 g3 g4
      unfold actStep Parser.actStep
      refine Res.Rel.bind (Res.Rel.eq _) ?_
      rintro a _ rfl
      cases a with
      | none =>
        simp only
        split
        · simp [Res.Rel]
        · exact ⟨rfl, rfl, _, hs, hst.live⟩
      | some y =>
        simp only
        split
        · cases x with
          | none => simp [Res.Rel]
          | some x => exact shiftStep_nodes ⟨⟨_, hs, hst⟩, h1, h2, h3, h4, h5, h6⟩ _ _ _ _ _
        · exact ⟨⟨_, hs, hst⟩, h1, rfl, rfl, rfl, rfl, h6⟩

/-- The two outcomes of a parse. -/
def ParsedRep (h0 : Heap) (r : PParsed) (r' : Parsed) : Prop :=
  r.len = r'.len ∧ r.scan = r'.scan ∧
    ((∃ p a fp, r.ast = some p ∧ r'.ast = some a ∧ Since h0 r.heap fp ∧
        Rep r.heap.cells none p a fp) ∨
      (r.ast = none ∧ r'.ast = none ∧ ∃ fp, Since h0 r.heap fp ∧ ∀ a ∈ fp, r.heap.cells a ≠ none))

theorem run_nodes {T : Tables} {C : Cert} {S : List Nat} (hT : TablesOk T C) (hS : EofOk T S)
    {strict : Bool} {h0 : Heap} : ∀ (fuel : Nat) {h : Heap} {s : PSt} {s' : St},
    StRep h0 h s s' → Inv T C s' →
    Res.Rel false (ParsedRep h0) (run T strict fuel s h) (Parser.run T strict fuel s')
  | 0, _, _, _, _, _ => by simp [run, Parser.run, Res.Rel]
  | fuel + 1, h, s, s', hr, hi => by
    have hstep := step_nodes (strict := strict) hr (hi.keeps hT)
    simp only [run, Parser.run]
    cases h1 : Parser.step T strict s' with
    | ok o =>
      rw [h1] at hstep
      cases h2 : step T strict s h with
      | ok x =>
        obtain ⟨po, h'⟩ := x
        rw [h2] at hstep
        simp only [Res.Rel] at hstep
        simp only [Res.ok_bind]
        cases po with
        | go s1 =>
          cases o with
          | go s1' => exact run_nodes hT hS fuel hstep (hi.step hT hS h1)
          | accept => simp [OutRep] at hstep
          | reject => simp [OutRep] at hstep
        | accept p scan =>
          cases o with
          | go s1' => simp [OutRep] at hstep
          | accept a scan' =>
            obtain ⟨e1, fp, e2, e3⟩ := hstep
            exact ⟨rfl, e1, Or.inl ⟨p, a, fp, rfl, rfl, e2, e3⟩⟩
          | reject => simp [OutRep] at hstep
        | reject len scan =>
          cases o with
          | go s1' => simp [OutRep] at hstep
          | accept => simp [OutRep] at hstep
          | reject len' scan' =>
            obtain ⟨e1, e2, fp, e3, e4⟩ := hstep
            exact ⟨e1, e2, Or.inr ⟨rfl, rfl, fp, e3, e4⟩⟩
      | throw m => rw [h2] at hstep; simp [Res.Rel] at hstep
      | ub => rw [h2] at hstep; simp [Res.Rel] at hstep
      | outOfFuel => rw [h2] at hstep; simp [Res.Rel] at hstep
    | throw m =>
      rw [h1] at hstep
      cases h2 : step T strict s h <;> rw [h2] at hstep <;> simp [Res.Rel] at hstep ⊢
      exact hstep
    | ub =>
      rw [h1] at hstep
      cases h2 : step T strict s h <;> rw [h2] at hstep <;> simp [Res.Rel] at hstep ⊢
    | outOfFuel =>
      rw [h1] at hstep
      cases h2 : step T strict s h <;> rw [h2] at hstep <;> simp [Res.Rel] at hstep ⊢

/-- A parse on linked nodes, made since `h`, and the parse on lists. -/
theorem parseText_nodes {b : Buf} (hb : BufIs b []) {d : Nat} (hd : d < 3) (strict : Bool)
    (fuel : Nat) (text : List WChar) (h : Heap) :
    Res.Rel false (ParsedRep h) (parseText strict fuel b text d h)
      (Parser.parseText strict fuel b text d) := by
  unfold parseText Parser.parseText parse Parser.parse
  have hst : StRep h h (initSt ⟨b, fill text, false⟩ d) (Parser.initSt ⟨b, fill text, false⟩ d) :=
    ⟨⟨[], Since.refl h, StackRep.cons (cells := h.cells) (e := ⟨some 0, none, none⟩)
        (e' := ⟨some 0, none, []⟩) rfl rfl .nil .nil⟩, rfl, rfl, rfl, rfl, rfl, rfl⟩
  have hi : Inv narsese narseseCert (Parser.initSt ⟨b, fill text, false⟩ d) :=
    ⟨_, _, _, ⟨rfl, rfl, ScanRel.refl _, rfl, rfl, rfl, rfl⟩, sim_init hd (fill_is hb text)⟩
  refine Res.Rel.bind (run_nodes narsese_ok narsese_eof fuel hst hi) ?_
  rintro r r' ⟨h1, h2, h3⟩
  rw [h1, h2]
  refine Res.Rel.bind (Res.Rel.eq _) ?_
  rintro scan _ rfl
  exact ⟨rfl, rfl, h3⟩

/-! ## Calls of `parse_task` -/

/-- No block at an address that `malloc` has yet to return. -/
def Heap.Fits (h : Heap) : Prop := ∀ a, h.next ≤ a → h.cells a = none

theorem Since.fits {h0 h : Heap} {fp : List Nat} (hs : Since h0 h fp) (hf : h0.Fits) : h.Fits := by
  intro a ha
  have h1 : a ∉ fp := fun hm => by have := hs.lt a hm; omega
  rw [hs.same a h1]
  have := hs.le
  exact hf a (by omega)

/-- Freeing what was made since `h0` leaves the blocks of `h0`. -/
theorem Since.freed {h0 h : Heap} {fp : List Nat} (hs : Since h0 h fp) (hf : h0.Fits) :
    del h.cells fp = h0.cells := by
  funext a
  by_cases ha : a ∈ fp
  · rw [del_in _ ha, hf a ((hs.mem a).mp ha).1]
  · rw [del_out _ ha, hs.same a ha]

/-- The member `ast` of the two models; the blocks of its tree are `fm`. -/
inductive MemberRep (h : Heap) : PMember → Member → List Nat → Prop where
  | uninit : MemberRep h .uninit .uninit []
  | null : MemberRep h .null .null []
  | tree {p a fm} : Rep h.cells none (some p) a fm → fm.Nodup → (∀ x ∈ fm, x < h.next) →
      MemberRep h (.node p) (.tree a) fm

/-- The parser objects of the two models. -/
structure SessRep (s : PSession) (s' : Session) (fm : List Nat) : Prop where
  buf : s.buf = s'.buf
  env : s.env = s'.env
  fits : s.heap.Fits
  ast : MemberRep s.heap s.ast s'.ast fm

theorem MemberRep.keep {h h' : Heap} {m m' fm} (hm : MemberRep h m m' fm) {fp}
    (hs : Since h h' fp) : MemberRep h' m m' fm := by
  cases hm with
  | uninit => exact .uninit
  | null => exact .null
  | tree h1 h2 h3 =>
    refine .tree (h1.congr fun a ha => hs.same a fun hx => ?_) h2 fun a ha =>
      Nat.lt_of_lt_of_le (h3 a ha) hs.le
    have := ((hs.mem a).mp hx).1
    have := h3 a ha
    omega

/-- One call in the two models, and the blocks there are after it. -/
theorem parseTask_nodes {s : PSession} {s' : Session} {fm : List Nat} (hr : SessRep s s' fm)
    (hb : BufIs s'.buf []) {d : Nat} (hd : d < 3) (M : Mach) (bad : Act Val) (strict : Bool)
    (fuel : Nat) (text : List WChar)
    (hne : ∀ r, Parser.parseText strict fuel s'.buf text d = .ok r → r.ast ≠ some []) :
    (parseTask M bad strict fuel d s text).1 = (Parser.parseTask M bad strict fuel d s' text).1 ∧
    (∃ fm', SessRep (parseTask M bad strict fuel d s text).2
      (Parser.parseTask M bad strict fuel d s' text).2 fm') ∧
    (∀ r a t, Parser.parseText strict fuel s'.buf text d = .ok r → r.ast = some a →
      (parseTask M bad strict fuel d s text).1 = .ok t →
      (parseTask M bad strict fuel d s text).2.heap.cells = s.heap.cells) ∧
    (∀ r t, Parser.parseText strict fuel s'.buf text d = .ok r → r.ast = none →
      s'.ast = .null → (parseTask M bad strict fuel d s text).1 = .ok t →
      ∃ fp, Since s.heap (parseTask M bad strict fuel d s text).2.heap fp ∧
        ∀ a ∈ fp, (parseTask M bad strict fuel d s text).2.heap.cells a ≠ none) := by
  have hrel := parseText_nodes hb hd strict fuel text s.heap
  obtain ⟨h1, h2, h3, h4⟩ := hr
  rw [← h1] at hrel hne ⊢
  unfold parseTask Parser.parseTask
  rw [← h1, ← h2]
  cases hv : Parser.parseText strict fuel s.buf text d with
  | throw e =>
    rw [hv] at hrel
    cases hp : parseText strict fuel s.buf text d s.heap <;> rw [hp] at hrel <;>
      simp [Res.Rel] at hrel
    subst hrel
    exact ⟨rfl, ⟨fm, rfl, rfl, h3, h4⟩, by simp, by simp⟩
  | ub =>
    rw [hv] at hrel
    cases hp : parseText strict fuel s.buf text d s.heap <;> rw [hp] at hrel <;>
      simp [Res.Rel] at hrel
    exact ⟨rfl, ⟨fm, rfl, rfl, h3, h4⟩, by simp, by simp⟩
  | outOfFuel =>
    rw [hv] at hrel
    cases hp : parseText strict fuel s.buf text d s.heap <;> rw [hp] at hrel <;>
      simp [Res.Rel] at hrel
    exact ⟨rfl, ⟨fm, rfl, rfl, h3, h4⟩, by simp, by simp⟩
  | ok r' =>
    rw [hv] at hrel
    cases hp : parseText strict fuel s.buf text d s.heap with
    | throw e => rw [hp] at hrel; simp [Res.Rel] at hrel
    | ub => rw [hp] at hrel; simp [Res.Rel] at hrel
    | outOfFuel => rw [hp] at hrel; simp [Res.Rel] at hrel
    | ok r =>
      rw [hp] at hrel
      simp only [Res.Rel] at hrel
      obtain ⟨_, e2, hcase⟩ := hrel
      dsimp only
      rw [e2]
      rcases hcase with ⟨p, a, fp, g1, g2, g3, g4⟩ | ⟨g1, g2, fp, g3, g4⟩
      · -- accepted
        have ha : a ≠ [] := fun e => hne r' hv (by rw [g2, e])
        cases p with
        | none => exact absurd (g4.none_iff.mp rfl) ha
        | some p =>
          have hlen := g3.length
          have hfit := g3.fits h3
          have hfree := astFree_spec g4 r.heap (fun _ _ => rfl) g3.nodup _ hlen
          have hmem : MemberRep r.heap (.node p) (.tree a) fp := .tree g4 g3.nodup g3.lt
          simp only [g1, g2, PMember.after, Member.after, treeAt_spec g4 _ hlen]
          cases he : evalTask M bad a s.env.clearNames with
          | mk o env' =>
            cases o with
            | ok t =>
              simp only [hfree]
              refine ⟨trivial, ⟨[], rfl, rfl, ?_, .null⟩, ?_, ?_⟩
              · intro x hx
                simp only
                rw [g3.freed h3]
                exact h3 x (Nat.le_trans g3.le hx)
              · intro _ _ _ _ _ _
                exact g3.freed h3
              · intro r2 _ hr2 hr3
                obtain rfl : r' = r2 := by simpa using hr2
                rw [g2] at hr3
                simp at hr3
            | throw e => exact ⟨rfl, ⟨fp, rfl, rfl, hfit, hmem⟩, by simp, by simp⟩
            | ub => exact ⟨rfl, ⟨fp, rfl, rfl, hfit, hmem⟩, by simp, by simp⟩
            | outOfFuel => exact ⟨rfl, ⟨fp, rfl, rfl, hfit, hmem⟩, by simp, by simp⟩
      · -- rejected
        have hfit := g3.fits h3
        have hkeep := h4.keep g3
        simp only [g1, g2, PMember.after, Member.after]
        generalize hm1 : s.ast = m at hkeep
        generalize hm2 : s'.ast = m' at hkeep
        cases hkeep with
        | uninit => exact ⟨rfl, ⟨[], rfl, rfl, hfit, .uninit⟩, by simp, by simp⟩
        | null =>
          refine ⟨rfl, ⟨[], rfl, rfl, hfit, .null⟩, ?_, ?_⟩
          · intro r2 a _ hr2 hr3
            obtain rfl : r' = r2 := by simpa using hr2
            rw [g2] at hr3
            simp at hr3
          · intro _ _ _ _ _ _
            exact ⟨fp, g3, g4⟩
        | @tree p a fm k1 k2 k3 =>
          have hlen : fm.length ≤ r.heap.next := nodup_length_le k2 k3
          have hfree := astFree_spec k1 r.heap (fun _ _ => rfl) k2 _ hlen
          have hmem : MemberRep r.heap (.node p) (.tree a) fm := .tree k1 k2 k3
          simp only [treeAt_spec k1 _ hlen]
          cases he : evalTask M bad a s.env.clearNames with
          | mk o env' =>
            cases o with
            | ok t =>
              simp only [hfree]
              refine ⟨trivial, ⟨[], rfl, rfl, ?_, .null⟩, ?_, by simp⟩
              · intro x hx
                simp only
                rw [del_out]
                · exact hfit x hx
                · intro hm
                  have := k3 x hm
                  simp only at hx
                  omega
              · intro r2 a _ hr2 hr3
                obtain rfl : r' = r2 := by simpa using hr2
                rw [g2] at hr3
                simp at hr3
            | throw e => exact ⟨rfl, ⟨fm, rfl, rfl, hfit, hmem⟩, by simp, by simp⟩
            | ub => exact ⟨rfl, ⟨fm, rfl, rfl, hfit, hmem⟩, by simp, by simp⟩
            | outOfFuel => exact ⟨rfl, ⟨fm, rfl, rfl, hfit, hmem⟩, by simp, by simp⟩

/-- The states of a parser object before a call, as `Between`. -/
inductive PBetween (M : Mach) (strict : Bool) : PSession → Prop where
  | fresh (env : Env) {h : Heap} : h.Fits → PBetween M strict ⟨freshBuf, .uninit, env, h⟩
  | returned {fuel d : Nat} {s s' : PSession} {text : List WChar} {t : Option Task} :
      PBetween M strict s → d < 3 → parseTask M undefined strict fuel d s text = (.ok t, s') →
      PBetween M strict s'
  | threw {fuel d : Nat} {s s' : PSession} {text : List WChar} {e : String} :
      PBetween M strict s → d < 3 → parseTask M undefined strict fuel d s text = (.throw e, s') →
      PBetween M strict s'
  | other {s : PSession} (env : Env) : PBetween M strict s → PBetween M strict { s with env := env }

theorem accepted_ne {strict : Bool} {fuel d : Nat} {b : Buf} (hb : BufIs b []) (hd : d < 3)
    {text : List WChar} : ∀ r, Parser.parseText strict fuel b text d = .ok r → r.ast ≠ some [] := by
  intro r h hn
  obtain ⟨t, hv, hroot, hy, ht⟩ := (parseText_ok hb hd h).2 [] hn
  obtain ⟨a, ha, _⟩ := narsese_typed (narsese_tree hv hroot)
  rw [ht] at ha
  simp at ha

theorem PBetween.rep {M : Mach} {strict : Bool} {s : PSession} (h : PBetween M strict s) :
    ∃ s' fm, Between M strict s' ∧ SessRep s s' fm := by
  induction h with
  | fresh env hf => exact ⟨_, [], .fresh env, rfl, rfl, hf, .uninit⟩
  | @returned fuel d s1 s2 text t _ hd h ih =>
    obtain ⟨s', fm, hb, hr⟩ := ih
    obtain ⟨e1, ⟨fm', e2⟩, _⟩ := parseTask_nodes hr hb.reached.empty hd M undefined strict fuel text
      (accepted_ne hb.reached.empty hd)
    rw [h] at e1 e2
    exact ⟨_, fm', .returned hb hd (Prod.ext e1.symm rfl), e2⟩
  | @threw fuel d s1 s2 text e _ hd h ih =>
    obtain ⟨s', fm, hb, hr⟩ := ih
    obtain ⟨e1, ⟨fm', e2⟩, _⟩ := parseTask_nodes hr hb.reached.empty hd M undefined strict fuel text
      (accepted_ne hb.reached.empty hd)
    rw [h] at e1 e2
    exact ⟨_, fm', .threw hb hd (Prod.ext e1.symm rfl), e2⟩
  | other env _ ih =>
    obtain ⟨s', fm, hb, hr⟩ := ih
    exact ⟨_, fm, .other env hb, hr.buf, rfl, hr.fits, hr.ast⟩

end Nodes
end Cnars.Parser
