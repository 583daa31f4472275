import Verif.Parser.Several
import Verif.Props.Actions

/-!
# C102: it does not matter which parser reads a line
-/

namespace Cnars.Props
open Cnars.Parser

/-- A new parser accepts the line, given time. -/
def AcceptedLine (text : List WChar) : Prop := ∃ fuel r, parseText false fuel freshBuf text 0 = .ok r ∧ r.ast ≠ none

/-- **C102 (partial).**  Two programs read the same lines in the same order, each line with any of their parsers, from states
with the same terms, dictionaries and counters.  If all lines are accepted, or if all parsers have returned from a call before
and no line throws, then every line gives the same in both, and terms, dictionaries and counters are the same in the end.
Missing: rejected lines on a new parser, and after a line that threw (counterexamples). -/
theorem C102_same_partial {M : Mach} {bad : Act Val} {strict strict' : Bool} {fuel fuel' : Nat} {cs cs' : List TaskCall}
    {F F' G G' : Fleet} {os os' : List (Except String (Option Task))} (hF : ∀ i, Reached (F.buf i))
    (hF' : ∀ i, Reached (F'.buf i)) (hd : ∀ c ∈ cs, c.delay < 3) (hd' : ∀ c ∈ cs', c.delay < 3)
    (ht : cs.map TaskCall.text = cs'.map TaskCall.text) (hw : F.env.world = F'.env.world)
    (hg : F.env.globals = F'.env.globals) (h : F.calls M bad strict fuel cs = .ok (os, G))
    (h' : F'.calls M bad strict' fuel' cs' = .ok (os', G'))
    (ha : (∀ c ∈ cs, AcceptedLine c.text) ∨
      (∀ i, F.ast i = .null) ∧ (∀ i, F'.ast i = .null) ∧ ∀ o ∈ os, ∃ t, o = .ok t) :
    os = os' ∧ G.env.world = G'.env.world ∧ G.env.globals = G'.env.globals := by
  induction cs generalizing F F' cs' os os' with
  | nil =>
    cases cs' with
    | cons c' cs' => simp at ht
    | nil =>
      simp only [Fleet.calls, Res.ok.injEq, Prod.mk.injEq] at h h'
      obtain ⟨rfl, rfl⟩ := h
      obtain ⟨rfl, rfl⟩ := h'
      exact ⟨rfl, hw, hg⟩
  | cons c cs ih =>
    cases cs' with
    | nil => simp at ht
    | cons c' cs' =>
      simp only [List.map_cons, List.cons.injEq] at ht
      simp only [Fleet.calls, Res.bind_eq_ok, Prod.exists, Res.ok.injEq, Prod.mk.injEq] at h h'
      obtain ⟨o, F1, h1, os1, G1, h2, rfl, rfl⟩ := h
      obtain ⟨o', F1', h1', os1', G1', h2', rfl, rfl⟩ := h'
      have dc := hd c (by simp)
      have dc' := hd' c' (by simp)
      obtain ⟨-, -, r1, r2, r3, -⟩ := Fleet.call_parsed hF dc h1
      obtain ⟨-, -, r1', r2', r3', -⟩ := Fleet.call_parsed hF' dc' h1'
      obtain ⟨rfl, he⟩ := Fleet.call_same hF hF' dc dc' ht.1 hw hg h1 h1'
        (ha.imp (fun a => a c (by simp)) (fun a => ⟨a.1 _, a.2.1 _⟩))
      have := ih r1 r1' (fun c hc => hd c (by simp [hc])) (fun c hc => hd' c (by simp [hc])) ht.2 (by rw [he])
        (by rw [he]) h2 h2' (by
          rcases ha with a | ⟨a1, a2, a3⟩
          · exact .inl fun c hc => a c (by simp [hc])
          · have ho := a3 o (by simp)
            refine .inr ⟨fun i => ?_, fun i => ?_, fun o ho => a3 o (by simp [ho])⟩
            · by_cases e : i = c.who
              · rw [e]; exact r3 ho
              · rw [r2 i e]; exact a1 i
            · by_cases e : i = c'.who
              · rw [e]; exact r3' ho
              · rw [r2' i e]; exact a2 i)
      exact ⟨by rw [this.1], this.2⟩

/-- **C102 (partial).**  Without the limit on the depth of the parse stack the other program returns, given time: what the
parsers of one program give for some lines, those of any other program give too.  Missing: as above, and the limit. -/
theorem C102_returns_partial {M : Mach} {bad : Act Val} {strict : Bool} {fuel fuel' : Nat} {cs cs' : List TaskCall}
    {F F' G : Fleet} {os : List (Except String (Option Task))} (hF : ∀ i, Reached (F.buf i))
    (hF' : ∀ i, Reached (F'.buf i)) (hd : ∀ c ∈ cs, c.delay < 3) (hd' : ∀ c ∈ cs', c.delay < 3)
    (ht : cs.map TaskCall.text = cs'.map TaskCall.text) (hw : F.env.world = F'.env.world)
    (hg : F.env.globals = F'.env.globals) (h : F.calls M bad strict fuel cs = .ok (os, G))
    (hf : ∀ c ∈ cs', 24 * (firstLine c.text).length + 6 ≤ fuel')
    (ha : (∀ c ∈ cs, AcceptedLine c.text) ∨
      (∀ i, F.ast i = .null) ∧ (∀ i, F'.ast i = .null) ∧ ∀ o ∈ os, ∃ t, o = .ok t) :
    ∃ G', F'.calls M bad false fuel' cs' = .ok (os, G') := by
  induction cs generalizing F F' cs' os with
  | nil =>
    cases cs' with
    | cons c' cs' => simp at ht
    | nil =>
      simp only [Fleet.calls, Res.ok.injEq, Prod.mk.injEq] at h
      obtain ⟨rfl, rfl⟩ := h
      exact ⟨F', rfl⟩
  | cons c cs ih =>
    cases cs' with
    | nil => simp at ht
    | cons c' cs' =>
      simp only [List.map_cons, List.cons.injEq] at ht
      simp only [Fleet.calls, Res.bind_eq_ok, Prod.exists, Res.ok.injEq, Prod.mk.injEq] at h
      obtain ⟨o, F1, h1, os1, G1, h2, rfl, rfl⟩ := h
      have dc := hd c (by simp)
      have dc' := hd' c' (by simp)
      have hone := ha.imp (fun a => a c (by simp)) (fun a => (⟨a.1 c.who, a.2.1 c'.who⟩ : _ ∧ _))
      obtain ⟨r', hr'⟩ : ∃ r', parseText false fuel' (F'.buf c'.who) c'.text c'.delay = .ok r' := by
        obtain ⟨s, -, ⟨t, -, -, -, -, x⟩ | ⟨-, x⟩⟩ := parseText_spec (hF' c'.who).empty c'.text dc' (hf c' (by simp))
        · exact ⟨_, x⟩
        · exact ⟨_, x⟩
      obtain ⟨F1', h1'⟩ := Fleet.call_other hF hF' dc dc' ht.1 hw hg h1 hr' hone
      obtain ⟨-, -, r1, r2, r3, -⟩ := Fleet.call_parsed hF dc h1
      obtain ⟨-, -, r1', r2', r3', -⟩ := Fleet.call_parsed hF' dc' h1'
      obtain ⟨-, he⟩ := Fleet.call_same hF hF' dc dc' ht.1 hw hg h1 h1' hone
      obtain ⟨G', hG'⟩ := ih r1 r1' (fun c hc => hd c (by simp [hc])) (fun c hc => hd' c (by simp [hc])) ht.2 (by rw [he])
        (by rw [he]) h2 (fun c hc => hf c (by simp [hc])) (by
          rcases ha with a | ⟨a1, a2, a3⟩
          · exact .inl fun c hc => a c (by simp [hc])
          · have ho := a3 o (by simp)
            refine .inr ⟨fun i => ?_, fun i => ?_, fun o ho => a3 o (by simp [ho])⟩
            · by_cases e : i = c.who
              · rw [e]; exact r3 ho
              · rw [r2 i e]; exact a1 i
            · by_cases e : i = c'.who
              · rw [e]; exact r3' ho
              · rw [r2' i e]; exact a2 i)
      exact ⟨G', by simp only [Fleet.calls, h1', hG', Res.ok_bind]⟩

/-- **C102 (partial).**  A program with several parsers gives for accepted lines what it would give with one. -/
theorem C102_one_partial {M : Mach} {bad : Act Val} {strict : Bool} {fuel fuel' : Nat} {cs : List TaskCall} {env : Env}
    {G : Fleet} {os : List (Except String (Option Task))} (hd : ∀ c ∈ cs, c.delay < 3)
    (h : (Fleet.fresh env).calls M bad strict fuel cs = .ok (os, G)) (ha : ∀ c ∈ cs, AcceptedLine c.text)
    (hf : ∀ c ∈ cs, 24 * (firstLine c.text).length + 6 ≤ fuel') :
    ∃ G', (Fleet.fresh env).calls M bad false fuel' (cs.map fun c => { c with who := 0 }) = .ok (os, G') ∧
      G.env.world = G'.env.world ∧ G.env.globals = G'.env.globals := by
  have hfr : ∀ i, Reached ((Fleet.fresh env).buf i) := fun _ => .fresh
  have hd' : ∀ c ∈ cs.map (fun c => ({ c with who := 0 } : TaskCall)), c.delay < 3 := by
    simp only [List.mem_map, forall_exists_index, and_imp, forall_apply_eq_imp_iff₂]
    exact hd
  have ht : cs.map TaskCall.text = (cs.map fun c => ({ c with who := 0 } : TaskCall)).map TaskCall.text := by
    rw [List.map_map]; rfl
  obtain ⟨G', hG'⟩ := C102_returns_partial (fuel' := fuel') hfr hfr hd hd' ht rfl rfl h (by
    simp only [List.mem_map, forall_exists_index, and_imp, forall_apply_eq_imp_iff₂]
    exact hf) (.inl ha)
  exact ⟨G', hG', (C102_same_partial hfr hfr hd hd' ht rfl rfl h hG' (.inl ha)).2⟩

/-- What a program gives, without the tasks: `none` if it has no result, of a line `0` for a task, `1` for null, `2` for an
exception. -/
def fleetMarks (x : Res (List (Except String (Option Task)) × Fleet)) : Option (List Nat) :=
  match x with
  | .ok (os, _) => some (os.map fun o => match o with | .ok (some _) => 0 | .ok none => 1 | .error _ => 2)
  | _ => none

/-- Two parsers read the lines of one. -/
example : AcceptedLine goodText ∧
    fleetMarks ((Fleet.fresh env0).calls mach undefined true 1000 [⟨0, 0, goodText⟩, ⟨1, 0, goodText⟩]) = some [0, 0] := by
  refine ⟨?_, by decide +kernel⟩
  have h : accepted? (parseText false 1000 freshBuf goodText 0) = true := by decide +kernel
  cases hr : parseText false 1000 freshBuf goodText 0 with
  | ok r =>
    refine ⟨1000, r, hr, fun e => ?_⟩
    rw [hr] at h
    simp [accepted?, e] at h
  | throw e => rw [hr] at h; simp [accepted?] at h
  | ub => rw [hr] at h; simp [accepted?] at h
  | outOfFuel => rw [hr] at h; simp [accepted?] at h

/-- **C102 is false in general, 1.**  After an accepted line, a rejected line gives the null pointer, if the same parser reads
it; another parser, which is new, reads its member `ast`, which nothing has initialised. -/
theorem C102_new_counterexample :
    fleetMarks ((Fleet.fresh env0).calls mach undefined true 1000 [⟨0, 0, goodText⟩, ⟨0, 0, badText⟩]) = some [0, 1] ∧
    fleetMarks ((Fleet.fresh env0).calls mach undefined true 1000 [⟨0, 0, goodText⟩, ⟨1, 0, badText⟩]) = none := by
  decide +kernel

/-- **C102 is false in general, 2.**  After a line that threw, a rejected line throws again, if the same parser reads it, and
gives the null pointer, if another one does that has returned from a call before. -/
theorem C102_threw_counterexample :
    fleetMarks ((Fleet.fresh env0).calls mach undefined true 6000
      [⟨1, 0, goodText⟩, ⟨0, 0, throwText⟩, ⟨0, 0, badText⟩]) = some [0, 2, 2] ∧
    fleetMarks ((Fleet.fresh env0).calls mach undefined true 6000
      [⟨1, 0, goodText⟩, ⟨0, 0, throwText⟩, ⟨1, 0, badText⟩]) = some [0, 2, 1] := by
  decide +kernel

end Cnars.Props
