import Verif.Parser.Line

/-!
# Type and stamp of a parsed sentence

Nothing of `/repo` is modelled here.
-/

namespace Cnars.Parser
open Cnars Stamp

/-! ## Making terms leaves time and ids alone -/

/-- Leaves the globals alone. -/
def Act.Quiet {α : Type} (x : Act α) : Prop := ∀ e, (x e).2.globals = e.globals

namespace Act.Quiet
variable {α β : Type}

theorem pure (a : α) : (Pure.pure a : Act α).Quiet := fun _ => rfl

theorem bind {x : Act α} {f : α → Act β} (hx : x.Quiet) (hf : ∀ a, (f a).Quiet) :
    (x >>= f).Quiet := by
  intro e
  change (Act.bind x f e).2.globals = _
  have := hx e
  unfold Act.bind
  split <;> rename_i h <;> rw [h] at this
  · rw [hf, this]
  all_goals exact this

theorem lift (r : Res α) : (Act.lift r).Quiet := fun _ => rfl

theorem onWorld (f : World → Res World) : (Act.onWorld f).Quiet := by
  intro e
  unfold Act.onWorld
  split <;> rfl

theorem lastTerm : Parser.lastTerm.Quiet := fun _ => rfl

theorem making (args : List Term) (r : Res Term) : (makingTerm args r).Quiet :=
  bind (lift r) fun _ => bind (onWorld _) fun _ => pure _

theorem theOperation (M : Mach) (s : List Char) : (Action.theOperation M s).Quiet :=
  bind (onWorld _) fun _ => lastTerm

end Act.Quiet

mutual
theorem Syn.quiet (M : Mach) : ∀ t : Syn, (t.eval M).Quiet
  | .name s => by rw [Syn.eval]; exact Act.Quiet.bind (Act.Quiet.onWorld _) fun _ => Act.Quiet.lastTerm
  | .op s => by rw [Syn.eval]; exact Act.Quiet.theOperation M s
  | .interval s => by rw [Syn.eval]; exact Act.Quiet.bind (Act.Quiet.lift _) fun _ => Act.Quiet.bind (Act.Quiet.lift _) fun _ => Act.Quiet.pure _
  | .var k s => by rw [Syn.eval]; exact Act.Quiet.bind (fun _ => rfl) fun _ => Act.Quiet.pure _
  | .stmt s c p => by
    rw [Syn.eval]; exact Act.Quiet.bind (Syn.quiet M s) fun _ => Act.Quiet.bind (Syn.quiet M p) fun _ => Act.Quiet.making _ _
  | .comp c ts => by rw [Syn.eval]; exact Act.Quiet.bind (Syn.quietAll M ts) fun _ => Act.Quiet.making _ _
  | .call f ts => by
    rw [Syn.eval]; exact Act.Quiet.bind (Syn.quiet M f) fun _ => Act.Quiet.bind (Syn.quietAll M ts) fun _ => Act.Quiet.making _ _
  | .callName s ts => by
    rw [Syn.eval]
    exact Act.Quiet.bind (Syn.quietAll M ts) fun _ => Act.Quiet.bind (Act.Quiet.theOperation M s) fun _ => Act.Quiet.making _ _
theorem Syn.quietAll (M : Mach) : ∀ ts : List Syn, (Syn.evalAll M ts).Quiet
  | [] => by rw [Syn.evalAll]; exact Act.Quiet.pure _
  | t :: ts => by
    rw [Syn.evalAll]
    exact Act.Quiet.bind (Syn.quiet M t) fun _ => Act.Quiet.bind (Syn.quietAll M ts) fun _ => Act.Quiet.pure _
end

/-! ## Marks -/

/-- The values of a tense mark and a truth value, each possibly missing. -/
def markVals (n : Option Int) (t : Option (Truth ℚ)) : List Val :=
  n.toList.map .tense ++ t.toList.map .truth

/-- Integers of at most 53 bits are numbers of type `double`. -/
def IntExact (R : Rnd ℚ) : Prop := ∀ n : Int, -2 ^ 53 ≤ n → n ≤ 2 ^ 53 → R.d n = n

theorem toInt_int {R : Rnd ℚ} (hR : R.Sound) (hi : IntExact R) {n m : Int}
    (h : Action.toInt (R.d n) = .ok m) : m = n ∧ -2147483648 ≤ n ∧ n ≤ 2147483647 := by
  have exact_case (h1 : -2 ^ 53 ≤ n) (h2 : n ≤ 2 ^ 53) :
      m = n ∧ -2147483648 ≤ n ∧ n ≤ 2147483647 := by
    rw [hi n h1 h2] at h
    simp only [Action.toInt, Int.floor_intCast, Int.ceil_intCast, ite_self] at h
    split at h
    · rename_i hr
      cases h
      exact ⟨rfl, hr⟩
    · cases h
  by_cases h1 : -2 ^ 53 ≤ n
  · by_cases h2 : n ≤ 2 ^ 53
    · exact exact_case h1 h2
    · exfalso
      have h3 : R.d ((2 ^ 53 : Int) : ℚ) ≤ R.d n := hR.d_mono (by exact_mod_cast (not_le.mp h2).le)
      rw [hi _ (by norm_num) (le_refl _)] at h3
      have h0 : 0 ≤ R.d (n : ℚ) := le_trans (by norm_num) h3
      have h4 : (2 ^ 53 : Int) ≤ ⌊R.d (n : ℚ)⌋ := Int.le_floor.mpr h3
      simp only [Action.toInt, if_pos h0] at h
      split at h
      · rename_i hr; omega
      · cases h
  · exfalso
    have h3 : R.d n ≤ R.d ((-2 ^ 53 : Int) : ℚ) := hR.d_mono (by exact_mod_cast (not_le.mp h1).le)
    rw [hi _ (le_refl _) (by norm_num)] at h3
    have h0 : ¬ 0 ≤ R.d (n : ℚ) := by
      intro h0
      have := le_trans h0 h3
      norm_num at this
    have h4 : ⌈R.d (n : ℚ)⌉ ≤ (-2 ^ 53 : Int) := Int.ceil_le.mpr h3
    simp only [Action.toInt, if_neg h0] at h
    split at h
    · rename_i hr; omega
    · cases h

/-- The marks of a sentence. -/
theorem evalMarks_full {M : Mach} (hR : M.R.Sound) (hi : IntExact M.R) {tm : List Mark}
    {n : Option Int} (ht : TenseIs tm n) {ss : List (List Char)} {e e' : Env} {vs : List Val}
    (h : evalMarks M (tm ++ truthMarks ss) e = (.ok vs, e')) :
    ∃ t, vs = markVals n t ∧ e' = e ∧ ∀ k, n = some k → -2147483648 ≤ k ∧ k ≤ 2147483647 := by
  have he := evalMarks_env M h
  have tail : ∀ {us : List Val} {e1 e2 : Env}, evalMarks M (truthMarks ss) e1 = (.ok us, e2) →
      ∃ t : Option (Truth ℚ), us = t.toList.map .truth := by
    intro us e1 e2 h
    unfold truthMarks at h
    split at h
    · exact ⟨none, (Act.pure_ok h).1.symm⟩
    · rw [evalMarks] at h
      obtain ⟨v, e3, h1, h2⟩ := Act.bind_ok h
      obtain ⟨us', e4, h3, h4⟩ := Act.bind_ok h2
      obtain ⟨rfl, _⟩ := Act.pure_ok h4
      obtain ⟨rfl, _⟩ := Act.pure_ok h3
      rw [Mark.eval] at h1
      obtain ⟨xs, e5, h5, h6⟩ := Act.bind_ok h1
      rw [truth_eq, Option.getD_some] at h6
      obtain ⟨rfl, _⟩ := Act.pure_ok h6
      exact ⟨some _, rfl⟩
  cases n with
  | none =>
    obtain rfl : tm = [] := ht
    obtain ⟨t, rfl⟩ := tail h
    exact ⟨t, rfl, he, by simp⟩
  | some n =>
    rcases ht with ⟨rfl, n1, n2⟩ | ⟨s, rfl, hd⟩
    · rw [List.singleton_append, evalMarks] at h
      obtain ⟨v, e3, h1, h2⟩ := Act.bind_ok h
      obtain ⟨us', e4, h3, h4⟩ := Act.bind_ok h2
      obtain ⟨rfl, _⟩ := Act.pure_ok h4
      obtain ⟨rfl, _⟩ := Act.pure_ok h1
      obtain ⟨t, rfl⟩ := tail h3
      exact ⟨t, rfl, he, by rintro k ⟨⟩; omega⟩
    · rw [List.singleton_append, evalMarks] at h
      obtain ⟨v, e3, h1, h2⟩ := Act.bind_ok h
      obtain ⟨us', e4, h3, h4⟩ := Act.bind_ok h2
      obtain ⟨rfl, _⟩ := Act.pure_ok h4
      obtain ⟨t, rfl⟩ := tail h3
      rw [Mark.eval] at h1
      obtain ⟨x, e5, h5, h6⟩ := Act.bind_ok h1
      obtain ⟨m, e6, h7, h8⟩ := Act.bind_ok h6
      obtain ⟨rfl, _⟩ := Act.pure_ok h8
      obtain ⟨h9, _⟩ := Act.lift_ok h7
      obtain ⟨h10, _⟩ := Act.lift_ok h5
      obtain rfl := stod_value h10 hd
      obtain ⟨rfl, hr⟩ := toInt_int hR hi h9
      exact ⟨t, rfl, he, by rintro k ⟨⟩; exact hr⟩

/-! ## Sentences -/

/-- The stamp of a sentence with a tense mark or none, at a time and with an id. -/
def stampSpec (g : Globals) : Option Int → Stamp
  | none => ⟨some [g.inputId], toInt32 g.time, toInt32 g.time, -1, true⟩
  | some n => ⟨none, toInt32 g.time, n, -1, false⟩

/-- The class of a parsed sentence. -/
def classOf : Punct → SClass
  | .judgement => .judgement
  | .question => .question
  | .goal => .goal
  | .quest => .quest

theorem toInt32_bmod (x : Nat) : toInt32 x = (x : Int).bmod (2 ^ 32) := by
  rw [toInt32, BitVec.toInt_eq_toNat_bmod, BitVec.toNat_ofNat]
  push_cast
  exact Int.emod_bmod (x : Int) 4294967296

theorem sentenceAction_full {M : Mach} {p : Punct} {t : Term} {n : Option Int}
    {tr : Option (Truth ℚ)} {e e' : Env} {v : Val}
    (h : (sentenceAction M p (.term t :: markVals n tr)).getD undefined e = (.ok v, e')) :
    ∃ s : Sentence ℚ, v = .sentence s ∧ s.cls = classOf p ∧ s.stamp = stampSpec e.globals n ∧
      e'.globals = ⟨e.globals.time, (e.globals.inputId + 1) % 2 ^ 64⟩ := by
  have key : ∃ s : Sentence ℚ, ∃ e1, (sentenceAction M p (.term t :: markVals n tr)).getD undefined e =
      (.ok (.sentence s), e1) ∧ s.cls = classOf p ∧ s.stamp = stampSpec e.globals n ∧
      e1.globals = ⟨e.globals.time, (e.globals.inputId + 1) % 2 ^ 64⟩ := by
    cases n <;> cases tr <;> cases p <;>
      exact ⟨_, _, rfl, rfl, rfl, rfl⟩
  obtain ⟨s, e1, h1, h2⟩ := key
  rw [h1] at h
  simp only [Prod.mk.injEq, Res.ok.injEq] at h
  obtain ⟨rfl, rfl⟩ := h
  exact ⟨s, rfl, h2⟩

theorem evalSentence_full {M : Mach} (hR : M.R.Sound) (hi : IntExact M.R) {p : Punct} {t : Syn}
    {tm : List Mark} {n : Option Int} (ht : TenseIs tm n)
    {ss : List (List Char)}
    {e e' : Env} {v : Val} (h : evalSentence M p t (tm ++ truthMarks ss) e = (.ok v, e')) :
    ∃ s : Sentence ℚ, v = .sentence s ∧ s.punct = p ∧ s.cls = classOf p ∧
      s.stamp = stampSpec e.globals n ∧
      e'.globals = ⟨e.globals.time, (e.globals.inputId + 1) % 2 ^ 64⟩ ∧
      ∀ k, n = some k → -2147483648 ≤ k ∧ k ≤ 2147483647 := by
  obtain ⟨_, _, _, s', _, _, hv, _, hp, _⟩ := evalSentence_ok h
  obtain ⟨r, e1, h1, h4⟩ := Act.bind_ok h
  obtain ⟨vs, e2, h2, h5⟩ := Act.bind_ok h4
  obtain ⟨tr, rfl, rfl, hr⟩ := evalMarks_full hR hi ht h2
  have hg := Syn.quiet M t e
  rw [h1] at hg
  simp only at hg
  obtain ⟨s, rfl, h6, h7, h8⟩ := sentenceAction_full h5
  rw [hg] at h7 h8
  simp only [Val.sentence.injEq] at hv
  exact ⟨s, rfl, hv ▸ hp, h6, h7, h8, hr⟩

/-- The type and the stamp of the task a line evaluates to. -/
theorem evalTask_full {line : List WChar} {as : List Ast} (hl : IsNarsese line as) {M : Mach}
    (hR : M.R.Sound) (hi : IntExact M.R) {bad : Act Val} {e e' : Env} {k : Task}
    (h : evalTask M bad as e = (.ok k, e')) {b : Option (List (List Char))} {p : Punct} {t : Syn}
    {tm : List Mark} {n : Option Int} {ss : List (List Char)}
    (hp : partAll as = some [.task b p t (tm ++ truthMarks ss)]) (ht : TenseIs tm n)
    :
    k.sentence.punct = p ∧ k.sentence.cls = classOf p ∧
      k.sentence.stamp = stampSpec e.globals n ∧
      e'.globals = ⟨e.globals.time, (e.globals.inputId + 1) % 2 ^ 64⟩ ∧
      ∀ k, n = some k → -2147483648 ≤ k ∧ k ≤ 2147483647 := by
  obtain ⟨b', p', t', ms', h1, h2⟩ := evalTask_part hl
  rw [hp] at h1
  simp only [Option.some.injEq, List.cons.injEq, Part.task.injEq, and_true] at h1
  obtain ⟨rfl, rfl, rfl, rfl⟩ := h1
  rw [h2] at h
  obtain ⟨v, e1, h3, h4⟩ := Act.bind_ok h
  have fin : ∀ {e0 : Env} {b : Option Budget} {vs : List Val}, e0.globals = e.globals →
      (∀ s, Action.task M (vs ++ [.sentence s]) = some (do
        let b ← Act.lift (Action.finishBudget M (b.getD (budgetFor M none)) s)
        pure (.task ⟨b, s⟩))) →
      (do
        let s ← evalSentence M p t (tm ++ truthMarks ss)
        (Action.task M (vs ++ [s])).getD undefined) e0 = (.ok v, e1) →
      k.sentence.punct = p ∧ k.sentence.cls = classOf p ∧
      k.sentence.stamp = stampSpec e.globals n ∧
      e'.globals = ⟨e.globals.time, (e.globals.inputId + 1) % 2 ^ 64⟩ ∧
      ∀ k, n = some k → -2147483648 ≤ k ∧ k ≤ 2147483647 := by
    intro e0 b vs h0 hk hs
    obtain ⟨s, e2, h5, h6⟩ := Act.bind_ok hs
    obtain ⟨s, rfl, k0, k1, k2, k3, k4⟩ := evalSentence_full hR hi ht h5
    rw [hk, Option.getD_some] at h6
    obtain ⟨bb, e3, h7, h8⟩ := Act.bind_ok h6
    obtain ⟨rfl, rfl⟩ := Act.pure_ok h8
    obtain ⟨_, rfl⟩ := Act.lift_ok h7
    obtain ⟨rfl, rfl⟩ := Act.pure_ok h4
    rw [h0] at k2 k3
    exact ⟨k0, k1, k2, k3, k4⟩
  cases b with
  | none => exact fin (b := none) (vs := []) rfl (fun s => rfl) h3
  | some bs =>
    obtain ⟨xs, e0, h0, ha⟩ := Act.bind_ok h3
    obtain ⟨rfl, hx⟩ := numbers_env M h0
    simp only [budget_eq, Option.getD_some, pure_bind] at ha
    exact fin (b := some (budgetFor M (some xs))) (vs := [.budget _]) rfl (fun s => rfl) ha

/-! ## Values -/

theorem forall₂_get {M : Mach} : ∀ {ss : List (List Char)} {xs : List ℚ},
    List.Forall₂ Decimal ss xs → ∀ i : Nat,
    (((ss.drop i).take 1).head?.bind fun s => (Action.decimal s).map fun x => M.R.s (M.R.d x)) =
      xs[i]?.map fun x => M.R.s (M.R.d x)
  | _, _, .nil, i => by simp
  | s :: ss, x :: xs, .cons h hs, 0 => by simp [h.reads]
  | s :: ss, x :: xs, .cons h hs, i + 1 => by
    simpa using forall₂_get (M := M) hs i

/-- The values that are read are those that are written. -/
theorem written_line {line : List WChar} {as : List Ast} (hn : IsNarsese line as) (M : Mach)
    {bs vs : List (List Char)} {ys xs : List ℚ} {p : Punct} {t : Syn} {tm : List Mark}
    {n : Option Int} (ht : TenseIs tm n) (hy : List.Forall₂ Decimal bs ys)
    (hx : List.Forall₂ Decimal vs xs)
    (h : partAll as = some [.task (if bs = [] then none else some bs) p t (tm ++ truthMarks vs)]) :
    (written M as .priority = ys[0]?.map (fun x => M.R.s (M.R.d x)) ∧
      written M as .durability = ys[1]?.map (fun x => M.R.s (M.R.d x)) ∧
      written M as .quality = ys[2]?.map (fun x => M.R.s (M.R.d x))) ∧
    (written M as .frequency = xs[0]?.map (fun x => M.R.s (M.R.d x)) ∧
      written M as .confidence = xs[1]?.map (fun x => M.R.s (M.R.d x)) ∧
      written M as .k_evidence = xs[2]?.map (fun x => M.R.s (M.R.d x))) ∧
    (Ast.tokensAll .priority as = [] ↔ bs = []) := by
  obtain ⟨g1, g2⟩ := hn.ranged
  obtain ⟨g3, g4, _⟩ := Ast.partAll_ranged h g1 g2
  have h1 : ∀ e, tm.flatMap (Mark.tokens e) = [] := by
    intro e
    cases n with
    | none => obtain rfl : tm = [] := ht; rfl
    | some n => rcases ht with ⟨rfl, _⟩ | ⟨s, rfl, _⟩ <;> rfl
  have h2 : ∀ e, truthTokens e [] = [] := by intro e; cases e <;> rfl
  have h3 : ∀ e, budgetTokens e [] = [] := by intro e; cases e <;> rfl
  have key : ∀ e : Emit, e.isValue = true →
      Ast.tokensAll e as = budgetTokens e bs ++ truthTokens e vs := by
    intro e he
    rw [← g4 e he]
    simp only [List.flatMap_cons, List.flatMap_nil, List.append_nil, Part.tokens,
      List.flatMap_append, h1, List.nil_append]
    congr 1
    · by_cases hb : bs = [] <;> simp [hb, h3]
    · by_cases hv : vs = [] <;> simp [truthMarks, hv, h2, Mark.tokens]
  refine ⟨⟨?_, ?_, ?_⟩, ⟨?_, ?_, ?_⟩, ?_⟩
  · rw [written, key _ rfl]; simpa [budgetTokens, truthTokens] using forall₂_get (M := M) hy 0
  · rw [written, key _ rfl]; simpa [budgetTokens, truthTokens] using forall₂_get (M := M) hy 1
  · rw [written, key _ rfl]; simpa [budgetTokens, truthTokens] using forall₂_get (M := M) hy 2
  · rw [written, key _ rfl]; simpa [budgetTokens, truthTokens] using forall₂_get (M := M) hx 0
  · rw [written, key _ rfl]; simpa [budgetTokens, truthTokens] using forall₂_get (M := M) hx 1
  · rw [written, key _ rfl]; simpa [budgetTokens, truthTokens] using forall₂_get (M := M) hx 2
  · rw [key _ rfl]
    cases bs <;> simp [budgetTokens, truthTokens]

end Cnars.Parser
