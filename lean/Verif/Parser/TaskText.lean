import Verif.Parser.Printed
import Verif.Props.Complete
import Verif.Props.Lines
import Verif.Props.Printing

/-!
# Printing a task and reading it

Lemmas for C80.  Nothing of `/repo` is modelled here.
-/

namespace Cnars.Parser
open Cnars Term Print Props

mutual
theorem depth_term (d : Map Key String) : ∀ t : Term, (astTerm d t).depth ≤ 2 * t.height + 3
  | .atom a i => by
    rw [astTerm, Term.height]
    split <;> simp only [Ast.depth, Ast.depths, wordLeaf] <;> split <;> simp [Ast.depth]
  | .interval n _ => by simp [astTerm, Ast.depth, Ast.depths, Term.height]
  | .var k _ i => by simp [astTerm, Ast.depth, Ast.depths, Term.height]
  | .stmt s c p _ => by
    have h1 := depth_term d s
    have h2 := depth_term d p
    have h3 := depth_args d s
    rw [astTerm, Term.height]
    split <;> simp only [Ast.depth, Ast.depths] <;> omega
  | .comp c ts _ => by
    have h1 := depth_terms d ts
    rw [astTerm, Term.height]
    simp only [Ast.depth, Ast.depths]
    omega
theorem depth_args (d : Map Key String) : ∀ t : Term, Ast.depths (astArgs d t) ≤ 2 * t.height + 3
  | .comp c ts _ => by
    have h1 := depth_terms d ts
    rw [astArgs, Term.height]
    omega
  | .atom .. => by simp [astArgs, Ast.depths]
  | .interval .. => by simp [astArgs, Ast.depths]
  | .var .. => by simp [astArgs, Ast.depths]
  | .stmt .. => by simp [astArgs, Ast.depths]
theorem depth_terms (d : Map Key String) : ∀ ts : List Term,
    Ast.depths (astTerms d ts) ≤ 2 * heights ts + 3
  | [] => by simp [astTerms, Ast.depths]
  | t :: ts => by
    have h1 := depth_term d t
    have h2 := depth_terms d ts
    rw [astTerms, heights]
    simp only [Ast.depths]
    omega
end

theorem depth_content (d : Map Key String) (t : Term) : (astContent d t).depth ≤ 2 * t.height + 3 := by
  have h := depth_term d t
  cases t with
  | stmt s c p i =>
    rw [astTerm] at h
    rw [astContent, astStmt]
    simp only [Ast.depth, Ast.depths] at h
    omega
  | _ => exact h

theorem depth_line (b : List Char × List Char × List Char) (d : Map Key String) (t : Term) (p : Punct)
    (n : Stamp.Tense) (v : Option (List Char × List Char)) :
    Ast.depths (lineAst b (astContent d t) p n v) ≤ 2 * t.height + 5 := by
  have h := depth_content d t
  have h1 : Ast.depths (tenseAst n) ≤ 1 := by cases n <;> simp [tenseAst, Ast.depth, Ast.depths]
  have h2 : Ast.depths (truthAst v) ≤ 2 := by cases v <;> simp [truthAst, Ast.depth, Ast.depths]
  simp only [lineAst, Ast.depth, Ast.depths, Ast.depths_append]
  omega

/-- The memory of the driver suffices for a line about a term: the line has at most 121 characters, or
short tokens and a term that is nested at most 18 deep. -/
def LineFits (text : List Char) (t : Term) : Prop :=
  text.length ≤ 121 ∨ ShortTokens (codes text) ∧ t.height ≤ 18

theorem line_accepted {b : Buf} (hb : Reached b) {d : Nat} (hd : d < 3) {line : List Char} (ha : Ascii line)
    {fuel : Nat} (hf : 24 * line.length + 6 ≤ fuel) {strict : Bool} 
    {a : List Ast} (hs : strict = true → line.length ≤ 121 ∨ ShortTokens (codes line) ∧ Ast.depths a ≤ 41)
    (hn : IsNarsese (codes line) a) (hm : Ast.meantAll a = true) :
    ∃ scan, parseText strict fuel b (codes line) d = .ok ⟨some a, 0, scan⟩ := by
  have hfl := firstLine_ascii ha
  have hlen : (firstLine (codes line)).length = line.length := by rw [hfl]; simp [codes]
  cases strict with
  | false =>
    exact (parseText_iff (fuel := fuel) hb.empty hd (by rw [hlen]; exact hf) (by rw [hfl]; exact no_tab ha)
      a).mpr ⟨by rw [hfl]; exact hn, hm⟩
  | true =>
    have h7 : ∀ c ∈ codes line, c ≤ 127 := by
      intro c hc
      obtain ⟨x, hx, rfl⟩ := List.mem_map.mp hc
      have := (ha x hx).2
      change (x.toNat : Int) ≤ 127
      omega
    have h9 : (9 : WChar) ∉ firstLine (codes line) := by rw [hfl]; exact no_tab ha
    have hf' : 24 * (firstLine (codes line)).length + 6 ≤ fuel := by rw [hlen]; exact hf
    have hn' : IsNarsese (firstLine (codes line)) a ∧ Ast.meantAll a = true := ⟨by rw [hfl]; exact hn, hm⟩
    rcases hs rfl with h | ⟨h, h'⟩
    · exact (C74_short_partial hb hd h9 h7 (by rw [hlen]; exact h) hf' a).mpr hn'
    · exact (C74_nested_partial hb hd h9 h7 (by rw [hfl]; exact h) hf' h').mpr hn'

theorem LineFits.ast {line : List Char} {t : Term} (h : LineFits line t) (b : List Char × List Char × List Char)
    (d : Map Key String) (p : Punct) (n : Stamp.Tense) (v : Option (List Char × List Char)) :
    line.length ≤ 121 ∨ ShortTokens (codes line) ∧ Ast.depths (lineAst b (astContent d t) p n v) ≤ 41 :=
  h.imp id fun h => ⟨h.1, by have := depth_line b d t p n v; omega⟩

/-- The truth value that is printed. -/
def printedTruth (fix : Nat → ℚ → Str) (s : Sentence ℚ) : Option (List Char × List Char) :=
  match s.punct with
  | .judgement | .goal => s.truth.map fun v => (fix 3 v.f, fix 3 v.c)
  | _ => none

/-- Judgements and goals have a truth value, questions and quests do not. -/
structure Formed (s : Sentence ℚ) : Prop where
  some : s.punct = .judgement ∨ s.punct = .goal → ∃ v, s.truth = some v
  none : s.punct = .question ∨ s.punct = .quest → s.truth = none
  cls : s.cls = classOf s.punct

theorem formed {s : Sentence ℚ} (h : Built s) : Formed s := by
  constructor <;> cases h <;>
    simp [Sentence.judgement, Sentence.question, Sentence.goal, Sentence.quest, classOf]

theorem task_text {s : Sentence ℚ} (h : Formed s) (R : Rnd ℚ) (fix : Nat → ℚ → Str) (bg : Fin 3 → ℚ → Str)
    (time : Nat) (d : Map Key String) {x : Str} (hx : Print.term d false s.term = .ok x) (b : Print.Budget ℚ) :
    Print.task R fix bg time d false b s = .ok (lineText (fix 2 (b.priority.shown R), fix 2 (b.durability.shown R),
      fix 2 (b.quality.shown R)) x s.punct (s.stamp.tense time) (printedTruth fix s)) := by
  have hst : stampText false time s.stamp = tenseText (s.stamp.tense time) := by
    unfold stampText Stamp.Stamp.tense
    cases s.stamp.isEternal
    · simp only [Bool.false_eq_true, if_false]
      split
      · rfl
      · split <;> rfl
    · rfl
  unfold Print.task Print.sentence
  rw [hx, hst]
  generalize s.stamp.tense time = n
  obtain ⟨h1, h2, h3⟩ := h
  cases hp : s.punct with
  | judgement =>
    obtain ⟨v, hv⟩ := h1 (.inl hp)
    simp [truthOf, hp, hv, Print.truthText, Punct.symbol, paint, lineText, printedTruth, Res.ofOption,
      punctChar, Parser.truthText, Res.bind]
  | goal =>
    obtain ⟨v, hv⟩ := h1 (.inr hp)
    rw [hp] at h3
    simp [truthOf, hp, hv, h3, classOf, Print.truthText, Punct.symbol, paint, lineText, printedTruth,
      Res.ofOption, punctChar, Parser.truthText, Res.bind]
  | question =>
    simp [truthOf, hp, Print.truthText, Punct.symbol, paint, lineText, printedTruth, punctChar,
      Parser.truthText]
  | quest =>
    simp [truthOf, hp, Print.truthText, Punct.symbol, paint, lineText, printedTruth, punctChar,
      Parser.truthText]

mutual
theorem print_relabel (f : VarKind → String → String) (d : Map Key String) (c : Bool) :
    ∀ t : Term, Print.term d c (t.relabel f) = Print.term d c t
  | .atom .. => by rw [Term.relabel]
  | .interval .. => by rw [Term.relabel]
  | .var .. => by rw [Term.relabel, Print.term, Print.term]
  | .stmt s k p i => by
    rw [Term.relabel, Print.term, Print.term, print_relabel f d c s, print_relabel f d c p,
      printArgs_relabel f d c s]
    rfl
  | .comp k ts i => by
    rw [Term.relabel, Print.term, Print.term, prints_relabel f d c ts]
    cases ts <;> rfl
theorem printArgs_relabel (f : VarKind → String → String) (d : Map Key String) (c : Bool) :
    ∀ t : Term, Print.subjectArgs d c (t.relabel f) = Print.subjectArgs d c t
  | .atom .. => by rw [Term.relabel]
  | .interval .. => by rw [Term.relabel]
  | .var .. => by rw [Term.relabel, Print.subjectArgs, Print.subjectArgs]; all_goals simp
  | .stmt .. => by rw [Term.relabel, Print.subjectArgs, Print.subjectArgs]; all_goals simp
  | .comp k ts i => by rw [Term.relabel, Print.subjectArgs, Print.subjectArgs, prints_relabel f d c ts]
theorem prints_relabel (f : VarKind → String → String) (d : Map Key String) (c : Bool) :
    ∀ ts : List Term, Print.terms d c (Term.relabelAll f ts) = Print.terms d c ts
  | [] => by rw [Term.relabelAll]
  | [t] => by
    rw [Term.relabelAll, Term.relabelAll, Print.terms, Print.terms, print_relabel f d c t]
  | t :: u :: ts => by
    have := prints_relabel f d c (u :: ts)
    rw [Term.relabelAll] at this
    have e : ∀ (x y : Term) (zs : List Term), Print.terms d c (x :: y :: zs) = (do
        let str ← Print.term d c x
        let sep ← paint c .separator [',', ' ']
        let rest ← Print.terms d c (y :: zs)
        return str ++ sep ++ rest) := fun x y zs => by rw [Print.terms]; simp
    rw [Term.relabelAll, Term.relabelAll, e, e, print_relabel f d c t, this]
end

theorem ascii_line {d : Map Key String} {t : Term} (h : Legible d t) {b : List Char × List Char × List Char}
    (h1 : Ascii b.1) (h2 : Ascii b.2.1) (h3 : Ascii b.2.2) (p : Punct) (n : Stamp.Tense)
    {v : Option (List Char × List Char)} (hv : ∀ w, v = some w → Ascii w.1 ∧ Ascii w.2) :
    Ascii (lineText b (Print.treeOf d t).text p n v) := by
  have ht : Ascii (Parser.truthText v) := by
    cases v with
    | none => simp [Parser.truthText, Ascii]
    | some w =>
      obtain ⟨a1, a2⟩ := hv w rfl
      exact Ascii.append (s := ['%']) (by simp [Ascii]) (a1.append (Ascii.append (s := [';']) (by simp [Ascii])
        (a2.append (by simp [Ascii]))))
  have hn : Ascii (tenseText n) := by cases n <;> simp [tenseText, Ascii]
  have hp : Ascii [punctChar p, ' '] := by cases p <;> simp [punctChar, Ascii]
  exact Ascii.append (s := ['$']) (by simp [Ascii]) (h1.append (Ascii.append (s := [';']) (by simp [Ascii])
    (h2.append (Ascii.append (s := [';']) (by simp [Ascii]) (h3.append (Ascii.append (s := ['$', ' '])
      (by simp [Ascii]) ((ascii_text h).append (Ascii.append hp (hn.append ht)))))))))

/-- A printed task, read. -/
theorem reread_line {M : Mach} (hord : ∀ l, (M.ord l).Perm l) (hM : ExactInts M) {s : Session}
    (hw : World.Tidy s.env.world) {t : Term} (hl : Legible s.env.world.store.dict t)
    (hv : Sayable t) (g : Good t) (st : Steady t) (ho : InOrder t)
    (rd : ∀ N, (∀ k x i, .var k x i ∈ leafTerms t →
      ((N k).idxOf (vname k (varIdx k i)) : Int) = varIdx k i) → Known s.env.world N t)
    {b : List Char × List Char × List Char} {p : Punct} {v : Option (List Char × List Char)}
    (hwr : Writable p b v) (n : Stamp.Tense) {ys xs : List ℚ}
    (hb : List.Forall₂ Decimal [b.1, b.2.1, b.2.2] ys)
    (hx : List.Forall₂ Decimal (v.elim [] fun v => [v.1, v.2]) xs) (ey : ∀ y ∈ ys, M.erange y = false)
    (ex : ∀ x ∈ xs, M.erange x = false) {strict : Bool} {fuel d : Nat} {scan : Scan}
    (hp : parseText strict fuel s.buf (codes (lineText b (treeOf s.env.world.store.dict t).text p n v)) d =
      .ok ⟨some (lineAst b (astContent s.env.world.store.dict t) p n v), 0, scan⟩) (bad : Act Val) :
    ∃ tk s', parseTask M bad strict fuel d s
        (codes (lineText b (treeOf s.env.world.store.dict t).text p n v)) = (.ok (some tk), s') ∧
      evalTask M bad (lineAst b (astContent s.env.world.store.dict t) p n v) s.env.clearNames =
        (.ok tk, s'.env) ∧
      tk.sentence.term.relabel blank = t.relabel blank ∧ OnlyHandles s.env.world s'.env.world := by
  have hr := rereads hord hM hw hl g st (rd (fun k => seen [] ((synOf s.env.world.store.dict t).vars k))
    (fun k x i hx => ho.idx hl hx)) s.env.clearNames ⟨hw, _, rfl⟩ (fun k => List.prefix_rfl)
  obtain ⟨t', e1, h1, h2, h3, _, _⟩ := hr
  obtain ⟨tk, e2, h4, h5, h7⟩ := taskPart_ok h1 p (tenseTime n) hb hx ey ex
  obtain ⟨b', p', t0, ms, h8, h9⟩ := evalTask_part (isNarsese_task hl hv hwr n)
  rw [part_line_task hl] at h8
  simp only [Option.some.injEq, List.cons.injEq, Part.task.injEq, and_true] at h8
  obtain ⟨rfl, rfl, rfl, rfl⟩ := h8
  have hev : evalTask M bad (lineAst b (astContent s.env.world.store.dict t) p n v) s.env.clearNames =
      (.ok tk, e2) := by
    rw [h9, Act.bind_of_ok h4]
    rfl
  refine ⟨tk, ⟨scan.buf, .null, e2⟩, ?_, hev, by rw [h5, h2], by rw [h7]; exact h3⟩
  unfold parseTask
  rw [hp]
  simp only [Member.after, hev]

end Cnars.Parser
