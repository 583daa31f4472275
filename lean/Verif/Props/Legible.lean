import Verif.Parser.Legible
import Verif.Props.Files
import Verif.Props.Reads

/-!
# C96, C99: lines with commutative compounds
-/

namespace Cnars.Props
open Cnars Cnars.Parser Cnars.Term

/-- A line that can be read (C97), and printed: the subject of a statement whose predicate is an operation, or a statement
with such a predicate, is a compound. -/
structure Legible (M : Mach) (N fuel : Nat) (text : List WChar) (tree : List Ast) : Prop
    extends Readable M N fuel text tree where
  printed : ∀ bs p t ms, partAll tree = some [.task bs p t ms] → ∀ u ∈ t.subs, u.printed = true

/-- The text is what is printed for a task that was made from this tree, with the text `x` of its term. -/
def Prints (M : Mach) (fix : Nat → ℚ → Str) (bg : Fin 3 → ℚ → Str) (colored : Bool) (tree : List Ast) (text : Str) :
    Prop :=
  ∃ (k : Task) (env env' : Env) (x : Str),
    evalTask M undefined tree env.clearNames = (.ok k, env') ∧
    Print.term env'.world.store.dict false k.sentence.term = .ok x ∧
    text = budgetText M.R fix bg colored k.budget.priority k.budget.durability k.budget.quality ++ [' '] ++
      sentenceText fix x k.sentence.punct (k.sentence.stamp.tense env'.globals.time) k.sentence

/-- The term of a task that was read can be printed. -/
theorem read_printable {M : Mach} (hord : ∀ l, (M.ord l).Perm l) {line : List WChar} {a : List Ast} (hn : IsNarsese line a)
    {bad : Act Val} {env env' : Env} {k : Task} (he : evalTask M bad a env = (.ok k, env'))
    (hp : Poised M env (Ast.mentionsAll a)) (ho : OpNames env.world.atoms)
    (hs : ∀ bs p t ms, partAll a = some [.task bs p t ms] → ∀ u ∈ t.subs, u.Simple)
    (hq : ∀ bs p t ms, partAll a = some [.task bs p t ms] → ∀ u ∈ t.subs, u.printed = true) :
    Print.Printable k.sentence.term ∧ Good k.sentence.term := by
  obtain ⟨b, p, t, ms, r, e1, vs, xs, h1, h2, _, h3, _⟩ := evalTask_ok hn he
  have hms : t.mentions = Ast.mentionsAll a := by
    rw [Ast.partAll_mentions h1]; simp [Part.mentions]
  have hf : t.Filled := by
    obtain ⟨a, rfl, ht, _⟩ := narsese_typed hn
    exact Ast.partAll_filled (by simpa using ht) h1 _ List.mem_cons_self
  have hc : ∀ u ∈ t.subs, u.callsOp := by
    intro u hu
    cases u with
    | call f ts => exact narsese_calls hn h1 _ hu f ts rfl
    | _ => trivial
  rw [h3]
  exact ⟨(Syn.eval_printable hord t (hs _ _ _ _ h1) (hq _ _ _ _ h1) hf hc
    (by rw [hms]; exact mentions_bare hn h1) ho (by rw [hms]; exact hp) h2).1, (Syn.eval_names M t h2).1⟩

/-- One line is read, can be printed, and the task is dropped. -/
theorem Legible.turn {M : Mach} (hm : Machine M) {N : Nat} (hM : FreshBelow M N) {d : Nat} (hd : d < 3) {fuel : Nat}
    {g : Stamp.Globals} {text : List WChar} {tree : List Ast} (hf : Legible M N fuel text tree) {strict : Bool}
    {s : Session} {ts : List (Option Task)} (hs : Prog.Steps M strict N (Prog.start g) ⟨s, ts, []⟩)
    (hn : ∀ t ∈ ts, t = none) (fix : Nat → ℚ → Str) (bg : Fin 3 → ℚ → Str) (colored : Bool) :
    ∃ k s1 w x ts', parseTask M undefined strict fuel d s text = (.ok (some k), s1) ∧
      Print.task M.R fix bg s1.env.globals.time s1.env.world.store.dict colored (shownBudget k.budget) k.sentence = .ok x ∧
      Prints M fix bg colored tree x ∧
      (addrs k.sentence.term).foldlM (fun w a => dropAddr a w) s1.env.world = .ok w ∧
      Prog.Steps M strict N (Prog.start g) ⟨{ s1 with env := { s1.env with world := w } }, ts', []⟩ ∧
      ∀ t ∈ ts', t = none := by
  obtain ⟨_, _, _, _, _, _, _, h⟩ := C88_dictionary_partial hm.ord hM hs
  obtain ⟨-, hdict, hno⟩ := (h hn).2 rfl
  obtain ⟨lost, hI⟩ := (Prog.Inv.start g).steps hm.ord hM hs
  have hT := (Prog.Told.start g).steps hm hM (Prog.Inv.start g) hs
  have hw : Reach false s.env.world := hI.acct.reach
  obtain ⟨k, s1, w, ts', h1, h2, h3, _, h4, h5⟩ := hf.toReadable.turn hm hM hd hs hn
  have hpair : Paired s.env.world [] (Ast.mentionsAll tree) :=
    paired_congr (fun n => by rw [(hno n default).1]; rfl) hf.paired
  have hroom : s.env.world.dictH.length + (Ast.mentionsAll tree).length ≤ N := by
    have hdict : s.env.world.dictH = [] := hdict
    rw [hdict]; simpa using hf.room
  obtain ⟨q1, q2⟩ := read_printable hm.ord hf.narsese h2 (⟨N, hM, hw, hpair, hroom⟩) hT.ops hf.simple hf.printed
  obtain ⟨x, hx⟩ := q1.ok q2 s1.env.world.store.dict
  have hst : Stated k := by
    obtain ⟨r, a, k1, k2, _, k3⟩ := parseTask_some h1
    obtain ⟨hb, hd', k1, k2⟩ := hI.ast.after hI.buf hd k1 a k2
    exact read_stated hb hd' k1 k2 hm k3
  exact ⟨k, s1, w, _, ts', h1, task_text_in hst.formed M.R fix bg s1.env.globals.time _ hx k.budget colored,
    ⟨k, s.env, s1.env, x, h2, hx, rfl⟩, h3, h4, h5⟩

/-- C96: a program that reads any number of lines, prints each task and drops it, as `main` does, reads,
prints and drops them all, also lines with commutative compounds of all kinds that C84 covers.  Every text is that of a
task made from the line; and at the end all dictionaries are empty.

Missing from the full statement: as in `C96_loop_partial`, which also says for lines of fewer kinds what the text of the
term is. -/
theorem C96_legible_partial {M : Mach} (hm : Machine M) {fix : Nat → ℚ → Str} {bg : Fin 3 → ℚ → Str} {N : Nat}
    (hM : FreshBelow M N) {d : Nat} (hd : d < 3) {fuel : Nat} {g : Stamp.Globals} {strict : Bool}
    {lines : List (List WChar × List Ast)} (hl : ∀ l ∈ lines, Legible M N fuel l.1 l.2) :
    ∃ texts s, demo M fix bg strict fuel d (lines.map Prod.fst) (Prog.start g).ses = .ok (texts, s) ∧
      List.Forall₂ (Prints M fix bg false) (lines.map Prod.snd) texts ∧
      s.env.world.handles = [] ∧ s.env.world.dictH = [] ∧
      ∀ n k, s.env.world.store.checkByName n = false ∧ s.env.world.store.check k = false := by
  suffices H : ∀ (lines : List (List WChar × List Ast)) (s : Session) (ts : List (Option Task)),
      (∀ l ∈ lines, Legible M N fuel l.1 l.2) →
      Prog.Steps M strict N (Prog.start g) ⟨s, ts, []⟩ → (∀ t ∈ ts, t = none) →
      ∃ texts s', demo M fix bg strict fuel d (lines.map Prod.fst) s = .ok (texts, s') ∧
        List.Forall₂ (Prints M fix bg false) (lines.map Prod.snd) texts ∧
        s'.env.world.handles = [] ∧ s'.env.world.dictH = [] ∧
        ∀ n k, s'.env.world.store.checkByName n = false ∧ s'.env.world.store.check k = false from
    H lines _ [] hl (.refl _) (by simp)
  intro lines
  induction lines with
  | nil =>
    intro s ts _ hs hn
    obtain ⟨_, _, _, _, _, _, _, h⟩ := C88_dictionary_partial hm.ord hM hs
    exact ⟨[], s, rfl, .nil, (h hn).2 rfl⟩
  | cons l lines ih =>
    intro s ts hl hs hn
    obtain ⟨k, s1, w, x, ts', h1, h2, h3, h4, h5, h6⟩ := (hl l List.mem_cons_self).turn hm hM hd hs hn fix bg false
    obtain ⟨texts, s', r1, r2, r3⟩ := ih _ _ (fun l' hl' => hl l' (List.mem_cons_of_mem _ hl')) h5 h6
    refine ⟨x :: texts, s', ?_, .cons h3 r2, r3⟩
    rw [List.map_cons, demo, h1]
    simp only [h2, h4, r1, Res.ok_bind]
    rfl

/-- The lines of one file. -/
theorem script_legible {M : Mach} (hm : Machine M) {fix : Nat → ℚ → Str} {bg : Fin 3 → ℚ → Str} {N : Nat}
    (hM : FreshBelow M N) {d : Nat} (hd : d < 3) {fuel : Nat} {g : Stamp.Globals} {colored strict : Bool}
    {lines ts : List (List Char)} (h : Script lines ts) :
    ∀ {tree : List Char → List Ast} {s : Session} {ks : List (Option Task)},
      (∀ t ∈ ts, Legible M N fuel (bytes t) (tree t)) → Prog.Steps M strict N (Prog.start g) ⟨s, ks, []⟩ →
      (∀ k ∈ ks, k = none) →
      ∃ texts s' ks', nal M fix bg colored strict fuel d lines s = .ok (texts, s') ∧
        List.Forall₂ (Prints M fix bg colored) (ts.map tree) texts ∧
        Prog.Steps M strict N (Prog.start g) ⟨s', ks', []⟩ ∧ ∀ k ∈ ks', k = none := by
  induction h with
  | nil =>
    intro tree s ks _ hs hn
    exact ⟨[], s, ks, rfl, .nil, hs, hn⟩
  | @skip line lines ts hi _ ih =>
    intro tree s ks hf hs hn
    have hw := (C99_wanted line []).2.1.mpr hi
    obtain ⟨texts, s', ks', r⟩ := ih hf hs hn
    refine ⟨texts, s', ks', ?_, r.2⟩
    rw [nal, hw]
    simpa only [Res.ok_bind] using r.1
  | @ask line lines t ts ha _ ih =>
    intro tree s ks hf hs hn
    have hw := (C99_wanted line t).1.mpr ha
    obtain ⟨k, s1, w, x, ks1, h1, h2, h3, h4, h5, h6⟩ := (hf t List.mem_cons_self).turn hm hM hd hs hn fix bg colored
    obtain ⟨texts, s', ks', r1, r2, r3⟩ := ih (fun l' hl' => hf l' (List.mem_cons_of_mem _ hl')) h5 h6
    refine ⟨x :: texts, s', ks', ?_, .cons h3 r2, r3⟩
    rw [nal, hw]
    simp only [Res.ok_bind, h1, h2, h4, r1]
    rfl

/-- C99: `test_parse_nal` reads, prints and drops what is asked for in any number of files, also lines with commutative
compounds of all kinds that C84 covers.  Every text is that of a task made from the line, and at the end all
dictionaries are empty.

Missing from the full statement: as in `C99_files_partial`, which also says for lines of fewer kinds what the text of the
term is. -/
theorem C99_legible_partial {M : Mach} (hm : Machine M) {fix : Nat → ℚ → Str} {bg : Fin 3 → ℚ → Str} {N : Nat}
    (hM : FreshBelow M N) {d : Nat} (hd : d < 3) {fuel : Nat} {g : Stamp.Globals} {colored strict : Bool}
    {files : List (Option (List Char))} {ts : List (List Char)} (h : Folder files ts) {tree : List Char → List Ast}
    (hl : ∀ t ∈ ts, Legible M N fuel (bytes t) (tree t)) :
    ∃ texts s, nalFiles M fix bg colored strict fuel d files (Prog.start g).ses = .ok (texts, s) ∧
      List.Forall₂ (Prints M fix bg colored) (ts.map tree) texts ∧
      s.env.world.handles = [] ∧ s.env.world.dictH = [] ∧
      ∀ n k, s.env.world.store.checkByName n = false ∧ s.env.world.store.check k = false := by
  suffices H : ∀ {files ts}, Folder files ts → ∀ (s : Session) (ks : List (Option Task)),
      (∀ t ∈ ts, Legible M N fuel (bytes t) (tree t)) →
      Prog.Steps M strict N (Prog.start g) ⟨s, ks, []⟩ → (∀ t ∈ ks, t = none) →
      ∃ texts s' ks', nalFiles M fix bg colored strict fuel d files s = .ok (texts, s') ∧
        List.Forall₂ (Prints M fix bg colored) (ts.map tree) texts ∧
        Prog.Steps M strict N (Prog.start g) ⟨s', ks', []⟩ ∧ ∀ k ∈ ks', k = none by
    obtain ⟨texts, s, ks, h1, h2, h3, h4⟩ := H h (Prog.start g).ses [] hl (.refl _) (by simp)
    obtain ⟨_, _, _, _, _, _, _, h5⟩ := C88_dictionary_partial hm.ord hM h3
    exact ⟨texts, s, h1, h2, (h5 h4).2 rfl⟩
  intro files ts h
  induction h with
  | nil =>
    intro s ks _ hs hn
    exact ⟨[], s, ks, rfl, .nil, hs, hn⟩
  | closed _ ih => exact ih
  | @opened text lines files ts us hc hs' _ ih =>
    intro s ks hl hs hn
    obtain ⟨x1, s1, ks1, r1, r2, r3, r4⟩ := script_legible hm (fix := fix) (bg := bg) hM hd (colored := colored) hs'
      (fun l hl' => hl l (List.mem_append_left _ hl')) hs hn
    obtain ⟨x2, s2, ks2, q1, q2, q3⟩ := ih s1 ks1 (fun l hl' => hl l (List.mem_append_right _ hl')) r3 r4
    refine ⟨x1 ++ x2, s2, ks2, ?_, by rw [List.map_append]; exact List.rel_append r2 q2, q3⟩
    rw [nalFiles, (C99_lines text lines).mpr hc, r1]
    simp only [Res.ok_bind, q1]
    rfl

/-! ### Lines of which this can be computed -/

/-- What `Legible` asks for that can be computed. -/
def legible? (N : Nat) (text : List Char) : Bool :=
  readable? N text && match partAll (treeOf text) with
  | some [.task _ _ t _] => t.subs.all Syn.printed
  | _ => true

theorem legible?_sound {M : Mach} (hm : Machine M) (hr : ∀ n : Nat, n ≤ 101 → M.erange n = false) {fuel N : Nat}
    (hf : 2910 ≤ fuel) {text : List Char} (h : legible? N text = true) :
    Legible M N fuel (bytes text) (treeOf text) := by
  obtain ⟨h1, h2⟩ := (Bool.and_eq_true _ _).mp h
  refine ⟨readable?_sound hm hr hf h1, fun bs p t ms hp => ?_⟩
  rw [hp] at h2
  exact List.all_eq_true.mp h2

/-- A line with a commutative compound in another one. -/
example : Machine roomy ∧ FreshBelow roomy 11 ∧ legible? 11 "<(&,(|,a,b),c) --> [d]>.".toList = true :=
  ⟨roomy_ok, fun w hw h => roomy_fresh w hw (by omega), by decide +kernel⟩

theorem all_cons {α : Type} {p : α → Bool} {a : α} {as : List α} (h1 : p a = true) (h2 : as.all p = true) :
    (a :: as).all p = true := by rw [List.all_cons, h1, h2]; rfl

end Cnars.Props
