import Verif.Parser.Demo
import Verif.Parser.LineBuild
import Verif.Props.Echo
import Verif.Props.Progress
import Verif.Props.Shown

/-!
# C96: a program that reads lines, prints the tasks and drops them
-/

namespace Cnars.Props
open Cnars Cnars.Parser Cnars.Term

/-- A line, its syntax tree, its type, and the term written in it. -/
structure Entry where
  text : List WChar
  tree : List Ast
  punct : Punct
  term : Syn

/-- The line is in the language of `narsese.par`, with this tree, and nothing is in it that is known to go
wrong; all this can be seen from the line. -/
structure Entry.Fair (M : Mach) (N fuel : Nat) (l : Entry) : Prop where
  tab : (9 : WChar) ∉ firstLine l.text
  ascii : ∀ c ∈ l.text, c ≤ 127
  modest : Modest (firstLine l.text)
  fuel : 24 * (firstLine l.text).length + 6 ≤ fuel
  narsese : IsNarsese (firstLine l.text) l.tree
  meant : Ast.meantAll l.tree = true
  part : ∃ bs ms, partAll l.tree = some [.task bs l.punct l.term ms]
  room : (Ast.mentionsAll l.tree).length ≤ N
  paired : Paired World.init [] (Ast.mentionsAll l.tree)
  range : ∀ s x, Written (firstLine l.text) s → Denotes s x →
    M.erange x = false ∧ -2 ^ 31 ≤ x ∧ x ≤ 2 ^ 31 - 1
  plain : ∀ u ∈ l.term.subs, u.Plain
  tells : ∀ x c y, .stmt x c y ∈ l.term.subs → y.operates = false

/-- `text` is what should be printed for the line: there is a task that was made from its tree, and the text is
made from the numbers of this task and a text of its term, which, unless a hash clashes with the key of
an atom, is that of the term in the line up to the order in commutative compounds. -/
def Answers (M : Mach) (fix : Nat → ℚ → Str) (l : Entry) (text : Str) : Prop :=
  ∃ (k : Task) (env env' : Env) (x : Str),
    evalTask M undefined l.tree env.clearNames = (.ok k, env') ∧
    text = lineText (fix 2 ((Num.fin k.budget.priority).shown M.R), fix 2 ((Num.fin k.budget.durability).shown M.R),
      fix 2 ((Num.fin k.budget.quality).shown M.R)) x l.punct (k.sentence.stamp.tense env'.globals.time)
      (printedTruth fix k.sentence) ∧
    (Print.NoClash env'.world.store.dict k.sentence.term →
      ∃ tree, x = tree.text ∧ Same (l.term.shown M fun _ => []).1 tree)

theorem plain_simple {u : Syn} (h : u.Plain) : u.Simple := by
  cases u with
  | comp c ts =>
    intro hc
    obtain ⟨h1, h2⟩ := h hc
    refine ⟨⟨[], fun x hx => .inl (h1 x hx)⟩, .lone ?_⟩
    rcases h2 with h2 | h2
    · match ts, h2 with
      | [], _ => exact .nil
      | [x], _ => exact List.pairwise_singleton _ _
    · refine List.Pairwise.imp_of_mem (R := fun _ _ => True) (fun {x y} hx _ _ => ?_) (List.pairwise_of_forall (by simp))
      obtain ⟨s, rfl | rfl⟩ := h2 x hx <;> exact .inl (by simp [Syn.bare, Syn.vars])
  | stmt s c p => exact ⟨fun hc => .inl (h.1 hc), fun hc => .inl (h.2 hc)⟩
  | _ => trivial

theorem paired_congr {w w' : World} (h : ∀ n, w.store.checkByName n = w'.store.checkByName n) :
    ∀ {ms seen : List Mention}, Paired w seen ms → Paired w' seen ms
  | [], _, _ => trivial
  | _ :: _, _, hp => ⟨fun s e => by
      have := hp.1 s e
      simpa only [h] using this, paired_congr h hp.2⟩

/-- One line is read, can be printed, and the task is dropped. -/
theorem fair_step {M : Mach} (hm : Machine M) {N : Nat} (hM : FreshBelow M N) {d : Nat} (hd : d < 3) {fuel : Nat}
    {g : Stamp.Globals} {l : Entry} (hf : l.Fair M N fuel) {s : Session} {ts : List (Option Task)}
    (hs : Prog.Steps M true N (Prog.start g) ⟨s, ts, []⟩) (hn : ∀ t ∈ ts, t = none) :
    ∃ k s1 w x, parseTask M undefined true fuel d s l.text = (.ok (some k), s1) ∧
      evalTask M undefined l.tree s.env.clearNames = (.ok k, s1.env) ∧
      Formed k.sentence ∧ k.sentence.punct = l.punct ∧
      Print.term s1.env.world.store.dict false k.sentence.term = .ok x ∧
      (Print.NoClash s1.env.world.store.dict k.sentence.term →
        ∃ tree, x = tree.text ∧ Same (l.term.shown M fun _ => []).1 tree) ∧
      (addrs k.sentence.term).foldlM (fun w a => dropAddr a w) s1.env.world = .ok w ∧
      ∃ ts', Prog.Steps M true N (Prog.start g) ⟨{ s1 with env := { s1.env with world := w } }, ts', []⟩ ∧
        ∀ t ∈ ts', t = none := by
  obtain ⟨_, _, _, _, _, _, _, h⟩ := C88_dictionary_partial hm.ord hM hs
  obtain ⟨-, hdict, hno⟩ := (h hn).2 rfl
  obtain ⟨lost, hI⟩ := (Prog.Inv.start g).steps hm.ord hM hs
  have hT := (Prog.Told.start g).steps hm hM (Prog.Inv.start g) hs
  have hw : Reach false s.env.world := hI.acct.reach
  obtain ⟨scan, hpt⟩ := (C74_modest_partial hI.buf hd hf.tab hf.ascii hf.modest hf.fuel l.tree).mpr
    ⟨hf.narsese, hf.meant⟩
  obtain ⟨bs, ms, hp⟩ := hf.part
  have hpair : Paired s.env.world [] (Ast.mentionsAll l.tree) :=
    paired_congr (fun n => by rw [(hno n default).1]; rfl) hf.paired
  have hroom : s.env.world.dictH.length + (Ast.mentionsAll l.tree).length ≤ N := by
    have hdict : s.env.world.dictH = [] := hdict
    rw [hdict]; simpa using hf.room
  obtain ⟨k, env', he⟩ := C84_progress_partial hI.buf hd hpt rfl hm.ord hm.sound hm.intExact hM (bad := undefined)
    (env := s.env.clearNames) hw hroom hpair hf.range (fun bs' p' t' ms' hp' u hu => by
      rw [hp] at hp'
      simp only [Option.some.injEq, List.cons.injEq, Part.task.injEq, and_true] at hp'
      obtain ⟨rfl, rfl, rfl, rfl⟩ := hp'
      exact plain_simple (hf.plain u hu))
  have hms : l.term.mentions = Ast.mentionsAll l.tree := by
    rw [Ast.partAll_mentions hp]; simp [Part.mentions]
  have hcl : l.term.Clear M s.env.clearNames := by
    have h1 := hroom
    have h2 := hpair
    rw [← hms] at h1 h2
    exact Syn.plain_clear hm.ord hM hw l.term (live := []) (seen := []) hf.plain (Acct.start hw) h2 h1
  obtain ⟨q1, q2, q3, q4⟩ := line_told hI.buf hd hpt rfl hm.ord hM he hw hroom hpair hT.ops hp hcl hf.tells
  obtain ⟨x, hx⟩ := q1.printable.ok q2 env'.world.store.dict
  have hst := read_stated hI.buf hd hpt rfl hm he
  have hparse : parseTask M undefined true fuel d s l.text = (.ok (some k), ⟨scan.buf, .null, env'⟩) := by
    unfold parseTask
    simp only [hpt, Member.after, he]
  have hfits : Fits true N fuel d s l.text := by
    intro r a h1 h2
    rw [hpt] at h1
    cases h1
    cases h2
    exact ⟨hroom, hpair⟩
  have hs1 := hs.step (.read hd hfits hparse)
  have hi : (ts ++ [some k])[ts.length]? = some (some k) := by simp
  obtain ⟨lost1, hI1⟩ := (Prog.Inv.start g).steps hm.ord hM hs1
  obtain ⟨l1, l2, e1, e2⟩ := Prog.terms_set hi
  have hA := hI1.acct
  rw [Prog.terms, e1, List.append_assoc, List.cons_append] at hA
  obtain ⟨w, hw1, _⟩ := hA.dropped
  have hs2 := hs1.step (.drop hi hw1)
  have hpu : k.sentence.punct = l.punct := by
    obtain ⟨_, _, _, _, _, _, _, _, hp', _, _, _, hpu, _⟩ := evalTask_ok hf.narsese he
    rw [hp] at hp'
    simp only [Option.some.injEq, List.cons.injEq, Part.task.injEq, and_true] at hp'
    rw [hpu, hp'.2.1]
  refine ⟨k, ⟨scan.buf, .null, env'⟩, w, x, hparse, he, hst.formed, hpu, hx, fun hk => ?_, hw1, _, hs2, ?_⟩
  · rw [q1.text q2 hk] at hx
    exact ⟨_, (Res.ok.inj hx).symm, q3⟩
  · intro t ht
    rw [List.set_append_right _ _ (le_refl _)] at ht
    simp only [Nat.sub_self, List.set_cons_zero, List.mem_append, List.mem_singleton] at ht
    exact ht.elim (hn t) id

/-- C96: a program that reads any number of lines, prints each task and drops it, as `main` does, reads,
prints and drops them all; every text is what should be printed for the line; and at the end all dictionaries are
empty.

Missing from the full statement: lines that are rejected, for which a null pointer is dereferenced
(counterexample); what is missing in C84 and C87; allocators that return addresses equal in the low 32 bits to
those of living terms. -/
theorem C96_loop_partial {M : Mach} (hm : Machine M) {fix : Nat → ℚ → Str} {bg : Fin 3 → ℚ → Str} {N : Nat}
    (hM : FreshBelow M N) {d : Nat} (hd : d < 3) {fuel : Nat} {g : Stamp.Globals} {lines : List Entry}
    (hl : ∀ l ∈ lines, l.Fair M N fuel) :
    ∃ texts s, demo M fix bg true fuel d (lines.map Entry.text) (Prog.start g).ses = .ok (texts, s) ∧
      List.Forall₂ (Answers M fix) lines texts ∧
      s.env.world.handles = [] ∧ s.env.world.dictH = [] ∧
      ∀ n k, s.env.world.store.checkByName n = false ∧ s.env.world.store.check k = false := by
  suffices H : ∀ (lines : List Entry) (s : Session) (ts : List (Option Task)), (∀ l ∈ lines, l.Fair M N fuel) →
      Prog.Steps M true N (Prog.start g) ⟨s, ts, []⟩ → (∀ t ∈ ts, t = none) →
      ∃ texts s', demo M fix bg true fuel d (lines.map Entry.text) s = .ok (texts, s') ∧
        List.Forall₂ (Answers M fix) lines texts ∧
        s'.env.world.handles = [] ∧ s'.env.world.dictH = [] ∧
        ∀ n k, s'.env.world.store.checkByName n = false ∧ s'.env.world.store.check k = false from
    H lines _ [] hl (.refl _) (by simp)
  intro lines
  induction lines with
  | nil =>
    intro s ts _ hs hn
    obtain ⟨_, _, _, _, _, _, _, h⟩ := C88_dictionary_partial hm.ord hM hs
    exact ⟨[], s, rfl, .nil, (h hn).2 rfl⟩
  | cons l lines ih =>
    intro s ts hl hs hn
    obtain ⟨k, s1, w, x, h1, h2, h3, h4, h5, h6, h7, ts', h8, h9⟩ := fair_step hm hM hd (hl l List.mem_cons_self) hs hn
    obtain ⟨texts, s', r1, r2, r3⟩ := ih _ _ (fun l' hl' => hl l' (List.mem_cons_of_mem _ hl')) h8 h9
    have htext := task_text h3 M.R fix bg s1.env.globals.time s1.env.world.store.dict h5 (shownBudget k.budget)
    rw [h4] at htext
    refine ⟨_ :: texts, s', ?_, .cons ⟨k, s.env, s1.env, x, h2, rfl, h6⟩ r2, r3⟩
    rw [List.map_cons, demo, h1]
    simp only [htext, h7, r1, Res.ok_bind]
    rfl

/-! ### The lines of `main` -/

/-- The contiguous parts of a line. -/
def parts (line : List WChar) : List (List WChar) := line.tails.flatMap List.inits

theorem written_parts {line : List WChar} {s : List Char} (h : Written line s) :
    ∃ v ∈ parts line, s = v.map fun c => Char.ofNat c.toNat := by
  obtain ⟨v, hv, e⟩ := h
  obtain ⟨t, h1, h2⟩ := List.infix_iff_prefix_suffix.mp hv
  exact ⟨v, List.mem_flatMap.mpr ⟨t, (List.mem_tails _ _).mpr h2, (List.mem_inits _ _).mpr h1⟩, e⟩

theorem denotes_decimal {s : List Char} {x : ℚ} (h : Denotes s x) : Action.decimal s = some x := by
  rcases h with h | ⟨n, h, rfl⟩
  · exact h.reads
  · exact numeral_decimal h

/-- All numbers in the line are among 1 and 2. -/
def lowNumbers (line : List WChar) : Bool :=
  (parts line).all fun v => match Action.decimal (v.map fun c => Char.ofNat c.toNat) with
    | some x => decide (x = 1 ∨ x = 2)
    | none => true

theorem lowNumbers_sound {line : List WChar} (h : lowNumbers line = true) {s : List Char} {x : ℚ}
    (hs : Written line s) (hx : Denotes s x) : x = 1 ∨ x = 2 := by
  obtain ⟨v, hv, rfl⟩ := written_parts hs
  have := List.all_eq_true.mp h v hv
  rw [denotes_decimal hx] at this
  simpa using this

/-- `<a-->b>`, written in the line. -/
def robin : Entry := ⟨bytes ['<', 'r', 'o', 'b', 'i', 'n', '-', '-', '>', 'b', 'i', 'r', 'd', '>', '.'],
  treeOf ['<', 'r', 'o', 'b', 'i', 'n', '-', '-', '>', 'b', 'i', 'r', 'd', '>', '.'], .judgement,
  .stmt (.name ['r', 'o', 'b', 'i', 'n']) .inheritance (.name ['b', 'i', 'r', 'd'])⟩

/-- `(&&, a, b).` -/
def bothLine (a b : List Char) : List Char :=
  ['(', '&', '&', ',', ' '] ++ a ++ [',', ' '] ++ b ++ [')', '.']

def both (a b : List Char) : Entry := ⟨bytes (bothLine a b), treeOf (bothLine a b), .judgement,
  .comp .conjunction [.name a, .name b]⟩

def mainEntries : List Entry := [robin, both ['A'] ['B'], both ['A', '1'] ['B', '1'], both ['A', '2'] ['B', '2']]

theorem mainEntries_texts : mainEntries.map Entry.text = mainLines.map bytes := rfl

/-- What `Fair` asks for that can be computed. -/
def fair (l : Entry) : Bool :=
  decide ((9 : WChar) ∉ firstLine l.text) && l.text.all (fun c => decide (c ≤ 127)) &&
  decide ((firstLine l.text).length ≤ 15) && accepted? (parseText true 1000 freshBuf l.text 0) &&
  Ast.meantAll l.tree && decide ((Ast.mentionsAll l.tree).length ≤ 2) &&
  paired World.init [] (Ast.mentionsAll l.tree) && lowNumbers (firstLine l.text)

theorem treeOf_accepted {text : List Char} (h : accepted? (parseText true 1000 freshBuf (bytes text) 0) = true) :
    ∃ r, parseText true 1000 freshBuf (bytes text) 0 = .ok r ∧ r.ast = some (treeOf text) := by
  unfold treeOf
  cases hr : parseText true 1000 freshBuf (bytes text) 0 with
  | ok r =>
    rw [hr] at h
    cases ha : r.ast with
    | none => simp [accepted?, ha] at h
    | some a => exact ⟨r, rfl, by simp [ha]⟩
  | _ => rw [hr] at h; simp [accepted?] at h

theorem fair_sound {M : Mach} (h1 : M.erange 1 = false) (h2 : M.erange 2 = false) {fuel : Nat}
    (hf : 366 ≤ fuel) {text : List Char} {p : Punct} {t : Syn}
    (h : fair ⟨bytes text, treeOf text, p, t⟩ = true) (hp : partAll (treeOf text) = some [.task none p t []])
    (hs : ∀ u ∈ t.subs, u.Plain) (ht : ∀ x c y, .stmt x c y ∈ t.subs → y.operates = false) :
    Entry.Fair M 2 fuel ⟨bytes text, treeOf text, p, t⟩ := by
  simp only [fair, Bool.and_eq_true, decide_eq_true_eq, List.all_eq_true] at h
  obtain ⟨⟨⟨⟨⟨⟨⟨a1, a2⟩, a3⟩, a4⟩, a5⟩, a6⟩, a7⟩, a8⟩ := h
  obtain ⟨r, b1, b2⟩ := treeOf_accepted a4
  refine ⟨a1, a2, .inl (le_trans a3 (by omega)), (by show 24 * (firstLine (bytes text)).length + 6 ≤ fuel; omega), C43_tree .fresh (by omega) b1 b2, a5, ⟨none, [], hp⟩, a6,
    paired_sound a7, fun s x k1 k2 => ?_, hs, ht⟩
  rcases lowNumbers_sound a8 k1 k2 with rfl | rfl
  · exact ⟨h1, by norm_num, by norm_num⟩
  · exact ⟨h2, by norm_num, by norm_num⟩

theorem robin_part : partAll robin.tree = some [.task none .judgement robin.term []] := by
  have h : (match partAll robin.tree with
      | some [.task none .judgement (.stmt (.name a) .inheritance (.name b)) []] =>
        decide (a = ['r', 'o', 'b', 'i', 'n'] ∧ b = ['b', 'i', 'r', 'd'])
      | _ => false) = true := by decide +kernel
  split at h
  · rename_i a b e
    obtain ⟨rfl, rfl⟩ := of_decide_eq_true h
    exact e
  · cases h

/-- Is this the tree of `(&&, a, b).`? -/
def isBoth (a b : List Char) : Bool :=
  match partAll (both a b).tree with
  | some [.task none .judgement (.comp .conjunction [.name x, .name y]) []] => decide (x = a ∧ y = b)
  | _ => false

theorem both_part {a b : List Char} (h : isBoth a b = true) :
    partAll (both a b).tree = some [.task none .judgement (both a b).term []] := by
  unfold isBoth at h
  split at h
  · rename_i e
    obtain ⟨rfl, rfl⟩ := of_decide_eq_true h
    exact e
  · cases h

theorem robin_fair {M : Mach} (h1 : M.erange 1 = false) (h2 : M.erange 2 = false) {fuel : Nat}
    (hf : 366 ≤ fuel) : robin.Fair M 2 fuel := by
  refine fair_sound h1 h2 hf (by decide +kernel) robin_part ?_ ?_
  · intro u hu
    simp only [Syn.subs, List.mem_cons, List.mem_append, List.not_mem_nil, or_false] at hu
    rcases hu with rfl | rfl | rfl <;> simp [Syn.Plain]
  · intro x c y h
    simp only [Syn.subs, List.mem_cons, List.mem_append, List.not_mem_nil, or_false, reduceCtorEq, Syn.stmt.injEq] at h
    rw [h.2.2]
    rfl

theorem both_fair {M : Mach} (h1 : M.erange 1 = false) (h2 : M.erange 2 = false) {fuel : Nat}
    (hf : 366 ≤ fuel) {a b : List Char} (h : fair (both a b) = true) (hb : isBoth a b = true) :
    (both a b).Fair M 2 fuel := by
  refine fair_sound h1 h2 hf h (both_part hb) ?_ ?_
  · intro u hu
    simp only [Syn.subs, Syn.subsAll, List.mem_cons, List.mem_append, List.not_mem_nil, or_false] at hu
    rcases hu with rfl | rfl | rfl
    · exact fun _ => ⟨by simp [Syn.commutes], .inr (by simp)⟩
    · trivial
    · trivial
  · intro x c y h
    simp [Syn.subs, Syn.subsAll] at h

/-- A number near `k` units of the last decimal. -/
theorem fixed_near {fix : Nat → ℚ → Str} (hf : Fixed fix) {n k : Nat} {x : ℚ} (h0 : 0 ≤ x)
    (h : |x - k / 10 ^ n| < 1 / (2 * 10 ^ n)) : fix n x = point n k := by
  obtain ⟨m, hm, h1⟩ := hf n x h0
  have hpos : (0 : ℚ) < 10 ^ n := by positivity
  have h2 : |(m : ℚ) / 10 ^ n - k / 10 ^ n| < 1 / 10 ^ n := by
    rw [abs_lt] at h ⊢
    rw [abs_le] at h1
    have : (1 : ℚ) / 10 ^ n = 1 / (2 * 10 ^ n) + 1 / (2 * 10 ^ n) := by field_simp; norm_num
    constructor <;> linarith [h.1, h.2, h1.1, h1.2]
  rw [← sub_div, abs_div, abs_of_pos hpos, div_lt_div_iff_of_pos_right hpos] at h2
  have h3 : |(m : Int) - k| < 1 := by exact_mod_cast h2
  have : (m : Int) = k := by
    have := abs_lt.mp h3
    omega
  rw [hm, show m = k by exact_mod_cast this]

/-- A number of the default budget is shown with two decimals. -/
theorem fixed_default {M : Mach} (hm : Machine M) {fix : Nat → ℚ → Str} (hf : Fixed fix) {k : Nat} (hk : k ≤ 100) :
    fix 2 ((Num.fin (M.R.s (k / 100))).shown M.R) = point 2 k := by
  have hk' : (k : ℚ) ≤ 100 := by exact_mod_cast hk
  have hk0 : (0 : ℚ) ≤ k := by positivity
  have e := hm.float.err (k / 100) (by positivity) (by linarith)
  obtain ⟨h0, _, _, h3⟩ := C40_float_partial hm.float (.fin (M.R.s (k / 100)))
  have s0 : 0 ≤ M.R.s (k / 100) := by
    have := hm.float.mono (show (0 : ℚ) ≤ k / 100 by positivity)
    rwa [show M.R.s 0 = 0 by simpa using hm.float.ints 0 (by omega) (by omega)] at this
  have s1 : M.R.s (k / 100) ≤ 1 := by
    have := hm.float.mono (show (k : ℚ) / 100 ≤ 1 by linarith)
    rwa [show M.R.s 1 = 1 by simpa using hm.float.ints 1 (by omega) (by omega)] at this
  have h4 := h3 _ rfl s0 s1
  refine fixed_near hf h0 ?_
  rw [abs_le] at e h4
  rw [abs_lt]
  norm_num at e h4 ⊢
  constructor <;> linarith [e.1, e.2, h4.1, h4.2]

/-- The text of a term in one of the lines of `main`, with the rest of what is printed for the line. -/
def frame (x : Str) : Str :=
  ['$', '0', '.', '8', '0', ';', '0', '.', '8', '0', ';', '0', '.', '5', '0', '$', ' '] ++ x ++
    ['.', ' ', '%', '1', '.', '0', '0', '0', ';', '0', '.', '9', '0', '0', '%']

theorem answers_frame {M : Mach} (hm : Machine M) {fix : Nat → ℚ → Str} (hf : Fixed fix) {text : List Char}
    {t : Syn} (h : accepted? (parseText true 1000 freshBuf (bytes text) 0) = true)
    (hp : partAll (treeOf text) = some [.task none .judgement t []]) {y : Str}
    (hy : Answers M fix ⟨bytes text, treeOf text, .judgement, t⟩ y) :
    ∃ (k : Task) (env env' : Env) (x : Str), evalTask M undefined (treeOf text) env.clearNames = (.ok k, env') ∧
      y = frame x ∧ (Print.NoClash env'.world.store.dict k.sentence.term →
        ∃ tree, x = tree.text ∧ Same (t.shown M fun _ => []).1 tree) := by
  obtain ⟨k, env, env', x, he, rfl, h3⟩ := hy
  refine ⟨k, env, env', x, he, ?_, h3⟩
  obtain ⟨r, b1, b2⟩ := treeOf_accepted h
  obtain ⟨e1, _, e3, _, _, e6, e7, _⟩ := line_says (bs := []) (vs := []) (ys := []) (xs := []) (tm := []) (n := none)
    .fresh (by omega) b1 b2 hm.sound hm.intExact hm.minus hm.cfg he rfl .nil .nil hp
  have hst : ∀ time, k.sentence.stamp.tense time = .eternal := by
    intro time
    rw [e3]
    rfl
  have hb := e7 rfl
  have f8 := fixed_default hm hf (k := 80) (by omega)
  have f5 := fixed_default hm hf (k := 50) (by omega)
  have g1 : fix 3 1 = point 3 1000 := fixed_near hf (by norm_num) (by norm_num)
  have g9 : fix 3 (M.R.s (9 / 10)) = point 3 900 := by
    have e := hm.float.err (9 / 10) (by norm_num) (by norm_num)
    rw [abs_le] at e
    refine fixed_near hf (by linarith [e.1, e.2]) ?_
    rw [abs_lt]
    norm_num at e ⊢
    constructor <;> linarith [e.1, e.2]
  have c8 : ((80 : Nat) : ℚ) / 100 = 8 / 10 := by norm_num
  have c5 : ((50 : Nat) : ℚ) / 100 = 5 / 10 := by norm_num
  rw [c8] at f8
  rw [c5] at f5
  have hv : printedTruth fix k.sentence = some (point 3 1000, point 3 900) := by
    simp only [printedTruth, e1, e6]
    simp [g1, g9]
  rw [hst, hv, hb, f8, f5]
  have p8 : point 2 80 = ['0', '.', '8', '0'] := by decide
  have p5 : point 2 50 = ['0', '.', '5', '0'] := by decide
  have q1 : point 3 1000 = ['1', '.', '0', '0', '0'] := by decide
  have q9 : point 3 900 = ['0', '.', '9', '0', '0'] := by decide
  rw [p8, p5, q1, q9]
  simp [lineText, frame, punctChar, tenseText, Parser.truthText]

end Cnars.Props
