import Verif.Parser.Reads
import Verif.Props.Demo

/-!
# C97: a program that reads lines and drops the tasks
-/

namespace Cnars.Props
open Cnars Cnars.Parser Cnars.Term

/-- The line is in the language of `narsese.par`, with this tree; its numbers are in range, no operation has
been given one name and not the other, and its terms are simple (C84).  All this can be seen from the line. -/
structure Readable (M : Mach) (N fuel : Nat) (text : List WChar) (tree : List Ast) : Prop where
  tab : (9 : WChar) ∉ firstLine text
  ascii : ∀ c ∈ text, c ≤ 127
  modest : Modest (firstLine text)
  fuel : 24 * (firstLine text).length + 6 ≤ fuel
  narsese : IsNarsese (firstLine text) tree
  meant : Ast.meantAll tree = true
  room : (Ast.mentionsAll tree).length ≤ N
  paired : Paired World.init [] (Ast.mentionsAll tree)
  range : ∀ s x, Written (firstLine text) s → Denotes s x →
    M.erange x = false ∧ -2 ^ 31 ≤ x ∧ x ≤ 2 ^ 31 - 1
  simple : ∀ bs p t ms, partAll tree = some [.task bs p t ms] → ∀ u ∈ t.subs, u.Simple

/-- One turn of the loop. -/
theorem Readable.turn {M : Mach} (hm : Machine M) {N : Nat} (hM : FreshBelow M N) {d : Nat} (hd : d < 3) {fuel : Nat}
    {g : Stamp.Globals} {text : List WChar} {tree : List Ast} (hf : Readable M N fuel text tree) {strict : Bool}
    {s : Session} {ts : List (Option Task)} (hs : Prog.Steps M strict N (Prog.start g) ⟨s, ts, []⟩)
    (hn : ∀ t ∈ ts, t = none) :
    ∃ k s1 w ts', parseTask M undefined strict fuel d s text = (.ok (some k), s1) ∧
      evalTask M undefined tree s.env.clearNames = (.ok k, s1.env) ∧
      (addrs k.sentence.term).foldlM (fun w a => dropAddr a w) s1.env.world = .ok w ∧ s1.ast = .null ∧
      Prog.Steps M strict N (Prog.start g) ⟨{ s1 with env := { s1.env with world := w } }, ts', []⟩ ∧
      ∀ t ∈ ts', t = none := by
  obtain ⟨_, _, _, _, _, _, _, h⟩ := C88_dictionary_partial hm.ord hM hs
  obtain ⟨-, hdict, hno⟩ := (h hn).2 rfl
  obtain ⟨lost, hI⟩ := (Prog.Inv.start g).steps hm.ord hM hs
  have hw : Reach false s.env.world := hI.acct.reach
  have hacc : ∃ scan, parseText strict fuel s.buf text d = .ok ⟨some tree, 0, scan⟩ := by
    cases strict with
    | false => exact (C74_exact_partial hI.buf hd hf.tab hf.fuel tree).mpr ⟨hf.narsese, hf.meant⟩
    | true => exact (C74_modest_partial hI.buf hd hf.tab hf.ascii hf.modest hf.fuel tree).mpr ⟨hf.narsese, hf.meant⟩
  obtain ⟨scan, hpt⟩ := hacc
  have hpair : Paired s.env.world [] (Ast.mentionsAll tree) :=
    paired_congr (fun n => by rw [(hno n default).1]; rfl) hf.paired
  have hroom : s.env.world.dictH.length + (Ast.mentionsAll tree).length ≤ N := by
    have hdict : s.env.world.dictH = [] := hdict
    rw [hdict]; simpa using hf.room
  obtain ⟨k, env', he⟩ := C84_progress_partial hI.buf hd hpt rfl hm.ord hm.sound hm.intExact hM (bad := undefined)
    (env := s.env.clearNames) hw hroom hpair hf.range hf.simple
  have hparse : parseTask M undefined strict fuel d s text = (.ok (some k), ⟨scan.buf, .null, env'⟩) := by
    unfold parseTask
    simp only [hpt, Member.after, he]
  have hfits : Fits strict N fuel d s text := by
    intro r a h1 h2
    rw [hpt] at h1
    cases h1
    cases h2
    exact ⟨hroom, hpair⟩
  have hs1 := hs.step (.read hd hfits hparse)
  have hi : (ts ++ [some k])[ts.length]? = some (some k) := by simp
  obtain ⟨lost1, hI1⟩ := (Prog.Inv.start g).steps hm.ord hM hs1
  obtain ⟨l1, l2, e1, e2⟩ := Prog.terms_set hi
  have hA := hI1.acct
  rw [Prog.terms, e1, List.append_assoc, List.cons_append] at hA
  obtain ⟨w, hw1, _⟩ := hA.dropped
  refine ⟨k, _, w, _, hparse, he, hw1, rfl, hs1.step (.drop hi hw1), ?_⟩
  intro t ht
  rw [List.set_append_right _ _ (le_refl _)] at ht
  simp only [Nat.sub_self, List.set_cons_zero, List.mem_append, List.mem_singleton] at ht
  exact ht.elim (hn t) id

/-- A line and its tree, or `none` for a line that is not in the language. -/
structure Expected (M : Mach) (N fuel : Nat) (strict : Bool) (l : List WChar × Option (List Ast)) : Prop where
  some : ∀ a, l.2 = some a → Readable M N fuel l.1 a
  none : l.2 = none → strict = false ∧ 24 * (firstLine l.1).length + 6 ≤ fuel ∧ ∀ a, ¬ IsNarsese (firstLine l.1) a

/-- C97: a program that reads any number of lines and drops what it gets, as the tests of efficiency do, gets a
task for every line of the language, made from the tree of this line, in their order, and none for other lines; at
the end all dictionaries are empty, as if no line had been read.

With the memory the parser really has (`strict`) all lines have to be in the language.  Missing from the full
statement: a first line that is rejected, for which the parser reads a member without a value (C49); memory for
lines that are rejected (C46); what is missing in C84; allocators that return addresses equal in the low 32
bits to those of living terms. -/
theorem C97_loop_partial {M : Mach} (hm : Machine M) {N : Nat} (hM : FreshBelow M N) {d : Nat} (hd : d < 3) {fuel : Nat}
    {strict : Bool} {g : Stamp.Globals} {lines : List (List WChar × Option (List Ast))}
    (hl : ∀ l ∈ lines, Expected M N fuel strict l) (hh : ∀ l more, lines = l :: more → l.2 ≠ none) :
    ∃ ts s, reads M strict fuel d (lines.map Prod.fst) (Prog.start g).ses = .ok (ts, s) ∧
      List.Forall₂ (fun a k => ∃ env env', evalTask M undefined a (Env.clearNames env) = (.ok k, env'))
        (lines.filterMap Prod.snd) ts ∧
      s.env.world.handles = [] ∧ s.env.world.dictH = [] ∧
      ∀ n k, s.env.world.store.checkByName n = false ∧ s.env.world.store.check k = false := by
  suffices H : ∀ (lines : List (List WChar × Option (List Ast))) (s : Session) (ts : List (Option Task)),
      (∀ l ∈ lines, Expected M N fuel strict l) → (s.ast = .null ∨ ∀ l more, lines = l :: more → l.2 ≠ none) →
      Prog.Steps M strict N (Prog.start g) ⟨s, ts, []⟩ → (∀ t ∈ ts, t = none) →
      ∃ ks s', reads M strict fuel d (lines.map Prod.fst) s = .ok (ks, s') ∧
        List.Forall₂ (fun a k => ∃ env env', evalTask M undefined a (Env.clearNames env) = (.ok k, env'))
          (lines.filterMap Prod.snd) ks ∧
        s'.env.world.handles = [] ∧ s'.env.world.dictH = [] ∧
        ∀ n k, s'.env.world.store.checkByName n = false ∧ s'.env.world.store.check k = false from
    H lines _ [] hl (.inr hh) (.refl _) (by simp)
  intro lines
  induction lines with
  | nil =>
    intro s ts _ _ hs hn
    obtain ⟨_, _, _, _, _, _, _, h⟩ := C88_dictionary_partial hm.ord hM hs
    exact ⟨[], s, rfl, .nil, (h hn).2 rfl⟩
  | cons l lines ih =>
    intro s ts hl hh hs hn
    obtain ⟨text, tree⟩ := l
    have he := hl _ List.mem_cons_self
    cases tree with
    | some a =>
      obtain ⟨k, s1, w, ts', h1, h2, h3, h6, h4, h5⟩ := (he.some a rfl).turn hm hM hd hs hn
      obtain ⟨ks, s', r1, r2, r3⟩ := ih { s1 with env := { s1.env with world := w } } _
        (fun l' hl' => hl l' (List.mem_cons_of_mem _ hl')) (.inl h6) h4 h5
      refine ⟨k :: ks, s', ?_, .cons ⟨_, _, h2⟩ r2, r3⟩
      rw [List.map_cons, reads, h1]
      simp only [h3, r1, Res.ok_bind]
      rfl
    | none =>
      obtain ⟨hst, hfuel, hno⟩ := he.none rfl
      have hast : s.ast = .null := hh.resolve_right fun h => h _ _ rfl rfl
      obtain ⟨lost, hI⟩ := (Prog.Inv.start g).steps hm.ord hM hs
      have hrej : ∃ r, parseText strict fuel s.buf text d = .ok r ∧ r.ast = none := by
        rw [hst]
        obtain ⟨scan, _, ⟨t, _, _, _, _, h⟩ | ⟨_, h⟩⟩ := parseText_spec hI.buf.empty text hd hfuel
        · exact absurd (C43_tree hI.buf hd h rfl) (hno _)
        · exact ⟨_, h, rfl⟩
      obtain ⟨r, h1, h2⟩ := hrej
      have hparse : parseTask M undefined strict fuel d s text = (.ok none, ⟨r.scan.buf, .null, s.env.clearNames⟩) := by
        unfold parseTask
        simp only [h1, h2, Member.after, hast]
      obtain ⟨ks, s', r1, r2, r3⟩ := ih _ _ (fun l' hl' => hl l' (List.mem_cons_of_mem _ hl')) (.inl rfl)
        (hs.step (.reject hd hparse)) hn
      refine ⟨ks, s', ?_, r2, r3⟩
      rw [List.map_cons, reads, hparse]
      exact r1

/-- C97 is false for lines of which the first is rejected, however much memory there is: the loop does not survive it. -/
theorem C97_first_counterexample (M : Mach) {d : Nat} (hd : d < 3) {fuel : Nat} {text : List WChar}
    (hf : 24 * (firstLine text).length + 6 ≤ fuel) (hno : ∀ a, ¬ IsNarsese (firstLine text) a) (g : Stamp.Globals)
    (more : List (List WChar)) : reads M false fuel d (text :: more) (Prog.start g).ses = .ub := by
  obtain ⟨scan, _, ⟨t, _, _, _, _, h⟩ | ⟨_, h⟩⟩ := parseText_spec Reached.fresh.empty text hd hf
  · exact absurd (C43_tree .fresh hd h rfl) (hno _)
  · rw [reads]
    unfold parseTask
    simp only [Prog.start, h, Member.after]

/-- The empty line is one. -/
example : ∀ a, ¬ IsNarsese (firstLine (bytes [])) a := by
  intro a ha
  have h9 : (9 : WChar) ∉ firstLine (bytes []) := by simp [bytes, firstLine]
  obtain ⟨r, h1, h2⟩ := C74_accepts_partial .fresh (d := 0) (by omega) h9 (fuel := 100) (by decide) ha
  have h3 : rejected? (parseText false 100 freshBuf (bytes []) 0) = true := by decide +kernel
  rw [h1] at h3
  cases hr : r.ast <;> simp_all [rejected?]

/-! ### The lines of the tests -/

/-- All numbers in the line are whole and at most 101, or at most 1 with at most three decimals. -/
def smallNumbers (line : List WChar) : Bool :=
  (parts line).all fun v => match Action.decimal (v.map fun c => Char.ofNat c.toNat) with
    | some x => decide (x = x.num.toNat ∧ x.num.toNat ≤ 101) ||
      decide (x = ((x * 1000).num.toNat : ℚ) / 1000 ∧ (x * 1000).num.toNat ≤ 1000)
    | none => true

theorem smallNumbers_sound {line : List WChar} (h : smallNumbers line = true) {s : List Char} {x : ℚ}
    (hs : Written line s) (hx : Denotes s x) : (∃ n : Nat, n ≤ 101 ∧ x = n) ∨ ∃ k : Nat, k ≤ 1000 ∧ x = k / 1000 := by
  obtain ⟨v, hv, rfl⟩ := written_parts hs
  have := List.all_eq_true.mp h v hv
  rw [denotes_decimal hx] at this
  rcases (Bool.or_eq_true _ _).mp this with h | h
  · obtain ⟨h1, h2⟩ := of_decide_eq_true h
    exact .inl ⟨_, h2, h1⟩
  · obtain ⟨h1, h2⟩ := of_decide_eq_true h
    exact .inr ⟨_, h2, h1⟩

/-- What `Readable` asks for that can be computed. -/
def readable? (N : Nat) (text : List Char) : Bool :=
  decide ((9 : WChar) ∉ firstLine (bytes text)) && (bytes text).all (fun c => decide (c ≤ 127)) &&
  decide ((firstLine (bytes text)).length ≤ 121) && accepted? (parseText true 1000 freshBuf (bytes text) 0) &&
  Ast.meantAll (treeOf text) && decide ((Ast.mentionsAll (treeOf text)).length ≤ N) &&
  paired World.init [] (Ast.mentionsAll (treeOf text)) && smallNumbers (firstLine (bytes text)) &&
  match partAll (treeOf text) with
  | some [.task _ _ t _] => t.subs.all Syn.simple?
  | _ => true

theorem readable?_sound {M : Mach} (hm : Machine M) (hr : ∀ n : Nat, n ≤ 101 → M.erange n = false) {fuel N : Nat}
    (hf : 2910 ≤ fuel) {text : List Char} (h : readable? N text = true) :
    Readable M N fuel (bytes text) (treeOf text) := by
  simp only [readable?, Bool.and_eq_true, decide_eq_true_eq, List.all_eq_true] at h
  obtain ⟨⟨⟨⟨⟨⟨⟨⟨a1, a2⟩, a3⟩, a4⟩, a5⟩, a6⟩, a7⟩, a8⟩, a9⟩ := h
  obtain ⟨r, b1, b2⟩ := treeOf_accepted a4
  refine ⟨a1, a2, .inl a3, by omega, C43_tree .fresh (by omega) b1 b2, a5, a6, paired_sound a7, fun s x k1 k2 => ?_,
    fun bs p t ms hp u hu => ?_⟩
  · rcases smallNumbers_sound a8 k1 k2 with ⟨n, hn, rfl⟩ | ⟨k, hk, rfl⟩
    · have : (n : ℚ) ≤ 101 := by exact_mod_cast hn
      exact ⟨hr n hn, by linarith [show (0 : ℚ) ≤ n by positivity], by linarith⟩
    · have : (k : ℚ) ≤ 1000 := by exact_mod_cast hk
      have h0 : (0 : ℚ) ≤ k := by positivity
      exact ⟨hm.range k hk, by linarith, by linarith⟩
  · rw [hp] at a9
    exact Syn.simple?_sound (List.all_eq_true.mp a9 u hu)

/-- The lines of test_efficiency1 to test_efficiency5 (Tests/test_parser.cpp:266, 272, 278, 284, 290). -/
def efficiencyLines : List (List Char) :=
  ["<robin-->brid>.".toList, "<<(*, $0, room_101) --> enter> =\\> <(*, $0, door_101) --> open>>.".toList,
   "(|, {A}, {B}, [A, B],(|, [B, C], {B, C})).".toList, "{{{{{A}, B}, B}, B}, B}.".toList, "{A}.".toList]

theorem efficiencyLines_readable : ∀ t ∈ efficiencyLines, readable? 8 t = true := by
  have h : efficiencyLines.all (readable? 8) = true := by decide +kernel
  exact fun t ht => List.all_eq_true.mp h t ht

/-- C97: each of these tests reads its line any number of times, gets a task every time, and leaves nothing
behind.

Missing from the full statement: allocators that return addresses equal in the low 32 bits to those
of living terms, as in C79; that in the program one parser runs all tests and has read other lines before is covered by
`C97_loop_partial`. -/
theorem C97_efficiency_partial {M : Mach} (hm : Machine M) (hM : FreshBelow M 8)
    (hr : ∀ n : Nat, n ≤ 101 → M.erange n = false) {d : Nat} (hd : d < 3) {fuel : Nat} (hf : 2910 ≤ fuel)
    {g : Stamp.Globals} {text : List Char} (ht : text ∈ efficiencyLines) (n : Nat) :
    ∃ ts s, reads M true fuel d (List.replicate n (bytes text)) (Prog.start g).ses = .ok (ts, s) ∧ ts.length = n ∧
      s.env.world.handles = [] ∧ s.env.world.dictH = [] ∧
      ∀ n k, s.env.world.store.checkByName n = false ∧ s.env.world.store.check k = false := by
  obtain ⟨ts, s, h1, h2, h3⟩ := C97_loop_partial hm hM hd (fuel := fuel) (g := g)
    (strict := true) (lines := List.replicate n (bytes text, some (treeOf text))) (fun l hl => by
      rw [(List.mem_replicate.mp hl).2]
      refine ⟨fun a h => ?_, fun h => by cases h⟩
      cases h
      exact readable?_sound hm hr hf (efficiencyLines_readable text ht))
    (fun l more h => by
      have : l ∈ List.replicate n (bytes text, some (treeOf text)) := h ▸ List.mem_cons_self
      rw [(List.mem_replicate.mp this).2]
      simp)
  rw [List.map_replicate] at h1
  exact ⟨ts, s, h1, by rw [← h2.length_eq]; simp, h3⟩

/-- The lines of test_parse_line1 to test_parse_line12, which are not compiled (Tests/test_parser.cpp:157-261), except for
`{{<$x-->A>}, {<$x-->B>}}.` and the two in which commutative compounds with variables or with other compounds in them are
inside other commutative compounds. -/
def disabledLines : List (List Char) :=
  ["(&/, a, b, (&/, c, d)).".toList,
   "(&/, a, b, (&/, c, d), e, (&|, f, g)).".toList,
   "(&/, a, b, (&/, c, d), e, (&|, f, g, (&/, h, i), j), (&/, k, l, (&/, m, n, (&/, o, p)))).".toList,
   "<(*, (*, (*, 0))) --> num>.".toList,
   "(a - (b - c)).".toList,
   "((a ~ b) ~ c).".toList,
   "(--, --a).".toList,
   "{{A}}.".toList,
   "({A} | {B}).".toList,
   "{{A}, {B}, {C}}.".toList,
   "<(&&,<#1 --> lock>,<#1 --> (/,open,$2,_)>) ==> <$2 --> key>>. %1.00;0.90%".toList,
   "<<(*,$1,$2) --> like> <=> <(*,$2,$1) --> like>>?".toList,
   "(&&, <#x-->A>, <#x-->A>).".toList,
   "(&&, A, B).".toList,
   "(&&, B, A). %1.0;0.9%".toList,
   "(&&, B, A, A).".toList,
   "A.".toList,
   "(A & B).".toList,
   "((h && a) * b * f * (g || (c & d & e))).".toList,
   "<robin{-]bird>.".toList,
   "(a & b).".toList,
   "(a | b).".toList,
   "(a &| b).".toList,
   "(a &/ b).".toList,
   "(a && b).".toList,
   "(a || b).".toList,
   "(a * b).".toList,
   "(a * b * c).".toList,
   "(&&, <$x-->A>, <$y-->A>).".toList,
   "<A-->B>.".toList,
   "(|, {A}, {B}, [A, B],(|, [B, C], {B, C})).".toList,
   "{{A, B}, {C}}.".toList]

theorem disabledLines_readable : ∀ t ∈ disabledLines, readable? 20 t = true := by
  have h : disabledLines.all (readable? 20) = true := by decide +kernel
  exact fun t ht => List.all_eq_true.mp h t ht

/-- C97: a program can read these lines in any order any number of times; it gets a task for each, and
nothing is left behind.

Missing from the full statement: as in `C97_efficiency_partial`; the three other lines, which C84 does not cover. -/
theorem C97_disabled_partial {M : Mach} (hm : Machine M) (hM : FreshBelow M 20)
    (hr : ∀ n : Nat, n ≤ 101 → M.erange n = false) {d : Nat} (hd : d < 3) {fuel : Nat} (hf : 2910 ≤ fuel)
    {g : Stamp.Globals} {texts : List (List Char)} (ht : ∀ t ∈ texts, t ∈ disabledLines) :
    ∃ ts s, reads M true fuel d (texts.map bytes) (Prog.start g).ses = .ok (ts, s) ∧ ts.length = texts.length ∧
      s.env.world.handles = [] ∧ s.env.world.dictH = [] ∧
      ∀ n k, s.env.world.store.checkByName n = false ∧ s.env.world.store.check k = false := by
  obtain ⟨ts, s, h1, h2, h3⟩ := C97_loop_partial hm hM hd (fuel := fuel) (g := g)
    (strict := true) (lines := texts.map fun t => (bytes t, some (treeOf t))) (fun l hl => by
      obtain ⟨t, h, rfl⟩ := List.mem_map.mp hl
      refine ⟨fun a h' => ?_, fun h' => by cases h'⟩
      cases h'
      exact readable?_sound hm hr hf (disabledLines_readable t (ht t h)))
    (fun l more h => by
      have : l ∈ texts.map fun t => (bytes t, some (treeOf t)) := h ▸ List.mem_cons_self
      obtain ⟨t, _, rfl⟩ := List.mem_map.mp this
      simp)
  refine ⟨ts, s, ?_, ?_, h3⟩
  · rw [← h1, List.map_map]; rfl
  · have := h2.length_eq
    rw [List.filterMap_map] at this
    rw [← this]
    clear ht h1 h2 h3 this
    induction texts with
    | nil => rfl
    | cons t texts ih => simp

example : disabledLines.length = 32 := rfl

/-- The lines and the allocator of the examples are of this kind … -/
example : Machine roomy ∧ FreshBelow roomy 8 ∧ (∀ n : Nat, n ≤ 101 → roomy.erange n = false) ∧
    efficiencyLines.length = 5 := ⟨roomy_ok, fun w hw h => roomy_fresh w hw (by omega), by decide +kernel, rfl⟩

/-- … and with a line that is rejected between two lines there are two tasks. -/
example : (match reads roomy false 1000 0 [bytes ['A', '.'], bytes ['A'], bytes ['{', 'A', '}', '.']]
      (Prog.start env0.globals).ses with
    | .ok (ts, s) => decide (ts.length = 2) && s.env.world.handles.isEmpty
    | _ => false) = true := by decide +kernel

end Cnars.Props
