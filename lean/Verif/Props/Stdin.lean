import Verif.Parser.Stdin
import Verif.Props.Variables

/-!
# C100: lines from the standard input
-/

namespace Cnars.Props
open Cnars Cnars.Parser

/-- C100, the trees: a line `u` from the standard input ends as the same characters given to `parse_string`: the same
tree and input buffer, or undefined, or not in the given number of rounds. -/
theorem C100_same_partial (strict : Bool) (fuel d : Nat) (b : Buf) {u : List WChar} (h0 : 0 ∉ u) (h10 : 10 ∉ u)
    (rest : List WChar) :
    (∃ r r', parseInput strict fuel b (u ++ 10 :: rest) d = .ok r ∧ parseText strict fuel b u d = .ok r' ∧
      r.ast = r'.ast ∧ r.len = r'.len ∧ r.scan.buf = r'.scan.buf) ∨
    (∃ e, parseInput strict fuel b (u ++ 10 :: rest) d = .throw e ∧ parseText strict fuel b u d = .throw e) ∨
    (parseInput strict fuel b (u ++ 10 :: rest) d = .ub ∧ parseText strict fuel b u d = .ub) ∨
    (parseInput strict fuel b (u ++ 10 :: rest) d = .outOfFuel ∧ parseText strict fuel b u d = .outOfFuel) := by
  have h := parseInput_rel (.inl rfl : Flags false strict strict) fuel d b h0 h10 rest
  change Res.Rel false ParsedRel (parseInput strict fuel b (u ++ 10 :: rest) d) _ at h
  cases h1 : parseInput strict fuel b (u ++ 10 :: rest) d with
  | ok r =>
    rw [h1] at h
    obtain ⟨r', h2, h3, h4, h5⟩ := rel_of_ok h
    exact .inl ⟨r, r', rfl, h2, h3, h4, h5.1⟩
  | throw e =>
    rw [h1] at h
    cases h2 : parseText strict fuel b u d <;> rw [h2] at h <;> simp_all [Res.Rel]
  | ub =>
    rw [h1] at h
    cases h2 : parseText strict fuel b u d <;> rw [h2] at h <;> simp_all [Res.Rel]
  | outOfFuel =>
    rw [h1] at h
    cases h2 : parseText strict fuel b u d <;> rw [h2] at h <;> simp_all [Res.Rel]

/-- C100, what is taken: if the line is accepted, all of it and its newline, and nothing more. -/
theorem C100_taken_partial {strict : Bool} {fuel d : Nat} {b : Buf} (hb : Reached b) (hd : d < 3) {u rest : List WChar}
    (h0 : 0 ∉ u) (h10 : 10 ∉ u) {r : Parsed} (h : parseInput strict fuel b (u ++ 10 :: rest) d = .ok r)
    (ha : r.ast ≠ none) : r.scan.input = rest :=
  parseInput_rest hb.empty hd h0 h10 h ha

/-- C100, what is taken otherwise: never anything of the next line.  Either the line and its newline, or a part of the
line, and the rest is there for the next call. -/
theorem C100_rejected_partial {strict : Bool} {fuel d : Nat} {b : Buf} {u rest : List WChar} (h10 : 10 ∉ u) {r : Parsed}
    (h : parseInput strict fuel b (u ++ 10 :: rest) d = .ok r) :
    r.scan.input = rest ∨ ∃ v w, u = w ++ v ∧ r.scan.input = v ++ 10 :: rest := by
  rcases parseInput_left h10 h with h | ⟨_, v, ⟨w, h1⟩, h⟩
  · exact .inl h.2
  · exact .inr ⟨v, w, h1.symm, h⟩

/-- Two lines. -/
def twoLines : List WChar := bytes ['A', '.', '\n', 'B', '.', '\n']

/-- The first of two lines, which meets the hypotheses of the three theorems. -/
example : bytes ['A', '.'] ++ 10 :: bytes ['B', '.', '\n'] = twoLines ∧
    (match parseInput true 1000 freshBuf twoLines 0 with
      | .ok r => r.ast.isSome && r.scan.input == bytes ['B', '.', '\n']
      | _ => false) = true := by decide +kernel

/-- C100, any number of lines: if each is accepted by a new parser when given to `parse_string`, then as many calls of
`parse_input`, on a parser with any history, give the same trees in the same order, and leave what follows. -/
theorem C100_lines_partial {fuel d : Nat} (hd : d < 3) (rest : List WChar) :
    ∀ {us : List (List WChar)} {as : List (List Ast)} {b : Buf}, BufIs b [] →
      List.Forall₂ (fun u a => 0 ∉ u ∧ 10 ∉ u ∧ 24 * u.length + 6 ≤ fuel ∧ ∃ strict0 fuel0 r,
        parseText strict0 fuel0 freshBuf u 0 = .ok r ∧ r.ast = some a) us as →
      parseInputs false fuel d us.length b (us.flatMap (· ++ [10]) ++ rest) = .ok (as.map some, rest) ∧
      (∀ x, parseInputs true fuel d us.length b (us.flatMap (· ++ [10]) ++ rest) = .ok x → x = (as.map some, rest)) := by
  intro us as b hb h
  induction h generalizing b with
  | nil =>
    refine ⟨rfl, fun x hx => ?_⟩
    simp only [parseInputs, List.length_nil, List.flatMap_nil, List.nil_append, Res.ok.injEq] at hx
    exact hx.symm
  | @cons u a us as hu hus ih =>
    obtain ⟨h0, h10, hf, s0, f0, r0, hr0, ha0⟩ := hu
    have hcat : (u :: us).flatMap (· ++ [10]) ++ rest = u ++ 10 :: (us.flatMap (· ++ [10]) ++ rest) := by
      simp
    have hfl := firstLine_line h0 h10
    have hone : ∀ {strict : Bool} {r : Parsed},
        parseInput strict fuel b (u ++ 10 :: (us.flatMap (· ++ [10]) ++ rest)) d = .ok r →
        r.ast = some a ∧ r.scan.input = us.flatMap (· ++ [10]) ++ rest ∧ BufIs r.scan.buf [] := by
      intro strict r hr
      obtain ⟨r', h2, h3, _, h4⟩ := rel_of_ok
        (hr ▸ parseInput_rel (.inl rfl : Flags false strict strict) fuel d b h0 h10 _)
      have ha : r.ast = some a := by
        rw [h3, parseText_indep hb Reached.fresh.empty hd (by decide) h2 hr0, ha0]
      refine ⟨ha, parseInput_rest hb hd h0 h10 hr (by rw [ha]; simp), ?_⟩
      rw [h4.1]
      exact (parseText_ok hb hd h2).1
    constructor
    · obtain ⟨s', _, h6⟩ := parseText_spec hb u hd (fuel := fuel) (by rw [hfl]; omega)
      obtain ⟨x, hx⟩ : ∃ x, parseText false fuel b u d = .ok x := by
        rcases h6 with ⟨_, _, _, _, _, h6⟩ | ⟨_, h6⟩ <;> exact ⟨_, h6⟩
      obtain ⟨r, hr, _⟩ := rel_to_ok (hx ▸ parseInput_rel (.inl rfl : Flags false false false) fuel d b h0 h10
        (us.flatMap (· ++ [10]) ++ rest))
      obtain ⟨h7, h8, h9⟩ := hone hr
      rw [hcat]
      simp only [parseInputs, List.length_cons]
      change (parseInput false fuel b (u ++ 10 :: (us.flatMap (· ++ [10]) ++ rest)) d >>= _) = _
      rw [show parseInput false fuel b (u ++ 10 :: (us.flatMap (· ++ [10]) ++ rest)) d = .ok r from hr]
      simp only [Res.ok_bind]
      rw [h8, (ih h9).1, h7]
      rfl
    · intro x hx
      rw [hcat] at hx
      simp only [parseInputs, List.length_cons, Res.bind_eq_ok] at hx
      obtain ⟨r, hr, ⟨as', left⟩, hl, hx⟩ := hx
      obtain ⟨h7, h8, h9⟩ := hone hr
      rw [h8] at hl
      have := (ih h9).2 _ hl
      simp only [Prod.mk.injEq] at this
      simp only [Res.ok.injEq] at hx
      rw [← hx, this.1, this.2, h7]
      rfl

/-- Two lines accepted by a new parser meet the hypotheses. -/
example : List.Forall₂ (fun (u : List WChar) a => 0 ∉ u ∧ 10 ∉ u ∧ 24 * u.length + 6 ≤ 100 ∧ ∃ strict0 fuel0 r,
    parseText strict0 fuel0 freshBuf u 0 = .ok r ∧ r.ast = some a)
    [bytes ['A', '.'], bytes ['B', '?']] [treeOf ['A', '.'], treeOf ['B', '?']] := by
  have h : ∀ t : List Char, accepted? (parseText true 1000 freshBuf (bytes t) 0) = true →
      ∃ strict0 fuel0 r, parseText strict0 fuel0 freshBuf (bytes t) 0 = .ok r ∧ r.ast = some (treeOf t) := by
    intro t ht
    unfold treeOf
    cases hr : parseText true 1000 freshBuf (bytes t) 0 with
    | ok r =>
      rw [hr] at ht
      cases ha : r.ast with
      | none => simp [accepted?, ha] at ht
      | some a => exact ⟨true, 1000, r, hr, by simp [ha]⟩
    | throw e => rw [hr] at ht; simp [accepted?] at ht
    | ub => rw [hr] at ht; simp [accepted?] at ht
    | outOfFuel => rw [hr] at ht; simp [accepted?] at ht
  exact .cons ⟨by decide, by decide, by decide, h _ (by decide +kernel)⟩
    (.cons ⟨by decide, by decide, by decide, h _ (by decide +kernel)⟩ .nil)

/-- C100, any number of lines of at most 121 ASCII characters: with the memory the code has. -/
theorem C100_short_partial {fuel d : Nat} (hd : d < 3) (rest : List WChar) :
    ∀ {us : List (List WChar)} {as : List (List Ast)} {b : Buf}, BufIs b [] →
      List.Forall₂ (fun u a => 0 ∉ u ∧ 10 ∉ u ∧ (∀ c ∈ u, c ≤ 127) ∧ u.length ≤ 121 ∧ 24 * u.length + 6 ≤ fuel ∧
        ∃ strict0 fuel0 r, parseText strict0 fuel0 freshBuf u 0 = .ok r ∧ r.ast = some a) us as →
      parseInputs true fuel d us.length b (us.flatMap (· ++ [10]) ++ rest) = .ok (as.map some, rest) := by
  intro us as b hb h
  suffices ∃ x, parseInputs true fuel d us.length b (us.flatMap (· ++ [10]) ++ rest) = .ok x by
    obtain ⟨x, hx⟩ := this
    rw [hx, (C100_lines_partial hd rest hb (h.imp fun _ _ h => ⟨h.1, h.2.1, h.2.2.2.2.1, h.2.2.2.2.2⟩)).2 x hx]
  induction h generalizing b with
  | nil => exact ⟨_, rfl⟩
  | @cons u a us as hu hus ih =>
    obtain ⟨h0, h10, hc, hl, hf, s0, f0, r0, hr0, ha0⟩ := hu
    have hfl := firstLine_line h0 h10
    obtain ⟨x, hx⟩ : ∃ x, parseText true fuel b u d = .ok x := by
      obtain ⟨s', _, h6⟩ := parseText_spec hb u hd (fuel := fuel) (by rw [hfl]; omega)
      rcases parseText_short hb hd (by rw [hfl]; exact hc) (by rw [hfl]; exact hl) fuel with h7 | ⟨_, h7⟩
      · rw [h7]
        rcases h6 with ⟨_, _, _, _, _, h6⟩ | ⟨_, h6⟩ <;> exact ⟨_, h6⟩
      · rcases h6 with ⟨_, h6, _⟩ | ⟨_, h6⟩
        · rw [h7] at h6; cases h6
        · have := parseText_indep hb Reached.fresh.empty hd (by decide) h6 hr0
          rw [ha0] at this; cases this
    obtain ⟨r, hr, h3, _, h4⟩ := rel_to_ok (hx ▸ parseInput_rel (.inl rfl : Flags false true true) fuel d b h0 h10
      (us.flatMap (· ++ [10]) ++ rest))
    have ha : r.ast ≠ none := by
      rw [h3, parseText_indep hb Reached.fresh.empty hd (by decide) hx hr0, ha0]; simp
    have h8 := parseInput_rest hb hd h0 h10 hr ha
    have h9 : BufIs r.scan.buf [] := by rw [h4.1]; exact (parseText_ok hb hd hx).1
    obtain ⟨y, hy⟩ := ih h9
    refine ⟨(r.ast :: y.1, y.2), ?_⟩
    rw [show (u :: us).flatMap (· ++ [10]) ++ rest = u ++ 10 :: (us.flatMap (· ++ [10]) ++ rest) by simp]
    simp only [parseInputs, List.length_cons]
    rw [show parseInput true fuel b (u ++ 10 :: (us.flatMap (· ++ [10]) ++ rest)) d = .ok r from hr]
    simp only [Res.ok_bind]
    rw [h8, hy]
    rfl

/-- The two short lines. -/
example : (match parseInputs true 100 0 2 freshBuf twoLines with
    | .ok ([some _, some _], []) => true
    | _ => false) = true := by decide +kernel

/-- C100, the tasks: on a parser that knows no names of variables, a line from the standard input gives the task
`parse_task` gives for it, and the parser is left in the same state. -/
theorem C100_task_partial (M : Mach) (bad : Act Val) (strict : Bool) (fuel d : Nat) (s : Session)
    (hn : s.env.clearNames = s.env) {u : List WChar} (h0 : 0 ∉ u) (h10 : 10 ∉ u) (rest : List WChar) :
    (readTask M bad strict fuel d s (u ++ 10 :: rest)).1 = (parseTask M bad strict fuel d s u).1 ∧
    (readTask M bad strict fuel d s (u ++ 10 :: rest)).2.1 = (parseTask M bad strict fuel d s u).2 := by
  unfold readTask parseTask
  rw [hn]
  rcases C100_same_partial strict fuel d s.buf h0 h10 rest with ⟨r, r', h1, h2, h3, _, h5⟩ | ⟨e, h1, h2⟩ | ⟨h1, h2⟩ | ⟨h1, h2⟩
  · rw [h1, h2]
    simp only
    rw [h3, h5]
    cases s.ast.after r'.ast with
    | uninit => exact ⟨rfl, rfl⟩
    | null => exact ⟨rfl, rfl⟩
    | tree a =>
      simp only
      cases evalTask M bad a s.env with
      | mk x env' => cases x <;> exact ⟨rfl, rfl⟩
  · rw [h1, h2]; exact ⟨rfl, rfl⟩
  · rw [h1, h2]; exact ⟨rfl, rfl⟩
  · rw [h1, h2]; exact ⟨rfl, rfl⟩

/-- A new parser knows no names. -/
example : new.env.clearNames = new.env ∧
    (match readTask mach undefined true 1000 0 new twoLines with
      | (.ok (some _), _, left) => left == bytes ['B', '.', '\n']
      | _ => false) = true := ⟨rfl, by decide +kernel⟩

/-! ### Where it fails -/

/-- `AA, B.` and a newline. -/
def strayLine : List WChar := bytes ['A', 'A', ',', ' ', 'B', '.', '\n']

/-- C100 is false, 1: the line `AA, B.` is rejected at the comma, and the next call takes the rest of that line for a
line, and accepts it. -/
theorem C100_stray_counterexample :
    (match parseInputs true 1000 0 2 freshBuf strayLine with
      | .ok ([none, some _], []) => true
      | _ => false) = true := by decide +kernel

/-- C100 is false, 2: the last line has no newline.  `parse_string` accepts the text, `parse_input` reads the `EOF` of
`getchar` as a character, -1, which cannot be printed in the error message; without that, the line would be rejected. -/
theorem C100_last_counterexample :
    accepted? (parseText true 1000 freshBuf (bytes ['A', '.']) 0) = true ∧
    (match parseInput true 1000 freshBuf (bytes ['A', '.']) 0 with
      | .ub => true
      | _ => false) = true ∧
    rejected? (parseInput false 1000 freshBuf (bytes ['A', '.']) 0) = true := by decide +kernel

/-- `<$x-->a>.` and `<$y-->a>.`, each with a newline. -/
def varLines : List WChar :=
  bytes ['<', '$', 'x', '-', '-', '>', 'a', '>', '.', '\n', '<', '$', 'y', '-', '-', '>', 'a', '>', '.', '\n']

/-- C100 is false, 3: the names of variables are kept from line to line.  The variable of the second line has number 1,
where `parse_task`, called in the same state, gives it number 0. -/
theorem C100_names_counterexample :
    (match readTask mach undefined true 1000 0 new varLines with
      | (.ok (some t1), s1, left) =>
        match readTask mach undefined true 1000 0 s1 left,
            parseTask mach undefined true 1000 0 s1 (bytes ['<', '$', 'y', '-', '-', '>', 'a', '>', '.']) with
        | (.ok (some t2), _, []), (.ok (some t3), _) =>
          t1.sentence.term.info.iv.indices == [0] && t2.sentence.term.info.iv.indices == [1] &&
            t3.sentence.term.info.iv.indices == [0]
        | _, _ => false
      | _ => false) = true := by decide +kernel

/-- C100, the numbers of variables: over any number of accepted lines whose actions give tasks, read from a parser that
knows no names, every variable has the position of its name among all names of its kind, in the order of first occurrence
in all these lines together.  With `parse_task` (C50) it would be in its own line. -/
theorem C100_numbers_partial {M : Mach} {bad : Act Val} {strict : Bool} {fuel d : Nat} (hd : d < 3) (rest : List WChar) :
    ∀ {us : List (List WChar)} {as : List (List Ast)} {s s' : Session} {ks : List (Option Task)} {left : List WChar},
      Reached s.buf →
      List.Forall₂ (fun u a => 0 ∉ u ∧ 10 ∉ u ∧ ∃ strict0 fuel0 r,
        parseText strict0 fuel0 freshBuf u 0 = .ok r ∧ r.ast = some a) us as →
      readTasks M bad strict fuel d us.length s (us.flatMap (· ++ [10]) ++ rest) = .ok (ks, s', left) →
      (∀ k, s.env.names k = []) →
      left = rest ∧ ks.length = us.length ∧
      ∀ x ∈ ks, ∃ t, x = some t ∧ ∀ k n i, Term.var k n i ∈ leafTerms t.sentence.term →
        n ∈ as.flatMap (Ast.varsAll k) ∧
        Term.var k n i = Term.mkVar k n ((as.flatMap (Ast.varsAll k)).eraseDups.idxOf n) := by
  intro us as s s' ks left hb h hr hn
  have key : ∀ {us : List (List WChar)} {as : List (List Ast)} {s s' : Session} {ks : List (Option Task)}
      {left : List WChar}, Reached s.buf →
      List.Forall₂ (fun u a => 0 ∉ u ∧ 10 ∉ u ∧ ∃ strict0 fuel0 r,
        parseText strict0 fuel0 freshBuf u 0 = .ok r ∧ r.ast = some a) us as →
      readTasks M bad strict fuel d us.length s (us.flatMap (· ++ [10]) ++ rest) = .ok (ks, s', left) →
      left = rest ∧ ks.length = us.length ∧
      (∀ k, s'.env.names k = seen (s.env.names k) (as.flatMap (Ast.varsAll k))) ∧
      ∀ x ∈ ks, ∃ t, x = some t ∧ Numbered s'.env.names t.sentence.term := by
    intro us as s s' ks left hb h hr
    induction h generalizing s ks with
    | nil =>
      simp only [List.length_nil, readTasks, List.flatMap_nil, List.nil_append, Res.ok.injEq, Prod.mk.injEq] at hr
      obtain ⟨rfl, rfl, rfl⟩ := hr
      exact ⟨rfl, rfl, fun k => rfl, by simp⟩
    | @cons u a us as hu hus ih =>
      obtain ⟨h0, h10, s0, f0, r0, hr0, ha0⟩ := hu
      rw [show (u :: us).flatMap (· ++ [10]) ++ rest = u ++ 10 :: (us.flatMap (· ++ [10]) ++ rest) by simp] at hr
      rw [List.length_cons, readTasks] at hr
      cases hp : parseInput strict fuel s.buf (u ++ 10 :: (us.flatMap (· ++ [10]) ++ rest)) d with
      | throw e => rw [readTask, hp] at hr; cases hr
      | ub => rw [readTask, hp] at hr; cases hr
      | outOfFuel => rw [readTask, hp] at hr; cases hr
      | ok r =>
        obtain ⟨r', h2, h3, _, h4⟩ := rel_of_ok
          (hp ▸ parseInput_rel (.inl rfl : Flags false strict strict) fuel d s.buf h0 h10 _)
        have ha' : r'.ast = some a := by
          rw [parseText_indep hb.empty Reached.fresh.empty hd (by decide) h2 hr0, ha0]
        have ha : r.ast = some a := by rw [h3, ha']
        have hleft : r.scan.input = us.flatMap (· ++ [10]) ++ rest :=
          parseInput_rest hb.empty hd h0 h10 hp (by rw [ha]; simp)
        have hb' : Reached r.scan.buf := by rw [h4.1]; exact hb.next hd h2
        rw [readTask, hp] at hr
        simp only [ha, Member.after] at hr
        cases he : evalTask M bad a s.env with
        | mk x env1 =>
          rw [he] at hr
          cases x with
          | throw e => cases hr
          | ub => cases hr
          | outOfFuel => cases hr
          | ok t =>
            simp only [Res.bind_eq_ok, Res.ok.injEq, Prod.mk.injEq] at hr
            obtain ⟨⟨ks1, s1, left1⟩, hr1, rfl, rfl, rfl⟩ := hr
            rw [hleft] at hr1
            obtain ⟨i1, i2, i3, i4⟩ := ih hb' hr1
            obtain ⟨bu, p, y, ms, z, e1, vs, xs, q1, q2, _, q3, _, _, _, _, _, q4, _⟩ :=
              evalTask_ok (C43_tree hb hd h2 ha') he
            obtain ⟨_, n1, n2⟩ := Syn.eval_names M y q2
            have hv : ∀ k, env1.names k = seen (s.env.names k) (Ast.varsAll k a) := by
              intro k
              have h5 := Ast.partAll_vars k q1
              simp only [List.flatMap_cons, List.flatMap_nil, List.append_nil, Part.vars] at h5
              rw [q4, n1, h5]
            refine ⟨i1, by simp [i2], fun k => ?_, fun x hx => ?_⟩
            · rw [i3 k, List.flatMap_cons, seen_append]
              exact congrArg (fun l => seen l _) (hv k)
            · rcases List.mem_cons.mp hx with rfl | hx
              · refine ⟨t, rfl, ?_⟩
                rw [q3]
                refine n2.mono fun k => ?_
                rw [i3 k, ← q4]
                exact seen_prefix _ _
              · exact i4 x hx
  obtain ⟨k1, k2, k3, k4⟩ := key hb h hr
  refine ⟨k1, k2, fun x hx => ?_⟩
  obtain ⟨t, rfl, ht⟩ := k4 x hx
  refine ⟨t, rfl, fun k n i hv => ?_⟩
  obtain ⟨m1, m2⟩ := ht _ hv k n i rfl
  have e : s'.env.names k = (as.flatMap (Ast.varsAll k)).eraseDups := by
    rw [k3, hn, seen_eq]; simp
  rw [e] at m1 m2
  exact ⟨by simpa using m1, m2⟩

/-- The two lines `<$x-->a>.` and `<$y-->a>.` give tasks, with the numbers 0 and 1. -/
example : (match readTasks mach undefined true 1000 0 2 new varLines with
    | .ok ([some t1, some t2], _, []) =>
      t1.sentence.term.info.iv.indices == [0] && t2.sentence.term.info.iv.indices == [1]
    | _ => false) = true := by decide +kernel

/-- C100 is false, 4: a byte above 127 is another character.  `é.` in UTF-8: from the standard input the bytes are 195
and 169, from a string -61 and -87.  Both are undefined where the characters are converted to a multibyte string; without
that, the first would be accepted and the second rejected. -/
theorem C100_signed_counterexample :
    accepted? (parseInput false 1000 freshBuf [195, 169, 46, 10] 0) = true ∧
    rejected? (parseText false 1000 freshBuf [-61, -87, 46] 0) = true ∧
    (match parseInput true 1000 freshBuf [195, 169, 46, 10] 0, parseText true 1000 freshBuf [-61, -87, 46] 0 with
      | .ub, .ub => true
      | _, _ => false) = true := by decide +kernel

end Cnars.Props
