import Verif.Props.Examples1
import Verif.Props.Examples2
import Verif.Props.Examples3
import Verif.Props.Examples4

/-!
# C99: the files of examples
-/

namespace Cnars.Props
open Cnars Cnars.Parser Cnars.Term

/-- The lines that are read of the files in examples/single_step/nal1 to nal9, except for sixteen: see `C99_examples_partial`. -/
def exampleLines : List (List Char) :=
  exampleLines1 ++ exampleLines2 ++ exampleLines3 ++ exampleLines4

theorem exampleLines_legible : ∀ t ∈ exampleLines, legible? 11 t = true := by
  have h : exampleLines.all (legible? 11) = true := by
    simp only [exampleLines, List.all_append, exampleLines1_legible, exampleLines2_legible, exampleLines3_legible,
      exampleLines4_legible, Bool.and_self]
  exact fun t ht => List.all_eq_true.mp h t ht

/-- C99: `test_parse_nal` on files with these lines, in any order, any number of times, between any numbers and comments:
it prints one text for every line, and nothing is left behind.  All files in nal1 to nal5, nal7 and nal9 are such files,
and all but 11 in nal6 and 7 in nal8 (tools/mk_examples.py).

Missing from the full statement: fifteen lines with commutative compounds whose components have variables and differ in more
than one place, which C84 does not cover, and one in which an operation is mentioned twice, of which two objects are
made (C36); allocators as in C79. -/
theorem C99_examples_partial {M : Mach} (hm : Machine M) (hM : FreshBelow M 11)
    (hr : ∀ n : Nat, n ≤ 101 → M.erange n = false) {fix : Nat → ℚ → Str} {bg : Fin 3 → ℚ → Str} {d : Nat} (hd : d < 3)
    {fuel : Nat} (hf : 2910 ≤ fuel) {g : Stamp.Globals} {colored : Bool} {files : List (Option (List Char))}
    {ts : List (List Char)} (h : Folder files ts) (ht : ∀ t ∈ ts, t ∈ exampleLines) :
    ∃ texts s, nalFiles M fix bg colored true fuel d files (Prog.start g).ses = .ok (texts, s) ∧
      texts.length = ts.length ∧ s.env.world.handles = [] ∧ s.env.world.dictH = [] ∧
      ∀ n k, s.env.world.store.checkByName n = false ∧ s.env.world.store.check k = false := by
  obtain ⟨texts, s, h1, h2, h3⟩ := C99_legible_partial hm (fix := fix) (bg := bg) hM hd (fuel := fuel) (g := g)
    (colored := colored) (strict := true) h (tree := treeOf)
    fun t hm' => legible?_sound hm hr hf (exampleLines_legible t (ht t hm'))
  exact ⟨texts, s, h1, by rw [← h2.length_eq, List.length_map], h3⟩

example : exampleLines.length = 286 := by decide +kernel

/-- The computed answer to what is asked for. -/
theorem script_of {lines ts : List (List Char)} (h : lines.map wanted = ts.map (fun t => .ok (some t))) :
    Script lines ts := by
  induction lines generalizing ts with
  | nil =>
    cases ts with
    | nil => exact .nil
    | cons t ts => cases h
  | cons line lines ih =>
    cases ts with
    | nil => cases h
    | cons t ts =>
      simp only [List.map_cons, List.cons.injEq] at h
      exact .ask ((C99_wanted line t).1.mp h.1) (ih h.2)

/-- A file with two of them. -/
example : ∃ ts, Folder [some ("<robin --> bird>.\n<?1 --> swimmer>?".toList)] ts ∧ ts.length = 2 ∧
    ∀ t ∈ ts, t ∈ exampleLines := by
  refine ⟨["<robin --> bird>.".toList, "<?1 --> swimmer>?".toList] ++ [], .opened ((C99_lines _ _).mp rfl)
    (script_of (by decide +kernel)) .nil, rfl, ?_⟩
  intro t ht
  simp only [List.append_nil, List.mem_cons, List.not_mem_nil, or_false] at ht
  have : ∀ u ∈ ["<robin --> bird>.".toList, "<?1 --> swimmer>?".toList], u ∈ exampleLines := by decide +kernel
  exact this t (by simpa using ht)

end Cnars.Props
