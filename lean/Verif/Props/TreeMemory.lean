import Verif.Parser.NodesSim
import Verif.Props.Actions

/-!
# C83: the nodes of the syntax tree

`Nodes.Rep cells prev p as fp` says what a tree in memory is: the blocks `fp` are a doubly linked list
that starts at `p`, each node of which has the list of its children at `child` and, if it is a leaf, a
copy of its token at `token`.
-/

namespace Cnars.Props
open Cnars Cnars.Parser

/-- No blocks. -/
def noBlocks : Nodes.Heap := ⟨fun _ => none, 0⟩

/-- The blocks there are. -/
def liveBlocks (h : Nodes.Heap) : List Nat := (List.range h.next).filter fun a => (h.cells a).isSome

/-- The parser object after construction, with no blocks. -/
def newNodes : Nodes.PSession := ⟨freshBuf, .uninit, env0, noBlocks⟩

/-- C83, parsing: on linked nodes the parser does what it does on lists, for every line and whatever
blocks there are: it never follows a link to a block that is not there, and it ends in the same way. -/
theorem C83_parse {b : Buf} (hb : Reached b) {d : Nat} (hd : d < 3) (strict : Bool) (fuel : Nat)
    (text : List WChar) (h : Nodes.Heap) :
    (∀ r', parseText strict fuel b text d = .ok r' → ∃ r, Nodes.parseText strict fuel b text d h = .ok r ∧
      r.scan = r'.scan ∧ (r.ast = none ↔ r'.ast = none)) ∧
    (∀ r, Nodes.parseText strict fuel b text d h = .ok r → ∃ r', parseText strict fuel b text d = .ok r') ∧
    (Nodes.parseText strict fuel b text d h = .ub ↔ parseText strict fuel b text d = .ub) := by
  have hrel := Nodes.parseText_nodes hb.empty hd strict fuel text h
  cases h1 : Nodes.parseText strict fuel b text d h <;>
    cases h2 : parseText strict fuel b text d <;> rw [h1, h2] at hrel <;>
    simp only [Res.Rel, Bool.false_eq_true] at hrel
  · refine ⟨?_, fun r _ => ⟨_, rfl⟩, by simp⟩
    rintro r' h3
    obtain rfl := Res.ok.inj h3
    refine ⟨_, rfl, hrel.2.1, ?_⟩
    rcases hrel.2.2 with ⟨p, a, fp, g1, g2, _⟩ | ⟨g1, g2, _⟩ <;> simp [g1, g2]
  · exact ⟨by simp, by simp, by simp⟩
  · exact ⟨by simp, by simp, by simp⟩
  · exact ⟨by simp, by simp, by simp⟩

/-- C83, accepted lines: the blocks made while the line was parsed are exactly those of the tree, each
of them once, linked in both directions; all other blocks are as they were.  `transform` reads the
tree, and `ast_free` gives back these blocks, each once, and no other. -/
theorem C83_tree {b : Buf} (hb : Reached b) {d : Nat} (hd : d < 3) {strict : Bool} {fuel : Nat}
    {text : List WChar} {h : Nodes.Heap} (hf : ∀ a, h.next ≤ a → h.cells a = none) {r : Nodes.PParsed}
    (hr : Nodes.parseText strict fuel b text d h = .ok r) {p : Option Nat} (hp : r.ast = some p) :
    ∃ a fp, IsNarsese (firstLine text) a ∧ Nodes.Rep r.heap.cells none p a fp ∧
      fp.Perm (List.range' h.next (r.heap.next - h.next)) ∧
      (∀ x, x < h.next → r.heap.cells x = h.cells x) ∧
      ∀ depth, r.heap.next ≤ depth →
        Nodes.treeAt depth p r.heap = .ok a ∧
        Nodes.astFree depth p r.heap = .ok ⟨h.cells, r.heap.next⟩ := by
  obtain ⟨r', h1⟩ := (C83_parse hb hd strict fuel text h).2.1 r hr
  have hrel := Nodes.parseText_nodes hb.empty hd strict fuel text h
  rw [hr, h1] at hrel
  simp only [Res.Rel] at hrel
  rcases hrel.2.2 with ⟨q, a, fp, g1, g2, g3, g4⟩ | ⟨g1, _⟩
  · obtain rfl : p = q := by rw [hp] at g1; simpa using g1
    refine ⟨a, fp, C43_tree hb hd h1 g2, g4, ?_, ?_, ?_⟩
    · refine (List.perm_ext_iff_of_nodup g3.nodup (List.nodup_range')).mpr fun x => ?_
      have := g3.le
      rw [g3.mem, List.mem_range'_1]
      omega
    · exact fun x hx => g3.same x fun hm => by have := ((g3.mem x).mp hm).1; omega
    · intro depth hdep
      have hlen := Nat.le_trans g3.length hdep
      refine ⟨Nodes.treeAt_spec g4 _ hlen, ?_⟩
      rw [Nodes.astFree_spec g4 r.heap (fun _ _ => rfl) g3.nodup _ hlen, g3.freed hf]
  · rw [hp] at g1
    simp at g1

/-- The tree of `<{A}-->$x>.` is made of more than ten blocks. -/
example : (match Nodes.parseText true 1000 freshBuf (bytes ['<', '{', 'A', '}', '-', '-', '>', '$', 'x',
    '>', '.']) 0 noBlocks with
    | .ok r => decide (10 < (liveBlocks r.heap).length) &&
      match r.ast with
      | some p => match Nodes.astFree r.heap.next p r.heap with
        | .ok h => (liveBlocks h).isEmpty
        | _ => false
      | none => false
    | _ => false) = true := by decide +kernel

/-- C83, rejected lines: the nodes of a rejected line stay, all of them; nothing else changes.  (This
is what goes wrong: no pointer to them is left.) -/
theorem C83_rejected_partial {b : Buf} (hb : Reached b) {d : Nat} (hd : d < 3) {strict : Bool}
    {fuel : Nat} {text : List WChar} {h : Nodes.Heap} {r : Nodes.PParsed}
    (hr : Nodes.parseText strict fuel b text d h = .ok r) (hp : r.ast = none) :
    (∀ x, h.next ≤ x → x < r.heap.next → r.heap.cells x ≠ none) ∧
    ∀ x, x < h.next → r.heap.cells x = h.cells x := by
  obtain ⟨r', h1⟩ := (C83_parse hb hd strict fuel text h).2.1 r hr
  have hrel := Nodes.parseText_nodes hb.empty hd strict fuel text h
  rw [hr, h1] at hrel
  simp only [Res.Rel] at hrel
  rcases hrel.2.2 with ⟨q, a, fp, g1, _⟩ | ⟨_, _, fp, g3, g4⟩
  · rw [hp] at g1
    simp at g1
  · exact ⟨fun x h2 h3 => g4 x ((g3.mem x).mpr ⟨h2, h3⟩),
      fun x hx => g3.same x fun hm => by have := ((g3.mem x).mp hm).1; omega⟩

/-- C83 is false, 1: after `A.`, all blocks are freed; then `A&.` is rejected; its two nodes and the
copy of the token stay, and the member `ast` is null. -/
theorem C83_rejected_counterexample :
    (match Nodes.parseTask mach undefined true 1000 0 newNodes goodText with
    | (.ok (some _), s) => (liveBlocks s.heap).isEmpty &&
      match Nodes.parseTask mach undefined true 1000 0 s badText with
      | (.ok none, s) => decide ((liveBlocks s.heap).length = 3) &&
        match s.ast with
        | .null => true
        | _ => false
      | _ => false
    | _ => false) = true := by
  decide +kernel

/-- C83, calls of `parse_task`: in every state of a parser object, after any calls that returned or
threw, a call with linked nodes has the outcome of a call with lists; in particular no node is used or
freed after it was freed.  After an accepted line whose actions return, there are the blocks there
were before.  Missing: rejected lines, and lines whose actions throw, for which the claim fails. -/
theorem C83_calls_partial {M : Mach} {strict : Bool} {s : Nodes.PSession}
    (hs : Nodes.PBetween M strict s) :
    ∃ s', Between M strict s' ∧ s'.buf = s.buf ∧ s'.env = s.env ∧
      ∀ {d : Nat}, d < 3 → ∀ (fuel : Nat) (text : List WChar),
        (Nodes.parseTask M undefined strict fuel d s text).1 =
          (parseTask M undefined strict fuel d s' text).1 ∧
        (Nodes.parseTask M undefined strict fuel d s text).2.env =
          (parseTask M undefined strict fuel d s' text).2.env ∧
        ∀ r t, parseText strict fuel s.buf text d = .ok r → r.ast ≠ none →
          (Nodes.parseTask M undefined strict fuel d s text).1 = .ok t →
          (Nodes.parseTask M undefined strict fuel d s text).2.heap.cells = s.heap.cells := by
  obtain ⟨s', fm, hb, hr⟩ := hs.rep
  refine ⟨s', hb, hr.buf.symm, hr.env.symm, ?_⟩
  intro d hd fuel text
  obtain ⟨e1, ⟨fm', e2⟩, e3, _⟩ := Nodes.parseTask_nodes hr hb.reached.empty hd M undefined strict fuel
    text (Nodes.accepted_ne hb.reached.empty hd)
  refine ⟨e1, e2.env, ?_⟩
  intro r t h1 h2 h3
  rw [hr.buf] at h1
  obtain ⟨a, ha⟩ := Option.ne_none_iff_exists'.mp h2
  exact e3 r a t h1 ha h3

/-- A state after an accepted and a rejected line. -/
example : ∃ s, Nodes.PBetween mach true s ∧ s.heap.next = 8 := by
  have h : (match Nodes.parseTask mach undefined true 1000 0 newNodes goodText with
      | (.ok _, s) =>
        match Nodes.parseTask mach undefined true 1000 0 s badText with
        | (.ok _, s) => s.heap.next
        | _ => 0
      | _ => 0) = 8 := by decide +kernel
  split at h
  · rename_i s h1
    split at h
    · rename_i s' h2
      have h0 : Nodes.PBetween mach true newNodes := .fresh _ fun _ _ => rfl
      exact ⟨s', .returned (.returned h0 (by omega) h1) (by omega) h2, h⟩
    · simp at h
  · simp at h

/-- C83 is false, 2: the actions of `+1000…0.` throw; the next accepted line overwrites the pointer to
the tree, and its blocks stay. -/
theorem C83_throw_counterexample :
    (match Nodes.parseTask mach undefined true 6000 0 newNodes throwText with
    | (.throw _, s) =>
      match Nodes.parseTask mach undefined true 6000 0 s goodText with
      | (.ok (some _), s) => !(liveBlocks s.heap).isEmpty &&
        match s.ast with
        | .null => true
        | _ => false
      | _ => false
    | _ => false) = true := by
  decide +kernel

end Cnars.Props
