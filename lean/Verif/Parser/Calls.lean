import Verif.Parser.Carets
import Verif.Parser.Ranges

/-!
# What is called is an operation
-/

namespace Cnars.Parser
open Cnars Cnars.Props

mutual
/-- The first child of a call is an operation. -/
def Ast.Calls : Ast → Prop
  | .leaf .. => True
  | .node e cs => (e = .statement_operation1 → ∃ xs ys, cs = .node .operation xs :: ys) ∧ Ast.CallsAll cs
/-- In all of a list. -/
def Ast.CallsAll : List Ast → Prop
  | [] => True
  | a :: as => Ast.Calls a ∧ Ast.CallsAll as
end

theorem Ast.CallsAll.append : ∀ {as bs : List Ast}, Ast.CallsAll as → Ast.CallsAll bs → Ast.CallsAll (as ++ bs)
  | [], _, _, h => h
  | _ :: _, _, h, h' => ⟨h.1, Ast.CallsAll.append h.2 h'⟩

theorem rules_call {n : NT} {body : List Gram} (h : (body, Emit.statement_operation1) ∈ rules n) :
    body = [Gram.kw ['('], .nt .op, .star Gram.commaTerm, Gram.kw [')']] := by
  cases n <;> simp [rules] at h
  exact h

theorem rules_op {body : List Gram} {e : Emit} (h : (body, e) ∈ rules .op) : e = .operation := by
  simp [rules] at h
  exact h.2

theorem call_first {body : List Gram} {u : List WChar} {a : List Ast} (h : DerivesAll body u a)
    (hb : body = [Gram.kw ['('], .nt .op, .star Gram.commaTerm, Gram.kw [')']]) :
    ∃ xs ys, a = .node .operation xs :: ys := by
  subst hb
  cases h with
  | cons h1 h2 =>
    rw [kw_nil h1]
    cases h2 with
    | cons h3 h4 =>
      cases h3 with
      | nt_plain hr _ => cases rules_op hr
      | nt_node _ hr _ => obtain rfl := rules_op hr; exact ⟨_, _, rfl⟩

mutual
theorem Derives.calls {g : Gram} {u : List WChar} {as : List Ast} (h : Derives g u as) : Ast.CallsAll as := by
  match h with
  | .tok_plain _ => trivial
  | .tok_leaf _ _ => exact ⟨trivial, trivial⟩
  | .nt_plain _ h => exact h.calls
  | .nt_node _ hr h => exact ⟨⟨fun e => by subst e; exact call_first h (rules_call hr), h.calls⟩, trivial⟩
  | .grp _ h => exact h.calls
  | .opt_none => trivial
  | .opt_some h => exact h.calls
  | .star_nil => trivial
  | .star_plus h => exact h.calls
  | .plus_one h => exact h.calls
  | .plus_more h1 h2 => exact h1.calls.append h2.calls
theorem DerivesAll.calls {gs : List Gram} {u : List WChar} {as : List Ast} (h : DerivesAll gs u as) :
    Ast.CallsAll as := by
  match h with
  | .nil => trivial
  | .cons h1 h2 => exact h1.calls.append h2.calls
end

/-- What is called is an operation. -/
def Syn.CallsOp (t : Syn) : Prop := ∀ u ∈ t.subs, ∀ f ts, u = .call f ts → ∃ s, f = .op s

theorem callsOp_all : ∀ {ts : List Syn}, (∀ t ∈ ts, t.CallsOp) →
    ∀ u ∈ Syn.subsAll ts, ∀ f us, u = .call f us → ∃ s, f = .op s
  | [], _, u, hu => by simp [Syn.subsAll] at hu
  | t :: ts, h, u, hu => by
    rw [Syn.subsAll] at hu
    rcases List.mem_append.mp hu with hu | hu
    · exact h t (by simp) u hu
    · exact callsOp_all (fun t ht => h t (by simp [ht])) u hu

theorem Syn.CallsOp.comp {c : Connector} {ts : List Syn} (h : ∀ t ∈ ts, t.CallsOp) : (Syn.comp c ts).CallsOp := by
  intro u hu
  rw [Syn.subs] at hu
  rcases List.mem_cons.mp hu with rfl | hu
  · intro f us e; cases e
  · exact callsOp_all h u hu

theorem Syn.CallsOp.callName {s : List Char} {ts : List Syn} (h : ∀ t ∈ ts, t.CallsOp) :
    (Syn.callName s ts).CallsOp := by
  intro u hu
  rw [Syn.subs] at hu
  rcases List.mem_cons.mp hu with rfl | hu
  · intro f us e; cases e
  · exact callsOp_all h u hu

theorem Syn.CallsOp.call {s : List Char} {ts : List Syn} (h : ∀ t ∈ ts, t.CallsOp) :
    (Syn.call (.op s) ts).CallsOp := by
  intro u hu
  rw [Syn.subs, Syn.subs] at hu
  rcases List.mem_cons.mp hu with rfl | hu
  · intro f us e; cases e; exact ⟨s, rfl⟩
  · rcases List.mem_append.mp hu with hu | hu
    · rw [List.mem_singleton.mp hu]; intro f us e; cases e
    · exact callsOp_all h u hu

theorem Syn.CallsOp.stmt {s p : Syn} {c : Copula} (hs : s.CallsOp) (hp : p.CallsOp) :
    (Syn.stmt s c p).CallsOp := by
  intro u hu
  rw [Syn.subs] at hu
  rcases List.mem_cons.mp hu with rfl | hu
  · intro f us e; cases e
  · rcases List.mem_append.mp hu with hu | hu
    · exact hs u hu
    · exact hp u hu

/-- Of the terms of a part. -/
def Part.CallsOp : Part → Prop
  | .syn t => t.CallsOp
  | .sentence _ t _ => t.CallsOp
  | .task _ _ t _ => t.CallsOp
  | _ => True

theorem Part.syns?_calls : ∀ {ps : List Part} {ts : List Syn},
    Part.syns? ps = some ts → (∀ p ∈ ps, p.CallsOp) → ∀ t ∈ ts, t.CallsOp
  | [], ts, h, _ => by cases h; simp
  | p :: ps, ts, h, hp => by
    cases p <;> simp only [Part.syns?, reduceCtorEq, Option.map_eq_some_iff] at h
    obtain ⟨us, h, rfl⟩ := h
    intro t ht
    rcases List.mem_cons.mp ht with rfl | ht
    · exact hp (.syn _) (by simp)
    · exact Part.syns?_calls h (fun p hm => hp p (List.mem_cons_of_mem _ hm)) t ht

theorem leaf_callsOp {t : Syn} (h : t.subs = [t]) (hc : ∀ f ts, t ≠ .call f ts) : t.CallsOp := by
  intro u hu f ts e
  rw [h, List.mem_singleton] at hu
  exact absurd (hu ▸ e) (hc f ts)

theorem Part.build_calls {e : Emit} {ps : List Part} {q : Part} (h : Part.build e ps = some q)
    (hp : ∀ p ∈ ps, p.CallsOp) (hl : e = .statement_operation1 → ∃ s qs, ps = .syn (.op s) :: qs) :
    q.CallsOp := by
  unfold Part.build at h
  split at h
  all_goals first
    | (simp only [Option.some.injEq] at h
       subst h
       first
       | trivial
       | exact leaf_callsOp rfl (by simp)
       | (simp only [List.mem_cons, List.not_mem_nil, or_false, forall_eq_or_imp, forall_eq,
            Part.CallsOp] at hp
          simp only [Part.CallsOp]
          first | exact hp | exact hp.1 | exact hp.2 | exact .stmt hp.1 hp.2.2
                | exact .comp (by simpa using ⟨hp.1, hp.2.2⟩)))
    | (simp only [Option.map_eq_some_iff] at h
       obtain ⟨ts, h1, rfl⟩ := h
       first
       | trivial
       | exact hp (.syn _) List.mem_cons_self
       | exact .comp (Part.syns?_calls h1 fun p hm => hp p (by simp [hm]))
       | exact .callName (Part.syns?_calls h1 fun p hm => hp p (by simp [hm]))
       | (obtain ⟨s, qs, e⟩ := hl rfl
          simp only [List.cons.injEq, Part.syn.injEq] at e
          obtain ⟨rfl, rfl⟩ := e
          exact .call (Part.syns?_calls h1 fun p hm => hp p (by simp [hm]))))
    | (simp only [Option.or_eq_some_iff, Option.map_eq_some_iff] at h
       rcases h with ⟨c, hc, rfl⟩ | ⟨_, c, hc, rfl⟩
       all_goals trivial)
    | simp at h

theorem part_operation {cs : List Ast} {p : Part} (h : (Ast.node .operation cs).part = some p) :
    ∃ s, p = .syn (.op s) := by
  simp only [Ast.part, Option.bind_eq_some_iff] at h
  obtain ⟨ps, _, h⟩ := h
  unfold Part.build at h
  split at h <;> simp_all [Part.copula?, Part.conn?]
  exact ⟨_, h.symm⟩

mutual
theorem Ast.part_calls : ∀ {a : Ast} {p : Part}, a.Calls → a.part = some p → p.CallsOp
  | .leaf e t, p, _, h => by
    simp only [Ast.part, Option.some.injEq] at h
    subst h
    unfold Part.ofLeaf
    split <;> trivial
  | .node e cs, p, ht, h => by
    simp only [Ast.part, Option.bind_eq_some_iff] at h
    obtain ⟨ps, h1, h2⟩ := h
    rw [Ast.Calls] at ht
    refine Part.build_calls h2 (Ast.partAll_calls ht.2 h1) fun he => ?_
    obtain ⟨xs, ys, rfl⟩ := ht.1 he
    simp only [partAll, Option.bind_eq_some_iff, Option.map_eq_some_iff] at h1
    obtain ⟨q, h3, qs, h4, rfl⟩ := h1
    obtain ⟨s, rfl⟩ := part_operation h3
    exact ⟨s, qs, rfl⟩
theorem Ast.partAll_calls : ∀ {as : List Ast} {ps : List Part}, Ast.CallsAll as →
    partAll as = some ps → ∀ p ∈ ps, p.CallsOp
  | [], ps, _, h => by cases h; simp
  | a :: as, ps, ht, h => by
    simp only [partAll, Option.bind_eq_some_iff, Option.map_eq_some_iff] at h
    obtain ⟨p, h1, qs, h2, rfl⟩ := h
    rw [Ast.CallsAll] at ht
    intro q hq
    rcases List.mem_cons.mp hq with rfl | hq
    · exact Ast.part_calls ht.1 h1
    · exact Ast.partAll_calls ht.2 h2 q hq
end

/-- In a line only operations are called. -/
theorem narsese_calls {line : List WChar} {as : List Ast} (hn : IsNarsese line as)
    {b : Option (List (List Char))} {p : Punct} {t : Syn} {ms : List Mark}
    (hp : partAll as = some [.task b p t ms]) : t.CallsOp :=
  Ast.partAll_calls (DerivesAll.calls hn) hp (.task b p t ms) List.mem_cons_self

end Cnars.Parser
