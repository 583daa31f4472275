import Verif.Parser.Demo
import Verif.Parser.Simple

/-!
# Programs that read lines and drop what they get

The loops of Tests/test_parser.cpp, and a test of whether a line can be read.
-/

namespace Cnars.Parser
open Cnars Cnars.Props

/-- The loops of the tests of efficiency (Tests/test_parser.cpp:263-291), over any lines: a line is read and
the pointer to the task is destroyed at the end of the block, with the task if there is one (Task.h:19-38,
Term.inl:44-52).  The result are the tasks there were, null pointers left out.  Simplified as in `demo`. -/
def reads (M : Mach) (strict : Bool) (fuel d : Nat) :
    List (List WChar) → Session → Res (List Task × Session)
  | [], s => .ok ([], s)
  | text :: more, s =>
    match parseTask M undefined strict fuel d s text with
    | (.ok (some t), s1) => do
      let w ← (addrs t.sentence.term).foldlM (fun w a => dropAddr a w) s1.env.world
      let (ts, s2) ← reads M strict fuel d more { s1 with env := { s1.env with world := w } }
      return (t :: ts, s2)
    | (.ok none, s1) => reads M strict fuel d more s1
    | (.throw e, _) => .throw e
    | (.ub, _) => .ub
    | (.outOfFuel, _) => .outOfFuel

/-! ### Tests for terms -/

/-- `Syn.bare`, computed. -/
def Syn.bare? (t : Syn) : Bool :=
  (t.vars .independent).isEmpty && (t.vars .dependent).isEmpty && (t.vars .query).isEmpty

theorem Syn.bare?_sound {t : Syn} (h : t.bare? = true) : t.bare := by
  simp only [Syn.bare?, Bool.and_eq_true, List.isEmpty_iff] at h
  rintro (_ | _ | _)
  · exact h.1.1
  · exact h.1.2
  · exact h.2

/-- The names in a list. -/
def Syn.words : List Syn → List (List Char)
  | [] => []
  | .name s :: ts => s :: Syn.words ts
  | _ :: ts => Syn.words ts

theorem Syn.mem_words {s : List Char} : ∀ {ts : List Syn}, s ∈ Syn.words ts → .name s ∈ ts
  | [], h => by cases h
  | t :: ts, h => by
    unfold Syn.words at h
    split at h
    · cases h
    · rename_i e
      cases e
      rcases List.mem_cons.mp h with rfl | h
      · exact List.mem_cons_self
      · exact List.mem_cons_of_mem _ (Syn.mem_words h)
    · rename_i e
      cases e
      exact List.mem_cons_of_mem _ (Syn.mem_words h)

/-- A name. -/
def Syn.word? : Syn → Bool
  | .name _ => true
  | _ => false

theorem Syn.word?_sound {t : Syn} (h : t.word? = true) : ∃ s, t = .name s := by
  cases t with
  | name s => exact ⟨s, rfl⟩
  | _ => cases h

/-- A compound in a compound with another commutative connector. -/
def Syn.shallow? (c : Connector) (n : List Char) (k : Connector) (ts : List Syn) : Bool :=
  ts.all (fun t => !t.commutes) &&
    (!k.isMultipleOnly || (Syn.words ts).any fun x => (Syn.words ts).any fun y => decide (x ≠ y)) &&
    (!decide (mergeKind c k = .intersect) || ((Syn.words ts).contains n && ts.all Syn.word?))

mutual
/-- `Syn.Mingled`, computed. -/
def Syn.mingled? (c : Connector) (n : List Char) : Syn → Bool
  | .comp k ts => !k.isCommutative || (!ts.isEmpty &&
    if k = c then Syn.mingledAll? c n ts else Syn.shallow? c n k ts)
  | _ => true
/-- All of a list. -/
def Syn.mingledAll? (c : Connector) (n : List Char) : List Syn → Bool
  | [] => true
  | t :: ts => Syn.mingled? c n t && Syn.mingledAll? c n ts
end

mutual
theorem Syn.mingled?_sound {c : Connector} {n : List Char} : ∀ {t : Syn}, t.mingled? c n = true → t.Mingled c n
  | .comp k ts, h => by
    rw [Syn.mingled?] at h
    cases hk : k.isCommutative with
    | false => exact .other hk
    | true =>
      simp only [hk, Bool.not_true, Bool.false_or, Bool.and_eq_true, Bool.not_eq_true', List.isEmpty_eq_false_iff] at h
      obtain ⟨h1, h2⟩ := h
      split at h2
      · rename_i e
        have h3 := Syn.mingledAll?_sound h2
        rw [e]
        exact .comp h1 h3
      · rename_i hne
        simp only [Syn.shallow?, Bool.and_eq_true, Bool.or_eq_true, Bool.not_eq_true', List.all_eq_true, List.any_eq_true,
          decide_eq_true_eq, decide_eq_false_iff_not, List.contains_iff_mem] at h2
        obtain ⟨⟨h2, h3⟩, h4⟩ := h2
        refine .shallow hk hne h1 h2 (fun hm => ?_) fun hm => ?_
        · obtain ⟨x, hx, y, hy, hxy⟩ := h3.resolve_left (by rw [hm]; decide)
          exact ⟨x, y, hxy, Syn.mem_words hx, Syn.mem_words hy⟩
        · obtain ⟨h5, h6⟩ := h4.resolve_left (fun h => h hm)
          exact ⟨Syn.mem_words h5, fun t ht => Syn.word?_sound (h6 t ht)⟩
  | .name _, _ => .other rfl
  | .op _, _ => .other rfl
  | .interval _, _ => .other rfl
  | .var _ _, _ => .other rfl
  | .stmt _ _ _, _ => .other rfl
  | .call _ _, _ => .other rfl
  | .callName _ _, _ => .other rfl
theorem Syn.mingledAll?_sound {c : Connector} {n : List Char} : ∀ {ts : List Syn}, Syn.mingledAll? c n ts = true →
    ∀ t ∈ ts, t.Mingled c n
  | [], _ => by simp
  | u :: us, h => by
    intro t ht
    rw [Syn.mingledAll?, Bool.and_eq_true] at h
    have hu : u.Mingled c n := Syn.mingled?_sound h.1
    rcases List.mem_cons.mp ht with e | ht
    · rw [e]; exact hu
    · exact Syn.mingledAll?_sound h.2 t ht
end

/-- What `Simple` asks of a component, computed. -/
def Syn.arg? (c : Connector) (n : List Char) (x : Syn) : Bool := !x.commutes || (x.bare? && x.mingled? c n)

theorem Syn.arg?_sound {c : Connector} {n : List Char} {x : Syn} (h : x.arg? c n = true) :
    x.commutes = false ∨ x.bare ∧ x.Mingled c n := by
  simp only [Syn.arg?, Bool.or_eq_true, Bool.not_eq_true', Bool.and_eq_true] at h
  exact h.imp id fun h => ⟨Syn.bare?_sound h.1, Syn.mingled?_sound h.2⟩

/-- The names that can be common to the components. -/
def Syn.choices (ts : List Syn) : List (List Char) :=
  [] :: (Syn.mentionsAll ts).filterMap fun
    | .name s => some s
    | _ => none

/-- At most one of the terms has variables. -/
def Syn.lone? : List Syn → Bool
  | [] => true
  | t :: ts => (t.bare? || ts.all Syn.bare?) && Syn.lone? ts

theorem Syn.lone?_sound : ∀ {ts : List Syn}, Syn.lone? ts = true → ts.Pairwise fun x y => x.bare ∨ y.bare
  | [], _ => .nil
  | t :: ts, h => by
    simp only [Syn.lone?, Bool.and_eq_true, Bool.or_eq_true, List.all_eq_true] at h
    refine .cons (fun y hy => ?_) (Syn.lone?_sound h.2)
    exact h.1.imp Syn.bare?_sound fun h => Syn.bare?_sound (h y hy)

/-- No variables, or a variable. -/
def Syn.flat? : Syn → Bool
  | .var _ _ => true
  | x => x.bare?

theorem Syn.flat?_sound {x : Syn} (h : x.flat? = true) : x.flat := by
  cases x with
  | var k v => exact .inr ⟨k, v, rfl⟩
  | _ => exact .inl (Syn.bare?_sound h)

mutual
/-- The same. -/
def Syn.same : Syn → Syn → Bool
  | .name s, .name s' => decide (s = s')
  | .op s, .op s' => decide (s = s')
  | .interval s, .interval s' => decide (s = s')
  | .var k s, .var k' s' => decide (k = k' ∧ s = s')
  | .stmt s c p, .stmt s' c' p' => decide (c = c') && Syn.same s s' && Syn.same p p'
  | .comp c ts, .comp c' ts' => decide (c = c') && Syn.sameAll ts ts'
  | _, _ => false
/-- One by one. -/
def Syn.sameAll : List Syn → List Syn → Bool
  | [], [] => true
  | t :: ts, t' :: ts' => Syn.same t t' && Syn.sameAll ts ts'
  | _, _ => false
end

mutual
theorem Syn.same_sound : ∀ {t t' : Syn}, t.same t' = true → t = t'
  | .name s, t', h => by
    cases t' <;> simp only [Syn.same, decide_eq_true_eq, reduceCtorEq] at h
    rw [h]
  | .op s, t', h => by
    cases t' <;> simp only [Syn.same, decide_eq_true_eq, reduceCtorEq] at h
    rw [h]
  | .interval s, t', h => by
    cases t' <;> simp only [Syn.same, decide_eq_true_eq, reduceCtorEq] at h
    rw [h]
  | .var k s, t', h => by
    cases t' <;> simp only [Syn.same, decide_eq_true_eq, reduceCtorEq] at h
    rw [h.1, h.2]
  | .stmt s c p, t', h => by
    cases t' <;> simp only [Syn.same, Bool.and_eq_true, decide_eq_true_eq, reduceCtorEq] at h
    rw [h.1.1, Syn.same_sound h.1.2, Syn.same_sound h.2]
  | .comp c ts, t', h => by
    cases t' <;> simp only [Syn.same, Bool.and_eq_true, decide_eq_true_eq, reduceCtorEq] at h
    rw [h.1, Syn.sameAll_sound h.2]
  | .call f ts, t', h => by simp [Syn.same] at h
  | .callName s ts, t', h => by simp [Syn.same] at h
theorem Syn.sameAll_sound : ∀ {ts ts' : List Syn}, Syn.sameAll ts ts' = true → ts = ts'
  | [], ts', h => by
    cases ts' <;> simp only [Syn.sameAll, reduceCtorEq] at h
    rfl
  | t :: ts, ts', h => by
    cases ts' <;> simp only [Syn.sameAll, Bool.and_eq_true, reduceCtorEq] at h
    rw [Syn.same_sound h.1, Syn.sameAll_sound h.2]
end

/-- What is left out. -/
def Frame.get? : Frame → Syn → Option Syn
  | .subject s c, .stmt s' c' p => if (decide (c = c') && s.same s') = true then some p else none
  | .predicate c p, .stmt s c' p' => if (decide (c = c') && p.same p') = true then some s else none
  | .comp c pre post, .comp c' ts =>
    match ts.drop pre.length with
    | [] => none
    | t :: ts' =>
      if (decide (c = c') && Syn.sameAll pre (ts.take pre.length) && Syn.sameAll post ts') = true then some t else none
  | _, _ => none

theorem Frame.get?_sound {F : Frame} {x y : Syn} (h : F.get? x = some y) : x = F.fill y := by
  unfold Frame.get? at h
  split at h
  · split at h
    · rename_i hc
      simp only [Bool.and_eq_true, decide_eq_true_eq] at hc
      cases h
      rw [Frame.fill, hc.1, Syn.same_sound hc.2]
    · cases h
  · split at h
    · rename_i hc
      simp only [Bool.and_eq_true, decide_eq_true_eq] at hc
      cases h
      rw [Frame.fill, hc.1, Syn.same_sound hc.2]
    · cases h
  · rename_i c pre post c' ts
    split at h
    · cases h
    · rename_i t ts' hd
      split at h
      · rename_i hc
        simp only [Bool.and_eq_true, decide_eq_true_eq] at hc
        cases h
        have h1 := Syn.sameAll_sound hc.1.2
        have h2 := Syn.sameAll_sound hc.2
        rw [Frame.fill, hc.1.1, h2, ← hd]
        conv_rhs => rw [h1]
        congr 1
        have := List.take_append_drop pre.length ts
        rw [← h1] at this ⊢
        exact this.symm
      · cases h
  · cases h

/-- `Parted`, computed. -/
def parts? (F G : Frame) : List Syn → Option (List Syn × List Syn)
  | [] => some ([], [])
  | x :: xs =>
    match parts? F G xs with
    | none => none
    | some (ys, zs) =>
      if x.flat? = true then some (ys, zs)
      else match F.get? x with
        | some y => some (y :: ys, zs)
        | none =>
          match G.get? x with
          | some z => some (ys, z :: zs)
          | none => none

theorem parts?_sound {F G : Frame} : ∀ {xs ys zs : List Syn}, parts? F G xs = some (ys, zs) → Parted F G xs ys zs
  | [], ys, zs, h => by
    cases h
    exact .nil
  | x :: xs, ys, zs, h => by
    unfold parts? at h
    split at h
    · cases h
    · rename_i ys' zs' h'
      have ih := parts?_sound h'
      split at h
      · cases h
        exact .flat (Syn.flat?_sound ‹_›) ih
      · split at h
        · rename_i y hy
          cases h
          rw [Frame.get?_sound hy]
          exact .left ih
        · split at h
          · rename_i z hz
            cases h
            rw [Frame.get?_sound hz]
            exact .right ih
          · cases h

/-- Places where the statements can differ. -/
def stmtFrames : List Syn → List Frame
  | .stmt s c p :: xs => if (Syn.stmt s c p).flat? = true then stmtFrames xs else [.subject s c, .predicate c p]
  | _ :: xs => stmtFrames xs
  | [] => [.subject (.name []) .inheritance]

/-- Places where the compounds can differ. -/
def compFrames : List Syn → List Frame
  | .comp c ts :: xs =>
    if (Syn.comp c ts).flat? = true then compFrames xs
    else (List.range ts.length).map fun i => .comp c (ts.take i) (ts.drop (i + 1))
  | _ :: xs => compFrames xs
  | [] => [.comp .product [] []]

/-- `Syn.Akin`, computed. -/
def Syn.akin? : Nat → List Syn → Bool
  | 0, xs => Syn.lone? xs
  | n + 1, xs => Syn.lone? xs || (stmtFrames xs).any fun F => (compFrames xs).any fun G =>
    F.sound && G.sound && decide (F.type = 1) && decide (G.type = 2) &&
      match parts? F G xs with
      | some (ys, zs) => Syn.akin? n ys && Syn.akin? n zs
      | none => false

theorem Syn.akin?_sound : ∀ {n : Nat} {xs : List Syn}, Syn.akin? n xs = true → Syn.Akin xs
  | 0, xs, h => .lone (Syn.lone?_sound h)
  | n + 1, xs, h => by
    rw [Syn.akin?, Bool.or_eq_true] at h
    rcases h with h | h
    · exact .lone (Syn.lone?_sound h)
    · simp only [List.any_eq_true, Bool.and_eq_true, decide_eq_true_eq] at h
      obtain ⟨F, _, G, _, ⟨⟨⟨h1, h2⟩, h3⟩, h4⟩, h5⟩ := h
      split at h5
      · rename_i ys zs hp
        rw [Bool.and_eq_true] at h5
        exact .parted h1 h2 h3 h4 (parts?_sound hp) (Syn.akin?_sound h5.1) (Syn.akin?_sound h5.2)
      · cases h5

/-- `Syn.Simple`, computed, with places of difference at most ten deep. -/
def Syn.simple? : Syn → Bool
  | .comp c ts => !c.isCommutative || ((Syn.choices ts).any (fun n => ts.all (Syn.arg? c n)) && Syn.akin? 10 ts)
  | .stmt s c p => (!decide (c = .instance ∨ c = .instanceProperty) ||
      (Syn.choices [s]).any fun n => s.arg? .extensionalSet n) &&
    (!decide (c = .property ∨ c = .instanceProperty) ||
      (Syn.choices [p]).any fun n => p.arg? .intensionalSet n)
  | _ => true

theorem Syn.simple?_sound {t : Syn} (h : t.simple? = true) : t.Simple := by
  cases t with
  | comp c ts =>
    intro hc
    simp only [Syn.simple?, hc, Bool.not_true, Bool.false_or, Bool.and_eq_true, List.any_eq_true,
      List.all_eq_true] at h
    obtain ⟨⟨n, _, h1⟩, h2⟩ := h
    exact ⟨⟨n, fun x hx => Syn.arg?_sound (h1 x hx)⟩, Syn.akin?_sound h2⟩
  | stmt s c p =>
    simp only [Syn.simple?, Bool.and_eq_true, Bool.or_eq_true, Bool.not_eq_true', decide_eq_false_iff_not,
      List.any_eq_true] at h
    refine ⟨fun hc => ?_, fun hc => ?_⟩
    · obtain ⟨n, _, hn⟩ := h.1.resolve_left (fun k => k hc)
      exact (Syn.arg?_sound hn).imp_right fun h => ⟨h.1, n, h.2⟩
    · obtain ⟨n, _, hn⟩ := h.2.resolve_left (fun k => k hc)
      exact (Syn.arg?_sound hn).imp_right fun h => ⟨h.1, n, h.2⟩
  | _ => trivial

end Cnars.Parser
