import Verif.Narsese.Terms

/-!
# Construction of compounds (`Narsese/src/Compound.cpp`) and cloning

The enumeration order of the `std::unordered_map` of argument groups is a parameter `ord`, an
arbitrary permutation of the keys.
-/

namespace Cnars
open Term

mutual
/-- `Term::clone` (Term.inl:182-219) with the deep-copy constructors Variable.inl:17-32,
Statement.inl:38-76, Compound.inl:12-62; the caches are copied, the index tables are rebuilt from
the cloned sons (Variable: copied). -/
def clone : Term → Res Term
  | .stmt s c p i =>
    if i.hasVar then do
      let s' ← clone s
      let p' ← clone p
      return .stmt s' c p' { i with
        iv := buildTable i.hasIvar [s', p']
        dv := buildTable i.hasDvar [s', p']
        qv := buildTable i.hasQvar [s', p'] }
    else return .stmt s c p i
  | .comp c ts i =>
    if i.hasVar then do
      let r ← clonePush (c.isCommutative) ts []
      return .comp c r { i with
        iv := buildTable i.hasIvar r
        dv := buildTable i.hasDvar r
        qv := buildTable i.hasQvar r }
    else return .comp c ts i
  | .var k n i => return .var k n { i with complexity := 1, isOperation := false, isHigherOrder := false }
  | .atom d i => if i.hasVar then .throw "The type of the term is invalid." else return .atom d i
  | .interval n i =>
    if i.hasVar then .throw "The type of the term is invalid." else return .interval n i
/-- `for (term : terms) acc->push_back(Term::clone(term))` (Compound.inl:50-52,
Compound.cpp:307-309), the accumulator having the given commutativity. -/
def clonePush (comm : Bool) : List Term → List Term → Res (List Term)
  | [], acc => .ok acc
  | t :: ts, acc => do
    let t' ← clone t
    let acc ← (do if comm then setInsert t' acc else return acc ++ [t'] : Res (List Term))
    clonePush comm ts acc
end

/-- What `_merge_compounds` does with components whose connector is `c` inside `parent`
(Compound.cpp:29-106). -/
inductive Merge where
  | intersect | unite | subtract | concat | none
  deriving Repr, DecidableEq

/-- The case distinction of `_merge_compounds`. -/
def mergeKind (parent c : Connector) : Merge :=
  if parent = .extensionalIntersection then
    if c = .extensionalSet then .intersect
    else if c = .intensionalSet then .unite
    else .none
  else if parent = .intensionalIntersection then
    if c = .extensionalSet then .unite
    else if c = .intensionalSet then .intersect
    else .none
  else if parent = .extensionalDifference ∧ c = .extensionalSet then .subtract
  else if parent = .intensionalDifference ∧ c = .intensionalSet then .subtract
  else if parent = c then .concat
  else .none

/-- The `Terms` of a compound. -/
def termsOf (t : Term) : Terms :=
  match t with
  | .comp c ts _ => ⟨c.isCommutative, ts⟩
  | _ => ⟨false, []⟩

/-- `_merge_compounds` (Compound.cpp:29-106); `none` is the null pointer. -/
def mergeCompounds (parent c : Connector) (compounds : List Term) : Res (Option (List Term)) :=
  match mergeKind parent c with
  | .intersect => do
    let r ← Terms.intersection (compounds.map termsOf)
    return some r.items
  | .unite => do
    let r ← Terms.union (compounds.map termsOf)
    return some r.items
  | .subtract => do
    let r ← Terms.difference (compounds.map termsOf)
    return some r.items
  | .concat => do
    let r ← Terms.ofList c.isCommutative (compounds.flatMap comps)
    return some r.items
  | .none => return none

/-- The group of a component (Compound.cpp:160-166): its connector if it is a compound with a
commutative connector, else `None`. -/
def category (t : Term) : Option Connector :=
  match t with
  | .comp c _ _ => if c.isCommutative then some c else none
  | _ => none

/-- The keys of the map, in order of first insertion. -/
def keys : List Term → List (Option Connector)
  | [] => []
  | t :: ts =>
    let r := (keys ts).filter (· ≠ category t)
    category t :: r

/-- The group with a given key (Compound.cpp:158-171). -/
def group (k : Option Connector) (ts : List Term) : List Term := ts.filter (category · = k)

/-- Step 1: one level of unfolding of components with the parent's connector
(Compound.cpp:147-156, 272-286). -/
def unfold (parent : Connector) (ts : List Term) : List Term :=
  ts.flatMap fun t =>
    match t with
    | .comp c us _ => if c = parent then us else [t]
    | _ => [t]

/-- One group in step 2 (Compound.cpp:175-203). -/
def normGroup (parent : Connector) (ts : List Term) (k : Option Connector) :
    Res (List (Option Connector × List Term)) :=
  match k with
  | none => return (group none ts).map fun t => (none, [t])
  | some c => do
    match ← mergeCompounds parent c (group (some c) ts) with
    | none => return (group (some c) ts).map fun t => (some c, t.comps)
    | some r => return [(some c, r)]

/-- Step 2 over the groups in the enumeration order. -/
def normAll (parent : Connector) (ts : List Term) :
    List (Option Connector) → Res (List (Option Connector × List Term))
  | [] => .ok []
  | k :: ks => do
    let a ← normGroup parent ts k
    let b ← normAll parent ts ks
    return a ++ b

/-- The loop of step 3 (Compound.cpp:208-221); `mk` is `Compound::create`. -/
def collect (mk : Connector → List Term → Res Term) (parent : Connector) :
    List (Option Connector × List Term) → Res (List Term)
  | [] => .ok []
  | (k, us) :: rest => do
    let here ← (do
      match k with
      | none => return us
      | some c =>
        if c = parent then return us
        else if c.checkValid us.length then
          let t ← mk c us
          return [t]
        else return [] : Res (List Term))
    let more ← collect mk parent rest
    return here ++ more

/-- Step 4 (Compound.cpp:243-263) on the only remaining entry. -/
def finalStep (parent : Connector) (k : Option Connector) (us : List Term) :
    Res (Connector × List Term) := do
  let r ← setInsertAll us []
  match k with
  | some .extensionalSet =>
    if parent = .intensionalIntersection then return (.extensionalSet, r) else return (parent, r)
  | some .intensionalSet =>
    if parent = .extensionalIntersection then return (.intensionalSet, r) else return (parent, r)
  | _ => return (parent, r)

/-- `prepocess_terms` (Compound.cpp:123-290). -/
def prepocess (ord : List (Option Connector) → List (Option Connector))
    (mk : Connector → List Term → Res Term) (parent : Connector) (terms : List Term) :
    Res (Connector × List Term) :=
  if !parent.isReducible then return (parent, terms)
  else if parent.isCommutative then do
    let ts ← setInsertAll (unfold parent terms) []
    let norm ← normAll parent ts (ord (keys ts))
    if norm.length > 1 then
      let all ← collect mk parent norm
      if all.length > 1 then
        let r ← setInsertAll all []
        return (parent, r)
      else
        match all with
        | [] => .ub
        | t :: _ =>
          match t with
          | .comp c us _ => finalStep parent (some c) us
          | _ => finalStep parent none all
    else
      match norm with
      | [] => .ub
      | (k, us) :: _ => finalStep parent k us
  else return (parent, unfold parent terms)

/-- `Compound::Compound(connector, terms, is_input)` (Compound.cpp:292-319).  The recursion
(`Compound::create` in step 3) is bounded by `fuel`. -/
def mkCompF (ord : List (Option Connector) → List (Option Connector)) :
    Nat → Connector → List Term → Bool → Res Term
  | 0, _, _, _ => .outOfFuel
  | n + 1, c, terms, isInput => do
    let (c', us) ← prepocess ord (fun c us => mkCompF ord n c us false) c terms
    let vs ← (do if isInput then return us else clonePush c'.isCommutative us [] : Res (List Term))
    return finishComp c' vs

mutual
/-- Height of a term tree. -/
def Term.height : Term → Nat
  | .stmt s _ p _ => max s.height p.height + 1
  | .comp _ ts _ => heights ts + 1
  | .atom .. => 0
  | .interval .. => 0
  | .var .. => 0
/-- Maximal height of the members of a list. -/
def heights : List Term → Nat
  | [] => 0
  | t :: ts => max t.height (heights ts)
end

/-- The constructors that take a list, vector or initializer list (Compound.cpp:321-331,
Compound.h:59), with a step bound that is shown to suffice. -/
def mkComp (ord : List (Option Connector) → List (Option Connector)) (c : Connector)
    (args : List Term) (isInput : Bool) : Res Term := do
  let ts ← Terms.ofList c.isCommutative args
  mkCompF ord (heights args + 1) c ts.items isInput

/-- `Statement::Statement` (Statement.inl:10-36). -/
def newStmt (s : Term) (c : Copula) (p : Term) (isInput : Bool) : Res Term :=
  if isInput then return mkStmt s c p
  else do
    let s' ← clone s
    let p' ← clone p
    return mkStmt s' c p'

end Cnars
