import Verif.Parser.Actions

/-!
# The semantic actions with their `new` and `delete`

`Actions.lean` models the actions on values.  Here the same functions work on pointers: every object
made by `new` in `Narsese/Parser/NarseseParser.cpp` and in `Parser::transform` is a cell of a heap,
and reading or deleting a cell that is not there is undefined behaviour.

What is behind a `pTerm` (the objects of class `Term` and its subclasses, shared and counted by
`std::shared_ptr`), behind a `pBase` and inside of standard containers is not in this heap; only the
end of a task looks at the classes of the terms in it.
-/

namespace Cnars.Parser.Mem
open Cnars

/-- A `void *`: null, the address of a constant of Copula.h or Connector.h, of the token in a leaf of
the syntax tree, or of a heap cell. -/
inductive Ptr where
  | null
  | copula (c : Copula)
  | conn (c : Connector)
  | token (s : List Char)
  | obj (n : Nat)
  deriving DecidableEq

/-- `Term` and its subclasses (Term.h:82, Operation.h:18, Statement.h:40, Compound.h:47,
Interval.h:19, Variable.h:26). -/
inductive TClass where
  | term | operation | statement | compound | interval | «variable»
  deriving DecidableEq

/-- Types in `new`, casts and `delete`. -/
inductive Cls where
  /-- `pTerm` -/
  | handle
  /-- `std::string` -/
  | str
  /-- `double` -/
  | dbl
  /-- `signed int` -/
  | int
  /-- `std::tuple<int, signed int *>` -/
  | tupleInt
  /-- `std::tuple<int, Truth *>` -/
  | tupleTruth
  /-- `std::tuple<int, void *>` -/
  | tupleVoid
  | truth | stamp | budget
  /-- `Sentence` and its subclasses -/
  | sentence (c : SClass)
  /-- `Term` and its subclasses -/
  | term (c : TClass)
  | task
  /-- `std::vector<void *>` -/
  | args
  deriving DecidableEq

/-- What is in a heap cell. -/
inductive Obj where
  | handle (t : Term)
  | str (s : List Char)
  | dbl (x : ℚ)
  | int (n : Int)
  /-- `std::tuple(0, …)` (NarseseParser.cpp:769, 776, 782, 789) -/
  | tense (p : Ptr)
  /-- `std::tuple(1, …)` (NarseseParser.cpp:820) -/
  | mark (p : Ptr)
  | truth (t : Truth ℚ)
  | stamp (s : Stamp.Stamp)
  | budget (b : Budget)
  /-- The members of `Sentence` (Sentence.h:119-123), the last two by address. -/
  | sentence (cls : SClass) (term : Term) (punct : Punct) (truth stamp : Ptr)
  /-- The members of `Task` (Task.h:21-22), by address. -/
  | task (budget sentence : Ptr)
  | args (ps : List Ptr)

/-- What the object was created as. -/
def Obj.cls : Obj → Cls
  | .handle _ => .handle
  | .str _ => .str
  | .dbl _ => .dbl
  | .int _ => .int
  | .tense _ => .tupleInt
  | .mark _ => .tupleTruth
  | .truth _ => .truth
  | .stamp _ => .stamp
  | .budget _ => .budget
  | .sentence c .. => .sentence c
  | .task .. => .task
  | .args _ => .args

/-- The objects that exist, by address, and the next address.  Simplified: an address is not used
again. -/
structure Heap where
  cells : List (Nat × Obj)
  next : Nat

/-- Heap and the state of `Actions.lean`. -/
structure St where
  heap : Heap
  env : Env

/-- A computation on them. -/
def HAct (α : Type) : Type := St → Res α × St

namespace HAct

/-- Sequencing.  Objects made before an exception remain. -/
def bind {α β : Type} (x : HAct α) (f : α → HAct β) : HAct β := fun s =>
  match x s with
  | (.ok a, s') => f a s'
  | (.throw m, s') => (.throw m, s')
  | (.ub, s') => (.ub, s')
  | (.outOfFuel, s') => (.outOfFuel, s')

instance : Monad HAct where
  pure a := fun s => (.ok a, s)
  bind := bind

/-- Undefined behaviour. -/
def ub {α : Type} : HAct α := fun s => (.ub, s)

/-- A step that has nothing to do with this heap. -/
def ofAct {α : Type} (x : Act α) : HAct α := fun s => ((x s.env).1, { s with env := (x s.env).2 })

/-- `new`. -/
def new (o : Obj) : HAct Ptr := fun s =>
  (.ok (.obj s.heap.next),
    { s with heap := ⟨(s.heap.next, o) :: s.heap.cells, s.heap.next + 1⟩ })

/-- `*p`. -/
def look (p : Ptr) : HAct Obj := fun s =>
  match p with
  | .obj n =>
    match s.heap.cells.lookup n with
    | some o => (.ok o, s)
    | none => (.ub, s)
  | _ => (.ub, s)

/-- `delete (c *)p`; `fit d c` means that an object of type `d` may be deleted as one of type `c`. -/
def delete (fit : Cls → Cls → Bool) (c : Cls) (p : Ptr) : HAct Unit := fun s =>
  match p with
  | .obj n =>
    match s.heap.cells.lookup n with
    | some o =>
      if fit o.cls c then
        (.ok (), { s with heap := { s.heap with cells := s.heap.cells.eraseP (·.1 == n) } })
      else (.ub, s)
    | none => (.ub, s)
  | _ => (.ub, s)

/-- Changes to an object. -/
def write (p : Ptr) (o : Obj) : HAct Unit := fun s =>
  match p with
  | .obj n =>
    match s.heap.cells.lookup n with
    | some _ =>
      (.ok (), { s with heap := { s.heap with
        cells := (n, o) :: s.heap.cells.eraseP (·.1 == n) } })
    | none => (.ub, s)
  | _ => (.ub, s)

end HAct

open HAct

/-- The standard's rule ([expr.delete]): the type must be the same (no class here has a virtual
destructor). -/
def exact (d c : Cls) : Bool := d == c

/-- What compilers make of it as long as the layout is the same: pointers of different types in
tuples, and subclasses that add no member (Sentence.h:150-165, 178-182; `Goal` adds a reference,
Sentence.h:170). -/
def layout (d c : Cls) : Bool :=
  d == c ||
  match d, c with
  | .tupleInt, .tupleVoid => true
  | .tupleTruth, .tupleVoid => true
  | .sentence k, .sentence .sentence => k != .goal
  | _, _ => false

section
variable (M : Mach) (fit : Cls → Cls → Bool)

/-- `get` (NarseseParser.cpp:58-64). -/
def get (p : Ptr) : HAct Term := do
  match ← look p with
  | .handle t =>
    delete fit .handle p
    pure t
  | _ => ub

/-- The loops with `get` (NarseseParser.cpp:323-327, 492-496, 544-548). -/
def getAll : List Ptr → HAct (List Term)
  | [] => pure []
  | p :: ps => do
    let t ← get fit p
    let ts ← getAll ps
    pure (t :: ts)

/-- `new pTerm(new …)`; the same as `making` otherwise. -/
def newTerm (args : List Term) (r : Res Term) : HAct Ptr := do
  let t ← ofAct (Act.lift r)
  ofAct (settle args t)
  new (.handle t)

/-- `*(double *)p`, `delete (double *)p`. -/
def getDouble (p : Ptr) : HAct ℚ := do
  match ← look p with
  | .dbl x =>
    delete fit .dbl p
    pure x
  | _ => ub

/-- NarseseParser.cpp:68-118, the changes to the budget. -/
def finishBudget (b : Budget) (punct : Punct) (truth : Ptr) : HAct Budget :=
  let quality : HAct ℚ :=
    if b.quality < -(1 / 2) then do
      match ← look truth with
      | .truth t => pure (M.R.s (Nal.qualityFromTruth M.R t))
      | _ => ub
    else pure b.quality
  match punct with
  | .judgement => do
    let q ← quality
    pure ⟨Action.orDefault b.priority M.cfg.p_judgement,
      Action.orDefault b.durability M.cfg.d_judgement, q⟩
  | .goal => do
    let q ← quality
    pure ⟨Action.orDefault b.priority M.cfg.p_goal, Action.orDefault b.durability M.cfg.d_goal, q⟩
  | .question =>
    pure ⟨Action.orDefault b.priority M.cfg.p_question,
      Action.orDefault b.durability M.cfg.d_question, Action.orDefault b.quality 1⟩
  | .quest =>
    pure ⟨Action.orDefault b.priority M.cfg.p_quest,
      Action.orDefault b.durability M.cfg.d_quest, Action.orDefault b.quality 1⟩

/-- NarseseParser.cpp:72-117, given the addresses of budget and sentence. -/
def taskOf (b s : Ptr) : HAct Ptr := do
  match ← look b with
  | .budget v =>
    match ← look s with
    | .sentence _ _ punct truth _ =>
      let v' ← finishBudget M v punct truth
      write b (.budget v')
      new (.task b s)
    | _ => ub
  | _ => ub

/-- NarseseParser.cpp:68-118. -/
def task : List Ptr → HAct Ptr
  | [s] => do
    let b ← new (.budget ⟨M.cfg.priority, M.cfg.durability, M.cfg.quality⟩)
    taskOf M b s
  | b :: s :: _ => taskOf M b s
  | _ => ub

/-- The loops over the arguments after the first (NarseseParser.cpp:128-145, 177-191, 212-229,
260-274): addresses of the stamp and of the truth value, null if there is none. -/
def marks : List Ptr → Ptr → Ptr → HAct (Ptr × Ptr)
  | [], s, t => pure (s, t)
  | p :: ps, s, t => do
    match ← look p with
    | .tense q =>
      delete fit .tupleVoid p
      match ← look q with
      | .int n =>
        delete fit .int q
        let v ← ofAct (Act.onGlobals fun g => Stamp.sentenceStamp g (some n))
        let s' ← new (.stamp v)
        marks ps s' t
      | _ => ub
    | .mark q =>
      delete fit .tupleVoid p
      marks ps s q
    | _ => ub

/-- `if (stamp == nullptr) stamp = new Stamp(true);` -/
def stampOr (s : Ptr) : HAct Ptr :=
  if s = .null then do
    let v ← ofAct (Act.onGlobals fun g => Stamp.sentenceStamp g none)
    new (.stamp v)
  else pure s

/-- NarseseParser.cpp:152-164, 235-247. -/
def truthOr (c : ℚ) (t : Ptr) : HAct Ptr :=
  if t = .null then new (.truth (Action.truthOr M c none))
  else do
    match ← look t with
    | .truth v =>
      write t (.truth (Action.truthOr M c (some v)))
      pure t
    | _ => ub

/-- NarseseParser.cpp:120-169 and 203-252. -/
def believed (cls : SClass) (punct : Punct) (c : ℚ) : List Ptr → HAct Ptr
  | p :: ps => do
    let term ← get fit p
    let (s, t) ← marks fit ps .null .null
    let s ← stampOr s
    let t ← truthOr M c t
    new (.sentence cls term punct t s)
  | [] => ub

/-- NarseseParser.cpp:171-201 and 254-285.  A truth value would be lost. -/
def asked (cls : SClass) (punct : Punct) : List Ptr → HAct Ptr
  | p :: ps => do
    let term ← get fit p
    let (s, _) ← marks fit ps .null .null
    let s ← stampOr s
    new (.sentence cls term punct .null s)
  | [] => ub

/-- NarseseParser.cpp:287-316. -/
def statement : List Ptr → HAct Ptr
  | a :: .copula c :: b :: _ => do
    let s ← get fit a
    let p ← get fit b
    newTerm [s, p] (Action.newStatement M s c p)
  | _ => ub

/-- NarseseParser.cpp:318-332. -/
def statement_operation1 : List Ptr → HAct Ptr
  | p :: ps => do
    let ts ← getAll fit ps
    let op ← get fit p
    newTerm (op :: ts) (Action.newOperation M op ts)
  | [] => ub

/-- NarseseParser.cpp:455-475.  The `pTerm` that stays in the interpreter (World.lean) is not in this
heap. -/
def operation : List Ptr → HAct Ptr
  | p :: _ => do
    match ← look p with
    | .str n =>
      let t ← ofAct (Action.theOperation M n)
      delete fit .str p
      new (.handle t)
    | _ => ub
  | [] => ub

/-- NarseseParser.cpp:333-341. -/
def statement_operation2 : List Ptr → HAct Ptr
  | p :: ps => do
    let op ← operation M fit [p]
    statement_operation1 M fit (op :: ps)
  | [] => ub

/-- NarseseParser.cpp:421-440. -/
def atom_term : List Ptr → HAct Ptr
  | p :: _ => do
    match ← look p with
    | .str n =>
      let t ← ofAct (do
        Act.onWorld fun w => w.create (String.ofList n) (M.addr w)
        lastTerm)
      delete fit .str p
      new (.handle t)
    | _ => ub
  | [] => ub

/-- NarseseParser.cpp:414-420, 441-454, 523-528: the pointer is handed on. -/
def pass : List Ptr → HAct Ptr
  | p :: _ => pure p
  | [] => ub

/-- NarseseParser.cpp:476-484. -/
def interval : List Ptr → HAct Ptr
  | p :: _ => do
    match ← look p with
    | .dbl x =>
      let n ← ofAct (Act.lift (Action.toInt x))
      let r ← new (.handle (Term.mkInterval n))
      delete fit .dbl p
      pure r
    | _ => ub
  | [] => ub

/-- NarseseParser.cpp:485-500, 510-522, 529-552, 573-632. -/
def multi_prefix : List Ptr → HAct Ptr
  | .conn c :: ps => do
    let ts ← getAll fit ps
    newTerm ts (mkComp M.ord c ts true)
  | _ => ub

/-- NarseseParser.cpp:501-509. -/
def negation : List Ptr → HAct Ptr
  | .conn c :: p :: _ => do
    let t ← get fit p
    newTerm [t] (mkComp M.ord c [t] true)
  | _ => ub

/-- NarseseParser.cpp:553-562. -/
def single_prefix : List Ptr → HAct Ptr
  | .conn c :: p :: q :: _ => do
    let t ← get fit p
    let u ← get fit q
    newTerm [t, u] (mkComp M.ord c [t, u] true)
  | _ => ub

/-- NarseseParser.cpp:563-572. -/
def single_infix : List Ptr → HAct Ptr
  | p :: .conn c :: q :: _ => do
    let t ← get fit p
    let u ← get fit q
    newTerm [t, u] (mkComp M.ord c [t, u] true)
  | _ => ub

/-- NarseseParser.cpp:717-764. -/
def aVar (k : VarKind) : List Ptr → HAct Ptr
  | p :: _ => do
    match ← look p with
    | .str n =>
      delete fit .str p
      let name := k.symbol ++ String.ofList n
      let i ← ofAct (Action.number k name)
      new (.handle (Term.mkVar k name i))
    | _ => ub
  | [] => ub

/-- `new std::tuple(0, (new (signed int)(n)))`. -/
def newTense (n : Int) : HAct Ptr := do
  let q ← new (.int n)
  new (.tense q)

/-- NarseseParser.cpp:765-772. -/
def tense_time : List Ptr → HAct Ptr
  | p :: _ => do
    match ← look p with
    | .dbl x =>
      let n ← ofAct (Act.lift (Action.toInt x))
      let r ← newTense n
      delete fit .dbl p
      pure r
    | _ => ub
  | [] => ub

/-- `new std::tuple(1, &truth)` with `truth` new. -/
def newTruth (t : Truth ℚ) : HAct Ptr := do
  let q ← new (.truth t)
  new (.mark q)

/-- NarseseParser.cpp:792-822. -/
def truth : List Ptr → HAct Ptr
  | [] => newTruth ⟨M.R.s (-1), M.R.s (-1), M.R.s M.cfg.k⟩
  | [p] => do
    let f ← getDouble fit p
    newTruth ⟨M.R.s f, M.R.s (-1), M.R.s M.cfg.k⟩
  | [p, q] => do
    let f ← getDouble fit p
    let c ← getDouble fit q
    newTruth ⟨M.R.s f, M.R.s c, M.R.s M.cfg.k⟩
  | p :: q :: r :: _ => do
    let f ← getDouble fit p
    let c ← getDouble fit q
    let k ← getDouble fit r
    newTruth ⟨M.R.s f, M.R.s c, M.R.s k⟩

/-- NarseseParser.cpp:823-854. -/
def budget : List Ptr → HAct Ptr
  | [] => new (.budget ⟨M.R.s (-1), M.R.s (-1), M.R.s (-1)⟩)
  | [p] => do
    let x ← getDouble fit p
    new (.budget ⟨M.R.s x, M.R.s (-1), M.R.s (-1)⟩)
  | [p, q] => do
    let x ← getDouble fit p
    let y ← getDouble fit q
    new (.budget ⟨M.R.s x, M.R.s y, M.R.s (-1)⟩)
  | p :: q :: r :: _ => do
    let x ← getDouble fit p
    let y ← getDouble fit q
    let z ← getDouble fit r
    new (.budget ⟨M.R.s x, M.R.s y, M.R.s z⟩)

/-- NarseseParser.cpp:855-868. -/
def aString : List Ptr → HAct Ptr
  | .token s :: _ => new (.str s)
  | _ => ub

/-- NarseseParser.cpp:869-910. -/
def aNumber : List Ptr → HAct Ptr
  | .token s :: _ => do
    let x ← ofAct (Act.lift (Action.stod M s))
    new (.dbl x)
  | _ => ub

/-- The functions registered for the names (NarseseParser.cpp:915-988); arguments `none` are those of
a node without children. -/
def act : Emit → Option (List Ptr) → HAct Ptr
  -- 342-413
  | .inheritance, _ => pure (.copula .inheritance)
  | .similarity, _ => pure (.copula .similarity)
  | .instance, _ => pure (.copula .instance)
  | .property, _ => pure (.copula .property)
  | .instance_property, _ => pure (.copula .instanceProperty)
  | .implication, _ => pure (.copula .implication)
  | .predictive_implication, _ => pure (.copula .predictiveImplication)
  | .concurrent_implication, _ => pure (.copula .concurrentImplication)
  | .retrospective_implication, _ => pure (.copula .retrospectiveImplication)
  | .equivalence, _ => pure (.copula .equivalence)
  | .predictive_equivalence, _ => pure (.copula .predictiveEquivalence)
  | .concurrent_equivalence, _ => pure (.copula .concurrentEquivalence)
  -- 633-716
  | .con_conjunction, _ => pure (.conn .conjunction)
  | .con_disjunction, _ => pure (.conn .disjunction)
  | .con_parallel_events, _ => pure (.conn .parallelEvents)
  | .con_sequential_events, _ => pure (.conn .sequentialEvents)
  | .con_intensional_intersection, _ => pure (.conn .intensionalIntersection)
  | .con_extensional_intersection, _ => pure (.conn .extensionalIntersection)
  | .con_extensional_difference, _ => pure (.conn .extensionalDifference)
  | .con_intensional_difference, _ => pure (.conn .intensionalDifference)
  | .con_int_set, _ => pure (.conn .intensionalSet)
  | .con_ext_set, _ => pure (.conn .extensionalSet)
  | .con_negation, _ => pure (.conn .negation)
  | .con_int_image, _ => pure (.conn .intensionalImage)
  | .con_ext_image, _ => pure (.conn .extensionalImage)
  | .con_product, _ => pure (.conn .product)
  -- 773-791
  | .tense_future, _ => newTense Stamp.tenseFuture
  | .tense_present, _ => newTense Stamp.tensePresent
  | .tense_past, _ => newTense Stamp.tensePast
  | .task, some ps => task M ps
  | .judgement, some ps => believed M fit .judgement .judgement M.cfg.c_judgement ps
  | .question, some ps => asked fit .question .question ps
  | .goal, some ps => believed M fit .goal .goal M.cfg.c_goal ps
  | .quest, some ps => asked fit .quest .quest ps
  | .statement, some ps => statement M fit ps
  | .statement_operation1, some ps => statement_operation1 M fit ps
  | .statement_operation2, some ps => statement_operation2 M fit ps
  | .variable_term, some ps => pass ps
  | .atom_term, some ps => atom_term M fit ps
  | .compound_term, some ps => pass ps
  | .statement_term, some ps => pass ps
  | .operation, some ps => operation M fit ps
  | .interval, some ps => interval fit ps
  | .set, some ps => multi_prefix M fit ps
  | .negation, some ps => negation M fit ps
  | .int_image, some ps => multi_prefix M fit ps
  | .ext_image, some ps => multi_prefix M fit ps
  | .multi_infix, some ps => pass ps
  | .multi_prefix_product, some ps => multi_prefix M fit (.conn .product :: ps)
  | .multi_prefix, some ps => multi_prefix M fit ps
  | .single_prefix, some ps => single_prefix M fit ps
  | .single_infix, some ps => single_infix M fit ps
  | .multi_prod_expr, some ps => multi_prefix M fit (.conn .product :: ps)
  | .multi_disj_expr, some ps => multi_prefix M fit (.conn .disjunction :: ps)
  | .multi_conj_expr, some ps => multi_prefix M fit (.conn .conjunction :: ps)
  | .multi_sequential_expr, some ps => multi_prefix M fit (.conn .sequentialEvents :: ps)
  | .multi_parallel_expr, some ps => multi_prefix M fit (.conn .parallelEvents :: ps)
  | .multi_intint_expr, some ps => multi_prefix M fit (.conn .intensionalIntersection :: ps)
  | .multi_extint_expr, some ps => multi_prefix M fit (.conn .extensionalIntersection :: ps)
  | .independent_var, some ps => aVar fit .independent ps
  | .dependent_var, some ps => aVar fit .dependent ps
  | .query_var, some ps => aVar fit .query ps
  | .tense_time, some ps => tense_time fit ps
  | .truth, some ps => truth M fit ps
  | .budget, some ps => budget M fit ps
  | .string_raw, some ps => aString ps
  | .string, some ps => aString ps
  | .quality, some ps => aNumber M ps
  | .durability, some ps => aNumber M ps
  | .priority, some ps => aNumber M ps
  | .k_evidence, some ps => aNumber M ps
  | .confidence, some ps => aNumber M ps
  | .frequency, some ps => aNumber M ps
  | .integer, some ps => aNumber M ps
  | _, _ => ub

/-- The call of the function for a name (Parser.cpp:80-104). -/
def dispatch (e : Emit) (args : Option (List Ptr)) : HAct Ptr :=
  if e ∈ registered then act M fit e args else pure .null

/-- `rets.push_back(ret)` (Parser.cpp:105). -/
def push (rets p : Ptr) : HAct Unit := do
  match ← look rets with
  | .args ps => write rets (.args (ps ++ [p]))
  | _ => ub

mutual
/-- One round of the loop of `transform` (Parser.cpp:76-108).  The vector with the token of a leaf is
a local variable. -/
def evalNode : Ast → HAct Ptr
  | .leaf e token => dispatch M fit e (some [.token token])
  | .node e [] => dispatch M fit e none
  | .node e (a :: as) => do
    let rets ← new (.args [])
    evalLoop rets (a :: as)
    match ← look rets with
    | .args ps =>
      let r ← dispatch M fit e (some ps)
      delete fit .args rets
      pure r
    | _ => ub
/-- The loop of `transform` (Parser.cpp:76-108). -/
def evalLoop (rets : Ptr) : List Ast → HAct Unit
  | [] => pure ()
  | a :: as => do
    let p ← evalNode a
    push rets p
    evalLoop rets as
end

/-- `transform` and `(*rets)[0]` (Parser.cpp:39-43): the address of the task.  The syntax tree is not
in this heap. -/
def evalTask (tree : List Ast) : HAct Ptr := do
  let rets ← new (.args [])
  evalLoop M fit rets tree
  match ← look rets with
  | .args (p :: _) =>
    delete fit .args rets
    pure p
  | _ => ub

mutual
/-- The classes of the objects that only this term holds: all but the atoms, which the interpreter
holds as well. -/
def classes : Term → List TClass
  | .atom .. => []
  | .stmt s _ p _ => .statement :: (classes s ++ classes p)
  | .comp _ ts _ => .compound :: classesAll ts
  | .interval .. => [.interval]
  | .var .. => [.variable]
/-- The same for a list. -/
def classesAll : List Term → List TClass
  | [] => []
  | t :: ts => classes t ++ classesAll ts
end

/-- The end of the last `pTerm` for a term.  All objects are deleted as `Term`s, because
`std::shared_ptr<Term>` was made from a `Term *` (Term.h:58).  Simplified: the atoms are given back
in the order of the term, after the other objects. -/
def release (t : Term) : HAct Unit :=
  if (classes t).all fun c => fit (.term c) (.term .term) then
    ofAct (Act.onWorld fun w => (addrs t).foldlM (fun w a => dropAddr a w) w)
  else ub

/-- The end of the last `pTask` for a task (NarseseParser.h:22): `~Task` with `~pSentence`,
`~Sentence` with `~pStamp`, `~pTruth`, `~pTerm`, and `~pBudget`.  The sentence is deleted as a
`Sentence`, because `pSentence` was made from a `Sentence *` (NarseseParser.cpp:73, 116). -/
def dropTask (p : Ptr) : HAct Unit := do
  match ← look p with
  | .task b s =>
    match ← look s with
    | .sentence _ t _ tr st =>
      delete fit .stamp st
      if tr ≠ .null then delete fit .truth tr
      release fit t
      delete fit (.sentence .sentence) s
      delete fit .budget b
      delete fit .task p
    | _ => ub
  | _ => ub
end

end Cnars.Parser.Mem
