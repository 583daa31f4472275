import Verif.Parser.Session

/-!
# The syntax tree with its `malloc` and `free`

`Driver.lean` models the node lists of the parser stack as lists.  Here the same loops work on `_ast`
structures linked by `child`, `prev` and `next`: every node and every token is a block of a heap, and
reading, writing or freeing a block that is not there is undefined behaviour.

Not in this heap: the parser stack (one block, which `parse` frees on every way out), the input buffer
and the lexeme.
-/

namespace Cnars.Parser.Nodes
open Cnars

/-- `_AST` (narsese.h:150-159).  `parent` is only ever set to null, and left out. -/
structure Node where
  emit : Emit
  token : Option Nat
  child : Option Nat
  prev : Option Nat
  next : Option Nat

/-- A block returned by `malloc` or `strdup`. -/
inductive Block where
  | node (n : Node)
  | str (s : List Char)

/-- The blocks that exist, by address, and the next address.  Simplified: an address is not used
again, and `malloc` does not fail. -/
structure Heap where
  cells : Nat → Option Block
  next : Nat

/-- Changing what is at an address. -/
def put (cells : Nat → Option Block) (p : Nat) (b : Option Block) : Nat → Option Block :=
  fun a => if a = p then b else cells a

/-- `malloc` and the initialisation of the block. -/
def Heap.malloc (h : Heap) (b : Block) : Nat × Heap :=
  (h.next, ⟨put h.cells h.next (some b), h.next + 1⟩)

/-- `free`. -/
def Heap.free (h : Heap) (p : Nat) : Res Heap :=
  match h.cells p with
  | some _ => .ok { h with cells := put h.cells p none }
  | none => .ub

/-- `*node`. -/
def Heap.node (h : Heap) (p : Nat) : Res Node :=
  match h.cells p with
  | some (.node n) => .ok n
  | _ => .ub

/-- A write to a member of `*node`. -/
def Heap.modify (h : Heap) (p : Nat) (f : Node → Node) : Res Heap :=
  match h.cells p with
  | some (.node n) => .ok { h with cells := put h.cells p (some (.node (f n))) }
  | _ => .ub

/-- `node->prev = q`. -/
def Heap.setPrev (h : Heap) (p : Nat) (q : Option Nat) : Res Heap :=
  h.modify p fun n => { n with prev := q }

/-- `node->next = q`. -/
def Heap.setNext (h : Heap) (p : Nat) (q : Option Nat) : Res Heap :=
  h.modify p fun n => { n with next := q }

/-- `node->child = q`. -/
def Heap.setChild (h : Heap) (p : Nat) (q : Option Nat) : Res Heap :=
  h.modify p fun n => { n with child := q }

/-- `ast_free` (narsese.cpp:46-59), with a bound on the depth of the recursion. -/
def astFree : Nat → Option Nat → Heap → Res Heap
  | _, none, h => .ok h
  | 0, some _, _ => .outOfFuel
  | fuel + 1, some p, h => do
    let n ← h.node p
    let h ← astFree fuel n.child h
    let n ← h.node p
    let h ← astFree fuel n.next h
    let n ← h.node p
    let h ← match n.token with
      | some t => h.free t
      | none => .ok h
    h.free p

/-- `ast_create` (narsese.cpp:61-93): the node with all other members null, then the copy of the
token. -/
def astCreate (emit : Emit) (token : Option (List Char)) (h : Heap) : Res (Nat × Heap) :=
  let (p, h) := h.malloc (.node ⟨emit, none, none, none, none⟩)
  match token with
  | none => .ok (p, h)
  | some s => do
    let (t, h) := h.malloc (.str s)
    let h ← h.modify p fun n => { n with token := some t }
    .ok (p, h)

/-- The node of a shifted terminal (narsese.cpp:919-924). -/
def leafNode (emit : Emit) (token : List WChar) (h : Heap) : Res (Option Nat × Heap) :=
  if emit = .none then .ok (none, h)
  else do
    let (p, h) ← astCreate emit (some (token.map toChar)) h
    .ok (some p, h)

/-- `while (node->prev) node = node->prev;` (narsese.cpp:730-731). -/
def first : Nat → Nat → Heap → Res Nat
  | 0, _, _ => .outOfFuel
  | fuel + 1, p, h => do
    let n ← h.node p
    match n.prev with
    | none => .ok p
    | some q => first fuel q h

/-- `while (lnode->next) lnode = lnode->next;` (narsese.cpp:749-750). -/
def last : Nat → Nat → Heap → Res Nat
  | 0, _, _ => .outOfFuel
  | fuel + 1, p, h => do
    let n ← h.node p
    match n.next with
    | none => .ok p
    | some q => last fuel q h

/-- `_tok` (narsese.h:162-174) with its pointer. -/
structure PEntry where
  state : Option Nat
  sym : Option Nat
  node : Option Nat

/-- One step of collecting nodes (narsese.cpp:726-739). -/
def collect (acc node : Option Nat) (h : Heap) : Res (Option Nat × Heap) :=
  match node with
  | none => .ok (acc, h)
  | some p =>
    match acc with
    | none => .ok (some p, h)
    | some a => do
      let a ← first (h.next + 1) a h
      let h ← h.setPrev a (some p)
      let h ← h.setNext p (some a)
      .ok (some p, h)

/-- Drop the right-hand side (narsese.cpp:721-742). -/
def popRhs : Nat → List PEntry → Option Nat → Heap → Res (Option Nat × List PEntry × Heap)
  | 0, st, acc, h => .ok (acc, st, h)
  | _ + 1, [], _, _ => .ub
  | n + 1, e :: st, acc, h => do
    let (acc, h) ← collect acc e.node h
    popRhs n st acc h

/-- Chain the collected nodes to those of the entry that is now on top (narsese.cpp:744-757). -/
def chain (node acc : Option Nat) (h : Heap) : Res (Option Nat × Heap) :=
  match acc with
  | none => .ok (node, h)
  | some a =>
    match node with
    | none => .ok (some a, h)
    | some p => do
      let l ← last (h.next + 1) p h
      let h ← h.setNext l (some a)
      let h ← h.setPrev a (some l)
      .ok (some p, h)

/-- Generate a node for the production (narsese.cpp:759-768). -/
def wrap (emit : Emit) (node : Option Nat) (h : Heap) : Res (Option Nat × Heap) :=
  if emit = .none then .ok (node, h)
  else do
    let (p, h) ← astCreate emit none h
    let h ← h.setChild p node
    .ok (some p, h)

/-- The part of the control block that changes during a parse, as `St`. -/
structure PSt where
  stack : List PEntry
  stacksize : Nat
  scan : Scan
  act : Nat
  idx : Nat
  len : Nat
  errorDelay : Nat

/-- Without the nodes, for the functions that do not look at them. -/
def PEntry.plain (e : PEntry) : Entry := ⟨e.state, e.sym, []⟩

/-- Without the nodes, for the functions that do not look at them. -/
def PSt.plain (s : PSt) : St :=
  ⟨s.stack.map PEntry.plain, s.stacksize, s.scan, s.act, s.idx, s.len, s.errorDelay⟩

/-- How a step of the parser loop ends. -/
inductive POut where
  | go (s : PSt)
  | accept (ast : Option Nat) (scan : Scan)
  | reject (len : Nat) (scan : Scan)

/-- `tos++` and the write to the new entry. -/
def push (strict : Bool) (stacksize : Nat) (e : PEntry) (st : List PEntry) : Res (List PEntry) :=
  if strict = true ∧ stacksize ≤ st.length then .ub else .ok (e :: st)

/-- One round of the reduction loop (narsese.cpp:702-810, 153-166). -/
def reduceStep (T : Tables) (strict : Bool) (s : PSt) (h : Heap) : Res (POut × Heap) := do
  let p ← Res.ofOption T.prods[s.idx]?
  let (acc, st, h) ← popRhs p.length s.stack none h
  match st with
  | [] => .ub
  | e :: below => do
    let (node, h) ← chain e.node acc h
    let (node, h) ← wrap p.emit node h
    let e := { e with node := node }
    if p.lhs = goalSym ∧ below.isEmpty then do
      let scan ← clearInput strict s.len s.scan
      .ok (.accept e.node scan, h)
    else do
      let q ← Res.ofOption e.state
      let row ← Res.ofOption T.gos[q]?
      let (act, idx) := (findRow row p.lhs).getD (s.act, s.idx)
      let st ← push strict s.stacksize
        { state := if act % 2 = 1 then none else some idx, sym := some p.lhs, node := none }
        (e :: below)
      .ok (.go { s with stack := st, act := act, idx := idx }, h)

/-- Shifting a terminal (narsese.cpp:881-937). -/
def shiftStep (T : Tables) (strict : Bool) (s : PSt) (sym : Nat) (len act idx : Nat) (scan : Scan)
    (h : Heap) : Res (POut × Heap) := do
  checkCell strict scan.buf len
  let size := allocStack s.stacksize (s.stack.map PEntry.plain)
  let info ← Res.ofOption T.symbols[sym]?
  checkLexeme strict info.emit (lexeme scan.buf len)
  let (node, h) ← leafNode info.emit (lexeme scan.buf len) h
  let st ← push strict size
    { state := if act % 2 = 1 then none else some idx, sym := some sym, node := node } s.stack
  let scan' ← dropSym strict sym len scan
  .ok (.go { stack := st, stacksize := size, scan := scan', act := act, idx := idx
             len := if sym = 0 then len else 0, errorDelay := s.errorDelay - 1 }, h)

/-- What is done with the symbol (narsese.cpp:850-937, 576-588). -/
def actStep (T : Tables) (strict : Bool) (q : Nat) (s : PSt) (sym : Option Nat) (len : Nat)
    (scan : Scan) (h : Heap) : Res (POut × Heap) := do
  let a ← getAct T q sym
  match a with
  | none =>
    if strict = true ∧ lexemSafe scan.buf.cells scan.buf.cap = false then .ub
    else .ok (.reject len scan, h)
  | some (act, idx) =>
    if act / 2 % 2 = 1 then
      match sym with
      | some x => shiftStep T strict s x len act idx scan h
      | none => .ub
    else .ok (.go { s with scan := scan, act := act, idx := idx, len := len }, h)

/-- One round of the main loop after the reductions (narsese.cpp:815-937). -/
def readStep (T : Tables) (strict : Bool) (s : PSt) (h : Heap) : Res (POut × Heap) := do
  match s.stack with
  | [] => .ub
  | e :: _ => do
    let q ← Res.ofOption e.state
    let (sym, len, scan) ← nextSym T strict q s.plain
    actStep T strict q s sym len scan h

/-- One round of the loops of `parse` (narsese.cpp:699-938). -/
def step (T : Tables) (strict : Bool) (s : PSt) (h : Heap) : Res (POut × Heap) :=
  if s.act % 2 = 1 then reduceStep T strict s h else readStep T strict s h

/-- How the main loop ends: the new value of the member `ast`, if there is one, `len`, the scanner and
the blocks that are left. -/
structure PParsed where
  ast : Option (Option Nat)
  len : Nat
  scan : Scan
  heap : Heap

/-- The main loop (narsese.cpp:699-938), with a bound on the number of rounds. -/
def run (T : Tables) (strict : Bool) : Nat → PSt → Heap → Res PParsed
  | 0, _, _ => .outOfFuel
  | fuel + 1, s, h => do
    let (o, h) ← step T strict s h
    match o with
    | .go s' => run T strict fuel s' h
    | .accept ast scan => .ok ⟨some ast, 0, scan, h⟩
    | .reject len scan => .ok ⟨none, len, scan, h⟩

/-- The state in which the loop is entered (narsese.cpp:684-696). -/
def initSt (scan : Scan) (errorDelay : Nat) : PSt :=
  { stack := [{ state := some 0, sym := none, node := none }]
    stacksize := mallocStep
    scan := { scan with isEof := false }
    act := 2, idx := 0, len := 0, errorDelay := errorDelay }

/-- `parse` (narsese.cpp:673-960).  The stack is freed as one block, and the nodes in it are not looked
at. -/
def parse (T : Tables) (strict : Bool) (fuel : Nat) (scan : Scan) (errorDelay : Nat) (h : Heap) :
    Res PParsed := do
  let r ← run T strict fuel (initSt scan errorDelay) h
  let scan ← clearInput strict r.len r.scan
  .ok { r with scan := scan }

/-- `parse` on a text, as `parseText`. -/
def parseText (strict : Bool) (fuel : Nat) (buf : Buf) (text : List WChar) (errorDelay : Nat)
    (h : Heap) : Res PParsed :=
  parse narsese strict fuel ⟨buf, fill text, false⟩ errorDelay h

/-- The tree `transform` (Parser.cpp:66-110) finds at a node: it follows `child` and `next` and reads
`emit` and `token`.  A node without token is an inner node, and one with a token has no children. -/
def treeAt : Nat → Option Nat → Heap → Res (List Ast)
  | _, none, _ => .ok []
  | 0, some _, _ => .outOfFuel
  | fuel + 1, some p, h => do
    let n ← h.node p
    let a ← match n.token with
      | some t =>
        match h.cells t with
        | some (.str s) => .ok (Ast.leaf n.emit s)
        | _ => .ub
      | none => do
        let cs ← treeAt fuel n.child h
        .ok (Ast.node n.emit cs)
    let rest ← treeAt fuel n.next h
    .ok (a :: rest)

/-- The member `ast` (narsese.h:1392), by address.  No constructor initialises it. -/
inductive PMember where
  | uninit
  | null
  | node (p : Nat)

/-- After `parse()` (narsese.cpp:779): the member is assigned only if the line was accepted. -/
def PMember.after (m : PMember) : Option (Option Nat) → PMember
  | some (some p) => .node p
  | some none => .null
  | none => m

/-- What a call of `parse_task` finds, as `Session`, and the blocks. -/
structure PSession where
  buf : Buf
  ast : PMember
  env : Env
  heap : Heap

/-- `parse_task` (NarseseParser.h:16-23, Parser.cpp:28-47) on linked nodes.  Simplified: the actions,
which do not touch the nodes, run after all nodes have been read. -/
def parseTask (M : Mach) (bad : Act Val) (strict : Bool) (fuel d : Nat) (s : PSession)
    (text : List WChar) : Res (Option Task) × PSession :=
  let env := s.env.clearNames
  match parseText strict fuel s.buf text d s.heap with
  | .ok r =>
    let m := s.ast.after r.ast
    match m with
    | .uninit => (.ub, ⟨r.scan.buf, m, env, r.heap⟩)
    | .null => (.ok none, ⟨r.scan.buf, m, env, r.heap⟩)
    | .node p =>
      match treeAt r.heap.next (some p) r.heap with
      | .ok a =>
        match evalTask M bad a env with
        | (.ok t, env') =>
          match astFree r.heap.next (some p) r.heap with
          | .ok h => (.ok (some t), ⟨r.scan.buf, .null, env', h⟩)
          | .throw e => (.throw e, ⟨r.scan.buf, m, env', r.heap⟩)
          | .ub => (.ub, ⟨r.scan.buf, m, env', r.heap⟩)
          | .outOfFuel => (.outOfFuel, ⟨r.scan.buf, m, env', r.heap⟩)
        | (.throw e, env') => (.throw e, ⟨r.scan.buf, m, env', r.heap⟩)
        | (.ub, env') => (.ub, ⟨r.scan.buf, m, env', r.heap⟩)
        | (.outOfFuel, env') => (.outOfFuel, ⟨r.scan.buf, m, env', r.heap⟩)
      | .throw e => (.throw e, ⟨r.scan.buf, m, env, r.heap⟩)
      | .ub => (.ub, ⟨r.scan.buf, m, env, r.heap⟩)
      | .outOfFuel => (.outOfFuel, ⟨r.scan.buf, m, env, r.heap⟩)
  | .throw e => (.throw e, ⟨s.buf, s.ast, env, s.heap⟩)
  | .ub => (.ub, ⟨s.buf, s.ast, env, s.heap⟩)
  | .outOfFuel => (.outOfFuel, ⟨s.buf, s.ast, env, s.heap⟩)

end Cnars.Parser.Nodes
