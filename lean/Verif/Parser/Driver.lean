import Verif.Parser.Types

/-!
# The LR driver and its lexer

`_parser` of `Narsese/Parser/narsese.cpp` (generated by UniCC) and `_CharFetcher` of
`Narsese/Parser/narsese.h`, function by function, with the tables as a parameter.

Memory.  The input buffer is modelled cell by cell (`Buf`), with its allocated size; a cell that has
never been written is `none`.  The parse stack is a list, with its allocated size beside it.  The
flag `strict` says what happens when the code leaves its memory: with `strict = true`, which is the
code as it is, the outcome is `ub`; with `strict = false` the memory is taken to be unlimited, so
that one can say what the algorithm computes apart from the memory errors.  Nothing else depends on
the flag (`strict_cases` in `DriverLemmas.lean`).

Left out: `line` and `column` (only printed in the error message), `value` (never read; the return
value of `parse` is ignored by its callers), `prev`/`parent` pointers (`prev` of the head of a
sibling list is null throughout), `error_count`, `lexem` (freed at the end of every parse).
-/

namespace Cnars.Parser

/-- The tables the driver works with (narsese.h:254-1306).  `rhs` is not used by the driver; it is
the text of the productions, needed to say what the driver should do. -/
structure Tables where
  actions : List (List (Nat × Nat × Nat))
  gos : List (List (Nat × Nat × Nat))
  defProd : List (Option Nat)
  dfaSelect : List (Option Nat)
  dfas : List Machine
  symbols : List SymInfo
  prods : List ProdInfo
  rhs : List (List Nat)

/-- A character as the parser sees it: `wchar_t` (narsese.h:30-40). -/
abbrev WChar := Int

/-- `eof` is set to `'\n'` by `Parser::Parser` (Parser.cpp:8). -/
def eofChar : WChar := 10

/-- `UNICC_MALLOCSTEP` (narsese.h:81-83). -/
def mallocStep : Nat := 128

/-- A cell of memory; `none` has never been written. -/
abbrev Cell := Option WChar

/-- `buf`, `bufend`: the written cells, the number of allocated cells (0: null pointer) and
`bufend - buf`.  Cells beyond the end of the list have not been written. -/
structure Buf where
  cells : List Cell
  cap : Nat
  size : Nat
  deriving Repr, DecidableEq

/-- Write one cell. -/
def setCell : List Cell → Nat → WChar → List Cell
  | [], 0, v => [some v]
  | [], i + 1, v => none :: setCell [] i v
  | _ :: cs, 0, v => some v :: cs
  | c :: cs, i + 1, v => c :: setCell cs i v

/-- The first `n` cells, unwritten ones included. -/
def cellsTake : Nat → List Cell → List Cell
  | 0, _ => []
  | n + 1, [] => none :: cellsTake n []
  | n + 1, c :: cs => c :: cellsTake n cs

/-- Everything the scanner works with: the buffer, the characters `_CharFetcher` has not handed out
yet, and `is_eof`. -/
structure Scan where
  buf : Buf
  input : List WChar
  isEof : Bool
  deriving Repr, DecidableEq

/-- `fill` (narsese.h:189-202), the buffer being empty before (it is cleared after every parse,
Parser.cpp:35): `append(c_str)` stops at the first NUL; a newline is added unless the text ends with
one.  The bytes of the text are given as `char` values, signed (narsese.h:203-212 converts `char` to
`wchar_t`). -/
def fill (text : List WChar) : List WChar :=
  let t := text.takeWhile (fun c => c ≠ 0)
  if t.getLast? = some eofChar then t else t ++ [eofChar]

/-- `fetch` (narsese.h:203-212): `EOF` after the end. -/
def fetch : List WChar → WChar × List WChar
  | [] => (-1, [])
  | c :: cs => (c, cs)

/-- The (re)allocation at the top of the loop of `get_input` (narsese.cpp:223-256). -/
def Buf.grow (b : Buf) : Buf :=
  if b.cap = 0 then { cells := [some 0], cap := mallocStep + 1, size := 0 }
  else if b.cells.head? ≠ some (some 0) ∧ b.size % mallocStep = 0 then
    { b with cells := b.cells.take (b.size + mallocStep + 1), cap := b.size + mallocStep + 1 }
  else b

/-- An access to cell `i` of the buffer. -/
def checkCell (strict : Bool) (b : Buf) (i : Nat) : Res Unit :=
  if strict = true ∧ b.cap ≤ i then .ub else .ok ()

/-- The loop of `get_input` (narsese.cpp:217-279), `n` being the number of characters missing;
returns whether the end of the input was met. -/
def fillTo (strict : Bool) : Nat → Scan → Res (Bool × Scan)
  | 0, s => .ok (false, s)
  | n + 1, s => do
    let b := s.buf.grow
    if s.isEof then .ok (true, { s with buf := b })
    else do
      let (c, rest) := fetch s.input
      checkCell strict b b.size
      let b1 := { b with cells := setCell b.cells b.size c }
      if c = eofChar then .ok (true, { buf := b1, input := rest, isEof := true })
      else do
        checkCell strict b1 (b1.size + 1)
        fillTo strict n
          { buf := { b1 with cells := setCell b1.cells (b1.size + 1) 0, size := b1.size + 1 }
            input := rest
            isEof := false }

/-- `get_input` (narsese.cpp:210-295). -/
def getInput (strict : Bool) (offset : Nat) (s : Scan) : Res (WChar × Scan) := do
  let (eof, s) ← fillTo strict (offset + 1 - s.buf.size) s
  if eof then .ok (eofChar, s)
  else match s.buf.cells[offset]? with
    | some (some c) => .ok (c, s)
    | _ => .ub

/-- `clear_input` (narsese.cpp:297-349): drop the first `len` characters; with `len = 0` drop them
all.  The `memmove` reads `size - len + 2` cells, the last one at index `size + 1`. -/
def clearInput (strict : Bool) (len : Nat) (s : Scan) : Res Scan :=
  if s.buf.cap = 0 then .ok s
  else if len = 0 then
    .ok { s with buf := { s.buf with cells := setCell s.buf.cells 0 0, size := 0 } }
  else if s.buf.size < len then .ub
  else do
    checkCell strict s.buf (s.buf.size + 1)
    let n := s.buf.size - len + 2
    .ok { s with buf := { s.buf with
            cells := cellsTake n (s.buf.cells.drop len) ++ s.buf.cells.drop n
            size := s.buf.size - len } }

/-- `next >= lo && next <= hi` (narsese.cpp:399-400), the bounds being non-negative. -/
def inRange (c : WChar) (lo hi : Nat) : Bool :=
  match c with
  | .ofNat n => lo ≤ n && n ≤ hi
  | .negSucc _ => false

/-- The inner loop of `lex` (narsese.cpp:392-434): the first range containing the character. -/
def transition (row : List (Nat × Nat × Nat)) (c : WChar) : Option Nat :=
  match row with
  | [] => none
  | (lo, hi, t) :: r => if inRange c lo hi then some t else transition r c

/-- Whether `lex` stops as soon as it accepts this symbol (narsese.cpp:415-426). -/
def stopsAt (T : Tables) (sym : Nat) : Res Bool :=
  if sym = 0 then .ok true
  else do
    let info ← Res.ofOption T.symbols[sym]?
    .ok (!info.greedy)

/-- `dfa_accept` after a transition (narsese.cpp:406-409): the accepted symbol and its length
replace the best match so far. -/
def accepted (a len : Nat) (best : Option (Nat × Nat)) : Option (Nat × Nat) :=
  if 0 < a then some (a - 1, len + 1) else best

/-- Whether the scanner stops at an accepting state (narsese.cpp:415-426). -/
def stopsNow (T : Tables) (a : Nat) : Res Bool :=
  if 0 < a then stopsAt T (a - 1) else .ok false

/-- The outer loop of `lex` (narsese.cpp:375-436).  `best` is `(sym, len)` of the last accepting
state; the fuel is a bound on the number of characters. -/
def lexLoop (T : Tables) (strict : Bool) (m : Machine) :
    Nat → Nat → Nat → WChar → Option (Nat × Nat) → Scan → Res (Option (Nat × Nat) × Scan)
  | 0, _, _, _, _, _ => .outOfFuel
  | fuel + 1, state, len, next, best, s => do
    let (row, _) ← Res.ofOption m[state]?
    match transition row next with
    | none => .ok (best, s)
    | some t => do
      let (_, a) ← Res.ofOption m[t]?
      let stop ← stopsNow T a
      if stop then .ok (accepted a len best, s)
      else do
        let (next', s') ← getInput strict (len + 1) s
        if next' = eofChar then .ok (accepted a len best, s')
        else lexLoop T strict m fuel t (len + 1) next' (accepted a len best) s'

/-- Number of characters that can still be read; a bound for the loops of the scanner. -/
def Scan.avail (s : Scan) : Nat :=
  s.buf.size + if s.isEof then 0 else (s.input.takeWhile (fun c => c ≠ eofChar)).length

/-- `get_sym` and the beginning of `lex` (narsese.cpp:352-373, 481-526): the next symbol and its
length for parser state `state`; `none` is `sym = -1`. -/
def getSym (T : Tables) (strict : Bool) (state : Nat) (s : Scan) :
    Res (Option Nat × Nat × Scan) := do
  let sel ← Res.ofOption T.dfaSelect[state]?
  let (next, s) ← getInput strict 0 s
  if next = eofChar then .ok (some 0, 0, s)
  else match sel with
    | none => .ok (none, 0, s)
    | some k => do
      let m ← Res.ofOption T.dfas[k]?
      let (r, s) ← lexLoop T strict m (s.avail + 1) 0 0 next none s
      match r with
      | some (sym, len) => .ok (some sym, len, s)
      | none => .ok (none, 0, s)

/-- The loop `while (!get_sym()) { len = 1; clear_input(); }` (narsese.cpp:826-832), entered only
when `error_delay == 3`. -/
def skipSym (T : Tables) (strict : Bool) (state : Nat) :
    Nat → Scan → Res (Option Nat × Nat × Scan)
  | 0, _ => .outOfFuel
  | fuel + 1, s => do
    let (sym, len, s) ← getSym T strict state s
    match sym with
    | some x => .ok (some x, len, s)
    | none => do
      let s ← clearInput strict 1 s
      skipSym T strict state fuel s

/-- `_tok` (narsese.h:161-174): the node list, the symbol (none: the bottom entry) and the state
(none: `-1`). -/
structure Entry where
  state : Option Nat
  sym : Option Nat
  nodes : List Ast
  deriving Repr

/-- The part of the control block that changes during a parse. -/
structure St where
  /-- top first; the last one is `stack[0]` -/
  stack : List Entry
  stacksize : Nat
  scan : Scan
  /-- `act` as set by `get_act` / `get_go`: 1 reduce, 2 shift, 3 both -/
  act : Nat
  idx : Nat
  /-- `len` of the current symbol -/
  len : Nat
  errorDelay : Nat
  deriving Repr

/-- Looking for `key` in a row of `actions` or `go` (narsese.cpp:130-141, 155-163). -/
def findRow (row : List (Nat × Nat × Nat)) (key : Nat) : Option (Nat × Nat) :=
  match row with
  | [] => none
  | (k, a, i) :: r => if k = key then some (a, i) else findRow r key

/-- `get_act` (narsese.cpp:128-151): `none` is a parse error.  `sym = -1` occurs in no row. -/
def getAct (T : Tables) (state : Nat) (sym : Option Nat) : Res (Option (Nat × Nat)) := do
  let row ← Res.ofOption T.actions[state]?
  match sym.bind (findRow row) with
  | some (a, i) => .ok (if a = 0 then none else some (a, i))
  | none => do
    let d ← Res.ofOption T.defProd[state]?
    .ok (d.map fun p => (1, p))

/-- One step of collecting nodes (narsese.cpp:726-739): `tos->node->next = node` overwrites the
link from the first node of the entry to the others. -/
def collect (acc : List Ast) (nodes : List Ast) : List Ast :=
  match nodes, acc with
  | [], acc => acc
  | n :: ns, [] => n :: ns
  | n :: _, a :: as => n :: a :: as

/-- Drop the right-hand side (narsese.cpp:721-742); the entries are read, then `tos--`. -/
def popRhs : Nat → List Entry → List Ast → Option (List Ast × List Entry)
  | 0, st, acc => some (acc, st)
  | _ + 1, [], _ => none
  | n + 1, e :: st, acc => popRhs n st (collect acc e.nodes)

/-- Generate a node for the production (narsese.cpp:759-768). -/
def wrapNodes (emit : Emit) (nodes : List Ast) : List Ast :=
  if emit = .none then nodes else [.node emit nodes]

/-- `tos++` and the write to the new entry: `stack[length]` must be allocated. -/
def push (strict : Bool) (stacksize : Nat) (e : Entry) (st : List Entry) : Res (List Entry) :=
  if strict = true ∧ stacksize ≤ st.length then .ub else .ok (e :: st)

/-- `alloc_stack` with a stack present (narsese.cpp:168-208): `tos - stack == stacksize`. -/
def allocStack (stacksize : Nat) (st : List Entry) : Nat :=
  if st.length - 1 = stacksize then stacksize + mallocStep else stacksize

/-- How a step of the parser loop ends. -/
inductive Out where
  | go (s : St)
  | accept (ast : List Ast) (scan : Scan)
  | reject (len : Nat) (scan : Scan)
  deriving Repr

/-- The number of the goal symbol, `task''` (narsese.cpp:775). -/
def goalSym : Nat := 59

/-- One round of the reduction loop (narsese.cpp:702-810, 153-166).  If `get_go` finds nothing, `act` and
`idx` keep their values. -/
def reduceStep (T : Tables) (strict : Bool) (s : St) : Res Out := do
  let p ← Res.ofOption T.prods[s.idx]?
  let (acc, st) ← Res.ofOption (popRhs p.length s.stack [])
  match st with
  | [] => .ub
  | e :: below => do
    let e := { e with nodes := wrapNodes p.emit (e.nodes ++ acc) }
    if p.lhs = goalSym ∧ below = [] then do
      let scan ← clearInput strict s.len s.scan
      .ok (.accept e.nodes scan)
    else do
      let q ← Res.ofOption e.state
      let row ← Res.ofOption T.gos[q]?
      let (act, idx) := (findRow row p.lhs).getD (s.act, s.idx)
      let st ← push strict s.stacksize
        { state := if act % 2 = 1 then none else some idx, sym := some p.lhs, nodes := [] }
        (e :: below)
      .ok (.go { s with stack := st, act := act, idx := idx })

/-- Whether `get_lexem` in the error message (narsese.h:63-68, narsese.cpp:18-44) reads only
written, allocated cells up to a NUL, and only characters `wcstombs` can convert; otherwise
`wcstombs` runs over unwritten memory, or returns `-1` and a block of size 0 is printed as a
string. -/
def lexemSafe : List Cell → Nat → Bool
  | some c :: cs, cap + 1 => c = 0 || (decide (0 < c) && decide (c ≤ 127) && lexemSafe cs cap)
  | _, _ => false

/-- The text of the symbol being shifted: `get_lexem` with `buf[len] = 0` (narsese.cpp:884-885, 922-926). -/
def lexeme (b : Buf) (len : Nat) : List WChar :=
  (b.cells.take len).map (fun c => c.getD 0)

/-- A byte as a character of a `std::string`. -/
def toChar (c : WChar) : Char := Char.ofNat c.toNat

/-- The node of a shifted terminal (narsese.cpp:919-924). -/
def leafNodes (emit : Emit) (token : List WChar) : List Ast :=
  if emit = .none then [] else [.leaf emit (token.map toChar)]

/-- `get_lexem` of a shifted terminal works: all its characters are converted. -/
def checkLexeme (strict : Bool) (emit : Emit) (token : List WChar) : Res Unit :=
  if strict = true ∧ emit ≠ .none ∧ ¬ token.all (fun c => decide (0 < c) && decide (c ≤ 127)) then
    .ub else .ok ()

/-- Remove the symbol from the input unless it is the end of the input (narsese.cpp:928-933). -/
def dropSym (strict : Bool) (sym len : Nat) (scan : Scan) : Res Scan :=
  if sym = 0 then .ok scan else clearInput strict len scan

/-- Shifting a terminal (narsese.cpp:881-937).  The call `get_input(0)` in between (line 909) finds a
character in the buffer, or the end of the input, and changes nothing. -/
def shiftStep (T : Tables) (strict : Bool) (s : St) (sym : Nat) (len act idx : Nat) (scan : Scan) :
    Res Out := do
  checkCell strict scan.buf len
  let size := allocStack s.stacksize s.stack
  let info ← Res.ofOption T.symbols[sym]?
  checkLexeme strict info.emit (lexeme scan.buf len)
  let st ← push strict size
    { state := if act % 2 = 1 then none else some idx
      sym := some sym
      nodes := leafNodes info.emit (lexeme scan.buf len) } s.stack
  let scan' ← dropSym strict sym len scan
  .ok (.go { stack := st, stacksize := size, scan := scan', act := act, idx := idx
             len := if sym = 0 then len else 0, errorDelay := s.errorDelay - 1 })

/-- The next symbol: `get_sym`, or the loop that skips characters (narsese.cpp:815-841). -/
def nextSym (T : Tables) (strict : Bool) (q : Nat) (s : St) : Res (Option Nat × Nat × Scan) :=
  if s.errorDelay = 3 then skipSym T strict q (s.scan.avail + 2) s.scan
  else getSym T strict q s.scan

/-- What is done with the symbol (narsese.cpp:850-937, 576-588): give up, shift it, or leave it and
reduce. -/
def actStep (T : Tables) (strict : Bool) (q : Nat) (s : St) (sym : Option Nat) (len : Nat)
    (scan : Scan) : Res Out := do
  let a ← getAct T q sym
  match a with
  | none =>
    if strict = true ∧ lexemSafe scan.buf.cells scan.buf.cap = false then .ub
    else .ok (.reject len scan)
  | some (act, idx) =>
    if act / 2 % 2 = 1 then
      match sym with
      | some x => shiftStep T strict s x len act idx scan
      | none => .ub
    else .ok (.go { s with scan := scan, act := act, idx := idx, len := len })

/-- One round of the main loop after the reductions (narsese.cpp:815-937). -/
def readStep (T : Tables) (strict : Bool) (s : St) : Res Out := do
  match s.stack with
  | [] => .ub
  | e :: _ => do
    let q ← Res.ofOption e.state
    let (sym, len, scan) ← nextSym T strict q s
    actStep T strict q s sym len scan

/-- One round of the loops of `parse` (narsese.cpp:699-938). -/
def step (T : Tables) (strict : Bool) (s : St) : Res Out :=
  if s.act % 2 = 1 then reduceStep T strict s else readStep T strict s

/-- How the main loop ends: the new syntax tree (null if the input was rejected), `len` and the
scanner. -/
structure Parsed where
  ast : Option (List Ast)
  len : Nat
  scan : Scan
  deriving Repr

/-- The main loop (narsese.cpp:699-938), with a bound on the number of rounds. -/
def run (T : Tables) (strict : Bool) : Nat → St → Res Parsed
  | 0, _ => .outOfFuel
  | fuel + 1, s => do
    let o ← step T strict s
    match o with
    | .go s' => run T strict fuel s'
    | .accept ast scan => .ok ⟨some ast, 0, scan⟩
    | .reject len scan => .ok ⟨none, len, scan⟩

/-- The state in which the loop is entered (narsese.cpp:684-696). -/
def initSt (scan : Scan) (errorDelay : Nat) : St :=
  { stack := [{ state := some 0, sym := none, nodes := [] }]
    stacksize := mallocStep
    scan := { scan with isEof := false }
    act := 2, idx := 0, len := 0, errorDelay := errorDelay }

/-- `parse` (narsese.cpp:673-960).  After the loop `clear_input` runs once more. -/
def parse (T : Tables) (strict : Bool) (fuel : Nat) (scan : Scan) (errorDelay : Nat) :
    Res Parsed := do
  let r ← run T strict fuel (initSt scan errorDelay)
  let scan ← clearInput strict r.len r.scan
  .ok { r with scan := scan }

end Cnars.Parser
