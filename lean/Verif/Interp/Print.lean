import Verif.Interp.Store
import Verif.Narsese.Term

/-!
# `Interpreter::interpret` on terms

`Interpreter/src/Interpreter.cpp`.  A printed text is a list of characters.  The style arguments of
`fmt::format` and its treatment of braces follow the `fmt` library (outside /repo): with a style and
no further arguments the text is still a format string, `{{` and `}}` stand for single braces and
any other brace throws `fmt::format_error`; a foreground colour is `ESC[38;2;rrr;ggg;bbbm` and the
reset `ESC[0m`.
-/

namespace Cnars
open Term

/-- A text. -/
abbrev Str := List Char

namespace Print

/-- A format string without arguments. -/
def fmt0 : Str → Res Str
  | [] => .ok []
  | '{' :: '{' :: r => return '{' :: (← fmt0 r)
  | '}' :: '}' :: r => return '}' :: (← fmt0 r)
  | c :: r => if c = '{' ∨ c = '}' then .throw "fmt::format_error" else return c :: (← fmt0 r)

/-- The colours (Interpreter.cpp:13-23). -/
inductive Color where
  | term | angle | punct | parenthesis | separator | copula | connector | percent | number | tense
  | operation
  deriving DecidableEq

/-- The escape sequence that `fmt` writes for a colour (Interpreter.cpp:13-23). -/
def Color.escape : Color → Str
  | .term => "\x1b[38;2;166;217;246m".toList
  | .angle | .punct | .parenthesis | .separator => "\x1b[38;2;104;154;199m".toList
  | .copula | .connector => "\x1b[38;2;193;137;191m".toList
  | .percent => "\x1b[38;2;077;196;172m".toList
  | .number => "\x1b[38;2;181;206;168m".toList
  | .tense => "\x1b[38;2;077;196;254m".toList
  | .operation => "\x1b[38;2;220;220;170m".toList

/-- The reset sequence. -/
def reset : Str := "\x1b[0m".toList

/-- `fmt::format(color, text)`. -/
def styled (c : Color) (text : Str) : Res Str :=
  return c.escape ++ (← fmt0 text) ++ reset

/-- `colored ? fmt::format(color, text) : text`. -/
def paint (colored : Bool) (c : Color) (text : Str) : Res Str :=
  if colored then styled c text else .ok text

/-- `colored ? fmt::format(color, "{{") : "{"` and the like (Interpreter.cpp:171, 173, 192, 194). -/
def brace (colored : Bool) (c : Char) : Res Str :=
  if colored then styled .parenthesis [c, c] else .ok [c]

/-- `std::to_string(int)`. -/
def decimal : Int → Str
  | .ofNat n => Nat.toDigits 10 n
  | .negSucc n => '-' :: Nat.toDigits 10 (n + 1)

/-- `fmt::format("{:+d}", n)`. -/
def signed : Int → Str
  | .ofNat n => '+' :: Nat.toDigits 10 n
  | .negSucc n => '-' :: Nat.toDigits 10 (n + 1)

/-- `fmt::format("0x{:x}", (long)address)`. -/
def hexAddr (a : Word) : Str :=
  '0' :: 'x' :: (match a.toInt with
    | .ofNat n => Nat.toDigits 16 n
    | .negSucc n => '-' :: Nat.toDigits 16 (n + 1))

/-- `Repr[prefix] + to_string(*indices[0])` (Interpreter.cpp:32-46).  The index is that of the table
of the variable's own kind; reading it from an empty table is undefined behaviour. -/
def varText (k : VarKind) (i : Info) : Res Str := do
  let idx ← IV.front (match k with | .independent => i.iv | .dependent => i.dv | .query => i.qv)
  return k.symbol.toList ++ decimal idx

/-- The dictionary lookup in front of everything but variables and intervals
(Interpreter.cpp:65-76). -/
def named (d : Map Key String) (colored : Bool) (t : Term) : Option (Res Str) :=
  match d (keyOf t.hash) with
  | none => none
  | some n =>
    some (match t with
      | .atom _ i => paint colored (if i.isOperation then .operation else .term) n.toList
      | _ => .ok n.toList)

/-- `fmt::format(fmt::format(color_term, "{{}}"), text)` (Interpreter.cpp:130, 133). -/
def wrapped (colored : Bool) (text : Str) : Str :=
  if colored then Color.escape .term ++ text ++ reset else text

mutual
/-- `Interpreter::interpret(Term&, bool)` (Interpreter.cpp:25-216). -/
def term (d : Map Key String) (colored : Bool) : Term → Res Str
  | .var k _ i => do paint colored .term (← varText k i)
  | .interval n _ => paint colored .number (signed n)
  | t@(.atom a i) =>
    match named d colored t with
    | some r => r
    | none =>
      if i.isOperation then paint colored .operation ('^' :: hexAddr a)
      else paint colored .term (hexAddr a)
  | t@(.stmt s c p i) =>
    match named d colored t with
    | some r => r
    | none =>
      if i.isOperation then do
        let op ← term d colored p
        let l ← paint colored .parenthesis ['(']
        let sep ← paint colored .separator [',', ' ']
        let args ← subjectArgs d colored s
        let r ← paint colored .parenthesis [')']
        return l ++ op ++ sep ++ args ++ r
      else do
        let str1 ← term d colored s
        let str2 ← term d colored p
        let l ← paint colored .angle ['<']
        let cop ← paint colored .copula c.symbol.toList
        let r ← paint colored .angle ['>']
        return l ++ wrapped colored str1 ++ [' '] ++ cop ++ [' '] ++ wrapped colored str2 ++ r
  | t@(.comp c ts _) =>
    match named d colored t with
    | some r => r
    | none =>
      if ts.isEmpty then .ub
      else if c = .extensionalSet then do
        let l ← brace colored '{'
        let args ← terms d colored ts
        let r ← brace colored '}'
        return l ++ args ++ r
      else if c = .intensionalSet then do
        let l ← paint colored .parenthesis ['[']
        let args ← terms d colored ts
        let r ← paint colored .parenthesis [']']
        return l ++ args ++ r
      else do
        let l ← paint colored .parenthesis ['(']
        let conn ← paint colored .connector c.symbol.toList
        let sep ← paint colored .separator [',', ' ']
        let args ← terms d colored ts
        let r ← paint colored .parenthesis [')']
        return l ++ conn ++ sep ++ args ++ r

/-- `append_strs(ss, ((Compound &)*stat.subject).components())` (Interpreter.cpp:144, 148, 154):
undefined unless the subject is a compound. -/
def subjectArgs (d : Map Key String) (colored : Bool) : Term → Res Str
  | .comp _ ts _ => terms d colored ts
  | _ => .ub

/-- `append_strs` (Interpreter.cpp:79-94). -/
def terms (d : Map Key String) (colored : Bool) : List Term → Res Str
  | [] => .ok []
  | [t] => term d colored t
  | t :: ts => do
    let str ← term d colored t
    let sep ← paint colored .separator [',', ' ']
    let rest ← terms d colored ts
    return str ++ sep ++ rest
end

end Print
end Cnars
