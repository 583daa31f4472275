#!/usr/bin/env python3
"""Write lean/Verif/Props/Examples1.lean to Examples4.lean: the lines that `test_parse_nal` reads of the files in
/repo/examples/single_step/nal1 to nal9, except for those in EXCEPT.

With the argument `check`: nothing is written; the files have to be what they would be."""
import glob
import os
import sys

EXCEPT = {
    "<(&&,<$x --> flyer>,<$x --> [chirping]>, <(*, $x, worms) --> food>) ==> <$x --> bird>>.",
    "<(&&,<$x --> key>,<$y --> lock>) ==> <$y --> (/,open,$x,_)>>.",
    "<<$x --> lock> ==> (&&,<#y --> key>,<$x --> (/,open,#y,_)>)>.",
    "(&&,<#x --> lock>,<<$y --> key> ==> <#x --> (/,open,$y,_)>>).",
    "(&&,<#x --> (/,open,#y,_)>,<#x --> lock>,<#y --> key>).",
    "(&&,<#x --> key>,<{lock1} --> (/,open,#x,_)>).",
    "(&&,<#1 --> lock>,<<$2 --> key> ==> <#1 --> (/,open,$2,_)>>). %1.00;0.90%",
    "<<$1 --> lock> ==> (&&,<#2 --> key>,<$1 --> (/,open,#2,_)>)>. %1.00;0.90%",
    "<(&&,<$x --> flyer>,<(*,$x,worms) --> food>) ==> <$x --> bird>>.",
    "<<(&,<#1 --> $2>,<$3 --> #1>) --> claimedByBob> ==> <<$3 --> $2> --> claimedByBob>>.",
    "(&|,<(*,{t002},#1) --> on>,<(*,SELF,#1) --> at>). :|:",
    "<(&|,<(*,$1,$2) --> on>,<(*,SELF,$2) --> at>) =|> <(*,SELF,$1) --> reachable>>.",
    "<(&|,<(*,$1,#2) --> on>,<(*,SELF,#2) --> at>)=|><(*,SELF,$1) --> reachable>>.",
    "(&|,<(*,{t002},#1) --> on>,<(*,#1,SELF) --> at>)!",
    "<(&|,<(*,$1,$2) --> on>,<(*,Self,$2) --> at>) =|> <(*,Self,$1) --> reachable>>.",
    "<(&/,(^go_to,{t003}),(^pick,{t002}),(^go_to,{t001}),(^open,{t001})) =/> <{t001} --> [opened]>>. :|:",
}
PARTS = 4


def lines():
    """The lines in the order of their first occurrence, with the directory of it."""
    seen = {}
    for level in range(1, 10):
        for path in sorted(glob.glob(f"/repo/examples/single_step/nal{level}/*.nal")):
            data = open(path, "rb").read().split(b"\n")
            if data and data[-1] == b"":
                data.pop()
            for line in data:
                text = line.strip(b" \t\n\v\f\r")
                if text == b"" or text.isdigit() or text.startswith(b"'"):
                    continue
                seen.setdefault(text.decode("ascii"), level)
    return seen


def quote(text):
    return '"' + text.replace("\\", "\\\\").replace('"', '\\"') + '".toList'


def rows(names, sep, indent):
    return f"{sep}\n{indent}".join(f"{sep} ".join(names[j:j + 4]) for j in range(0, len(names), 4))


def main():
    seen = lines()
    missing = EXCEPT - set(seen)
    assert not missing, missing
    kept = [t for t in seen if t not in EXCEPT]
    print(len(seen), "lines,", len(kept), "kept")
    for level in range(1, 10):
        bad = sorted({p for p in glob.glob(f"/repo/examples/single_step/nal{level}/*.nal")
                      for l in open(p, "rb").read().decode("latin1").split("\n") if l.strip() in EXCEPT})
        print(f"nal{level}:", len(bad), "files with other lines")
    root = os.path.join(os.path.dirname(os.path.abspath(__file__)), "..", "lean", "Verif", "Props")
    size = -(-len(kept) // PARTS)
    for k in range(PARTS):
        part = list(enumerate(kept))[k * size:(k + 1) * size]
        text = f"""import Verif.Props.Legible

/-!
# C99: lines of the files of examples, part {k + 1}

Written by tools/mk_examples.py.
-/

-- with one thread for each theorem the memory of the last one is not used again
set_option Elab.async false

namespace Cnars.Props
"""
        for i, line in part:
            text += f"""
/-- In examples/single_step/nal{seen[line]}. -/
def exampleLine{i + 1} : List Char := {quote(line)}
theorem exampleLine{i + 1}_legible : legible? 11 exampleLine{i + 1} = true := by decide +kernel
"""
        text += f"""
/-- The lines of this file. -/
def exampleLines{k + 1} : List (List Char) :=
  [{rows([f"exampleLine{i + 1}" for i, _ in part], ",", "   ")}]

theorem exampleLines{k + 1}_legible : exampleLines{k + 1}.all (legible? 11) = true :=
  {rows([f"all_cons exampleLine{i + 1}_legible" for i, _ in part], " <|", "  ")} <| rfl

end Cnars.Props
"""
        path = os.path.join(root, f"Examples{k + 1}.lean")
        if sys.argv[1:] == ["check"]:
            assert open(path).read() == text, path
        else:
            open(path, "w").write(text)



main()
