import Verif.Parser.Types

/-!
# Tables of the generated parser

Generated by `tools/gen_tables.py` from `/repo/Narsese/Parser/narsese.h`; do not edit.

* `actionRows` is `actions[176][23*3+1]` (narsese.h:254-432), `goRows` is `go[176][..]`
  (narsese.h:435-613): the row `{n, s1, a1, i1, ..}` becomes the list of its triples.
* `defProdTable` is `def_prod[176]` (narsese.h:616-620) and `dfaSelectTable` is `dfa_select[176]`
  (narsese.h:623-628); `-1` becomes `none`.
* `dfaTable` is what the loop of `_parser::lex` reads from `dfa_idx`, `dfa_chars`, `dfa_trans`,
  `dfa_accept` (narsese.h:631-792): for every machine and state the character ranges with their
  target, and the accepted symbol plus one (0 = none).  `TablesRaw.lean` holds the four arrays
  verbatim and proves that this table is what they contain.
* `symbolTable` is `symbols[234]` (narsese.h:795-1031) and `productionTable` is
  `productions[270]` (narsese.h:1034-1306), with names and definition texts as comments.
* `rhsTable` is not in the C++ tables except as text: it is the right-hand side of every production,
  as symbol numbers, read off the `definition` strings.
-/

namespace Cnars.Parser

/-- `actions` (narsese.h:254-432): per state `(symbol, action, index)`. -/
def actionRows : List (List (Nat × Nat × Nat)) :=
  [[(58, 3, 207)],
   [(58, 3, 207)],
   [(11, 2, 5)],
   [(0, 3, 206)],
   [(51, 2, 13), (49, 2, 14), (32, 2, 16), (28, 2, 17), (16, 2, 21), (15, 2, 22), (14, 2, 23),
    (6, 2, 24), (3, 2, 25)],
   [(58, 3, 207)],
   [(31, 2, 30)],
   [(54, 1, 13), (53, 1, 19), (52, 1, 28)],
   [(54, 1, 14), (53, 1, 20), (52, 1, 29)],
   [(55, 2, 32)],
   [(54, 2, 34)],
   [(53, 2, 36)],
   [(52, 2, 38)],
   [(58, 3, 207)],
   [(58, 3, 207)],
   [(49, 2, 14)],
   [(58, 3, 207)],
   [(58, 3, 207)],
   [(54, 2, 34), (51, 2, 13), (49, 2, 14), (32, 2, 16), (28, 2, 17), (16, 2, 21), (15, 2, 22),
    (14, 2, 23), (11, 2, 5), (10, 2, 42), (6, 2, 24), (3, 2, 25)],
   [(54, 2, 34), (51, 2, 13), (49, 2, 14), (32, 2, 16), (28, 2, 17), (16, 2, 21), (15, 2, 22),
    (14, 2, 23), (11, 2, 5), (10, 2, 42), (6, 2, 24), (3, 2, 25)],
   [(54, 2, 34), (51, 2, 13), (49, 2, 14), (32, 2, 16), (28, 2, 17), (16, 2, 21), (15, 2, 22),
    (14, 2, 23), (11, 2, 5), (10, 2, 42), (6, 2, 24), (3, 2, 25)],
   [(58, 3, 207)],
   [(58, 3, 207)],
   [(58, 3, 207)],
   [(58, 3, 207)],
   [(58, 3, 207)],
   [(54, 2, 34), (51, 2, 13), (49, 2, 14), (32, 2, 16), (28, 2, 17), (25, 2, 57), (24, 2, 58),
    (23, 2, 59), (22, 2, 60), (21, 2, 61), (20, 2, 62), (19, 2, 63), (18, 2, 64), (17, 2, 65),
    (16, 2, 21), (15, 2, 22), (14, 2, 23), (13, 2, 66), (12, 2, 67), (11, 2, 5), (10, 2, 42),
    (6, 2, 24), (3, 2, 25)],
   [(6, 2, 24), (3, 2, 25)],
   [(54, 2, 34), (51, 2, 13), (49, 2, 14), (32, 2, 16), (28, 2, 17), (16, 2, 21), (15, 2, 22),
    (14, 2, 23), (11, 2, 5), (10, 2, 42), (6, 2, 24), (3, 2, 25)],
   [(57, 2, 69)],
   [(58, 3, 207)],
   [(1, 2, 70)],
   [(58, 3, 207)],
   [(9, 2, 74), (7, 2, 75), (5, 2, 76), (4, 2, 77)],
   [(58, 3, 207)],
   [(9, 2, 74), (7, 2, 75), (5, 2, 76), (4, 2, 77)],
   [(58, 3, 207)],
   [(9, 2, 74), (7, 2, 75), (5, 2, 76), (4, 2, 77)],
   [(58, 3, 207)],
   [(9, 2, 74), (7, 2, 75), (5, 2, 76), (4, 2, 77)],
   [(54, 2, 34), (51, 2, 13), (49, 2, 14), (32, 2, 16), (28, 2, 17), (16, 2, 21), (15, 2, 22),
    (14, 2, 23), (11, 2, 5), (10, 2, 42), (6, 2, 24), (3, 2, 25)],
   [(47, 2, 81)],
   [(58, 3, 207)],
   [(6, 2, 24), (3, 2, 25)],
   [(6, 2, 24), (3, 2, 25)],
   [(6, 2, 24), (3, 2, 25)],
   [(47, 2, 81)],
   [(47, 2, 81), (46, 2, 89), (45, 2, 90), (44, 2, 91), (43, 2, 92), (42, 2, 93), (41, 2, 94),
    (40, 2, 95), (39, 2, 96), (38, 2, 97), (37, 2, 98), (36, 2, 99), (33, 2, 100), (25, 2, 57),
    (24, 2, 58), (23, 2, 59), (22, 2, 60), (21, 2, 61), (20, 2, 62), (19, 2, 63)],
   [(47, 2, 81), (48, 1, 42)],
   [(54, 2, 34), (51, 2, 13), (49, 2, 14), (47, 2, 81), (32, 2, 16), (28, 2, 17), (16, 2, 21),
    (15, 2, 22), (14, 2, 23), (11, 2, 5), (10, 2, 42), (6, 2, 24), (3, 2, 25)],
   [(47, 2, 81)],
   [(47, 2, 81)],
   [(48, 2, 123)],
   [(47, 2, 81)],
   [(47, 2, 81)],
   [(47, 2, 81)],
   [(18, 2, 64), (17, 2, 65)],
   [(58, 3, 207)],
   [(58, 3, 207)],
   [(58, 3, 207)],
   [(58, 3, 207)],
   [(58, 3, 207)],
   [(58, 3, 207)],
   [(58, 3, 207)],
   [(58, 3, 207)],
   [(58, 3, 207)],
   [(58, 3, 207)],
   [(58, 3, 207)],
   [(46, 2, 89), (45, 2, 90), (44, 2, 91), (43, 2, 92), (42, 2, 93), (41, 2, 94), (40, 2, 95),
    (39, 2, 96), (38, 2, 97), (37, 2, 98), (36, 2, 99), (33, 2, 100)],
   [(58, 3, 207)],
   [(58, 3, 207)],
   [(11, 2, 5)],
   [(30, 2, 129)],
   [(2, 2, 131)],
   [(58, 3, 207)],
   [(58, 3, 207)],
   [(58, 3, 207)],
   [(58, 3, 207)],
   [(57, 2, 69)],
   [(2, 2, 131)],
   [(47, 2, 81)],
   [(58, 3, 207)],
   [(47, 2, 81)],
   [(27, 2, 137)],
   [(54, 2, 34), (51, 2, 13), (49, 2, 14), (32, 2, 16), (28, 2, 17), (16, 2, 21), (15, 2, 22),
    (14, 2, 23), (11, 2, 5), (10, 2, 42), (6, 2, 24), (3, 2, 25)],
   [(47, 2, 81)],
   [(26, 2, 138)],
   [(54, 2, 34), (51, 2, 13), (49, 2, 14), (32, 2, 16), (28, 2, 17), (16, 2, 21), (15, 2, 22),
    (14, 2, 23), (11, 2, 5), (10, 2, 42), (6, 2, 24), (3, 2, 25)],
   [(54, 2, 34), (51, 2, 13), (49, 2, 14), (32, 2, 16), (28, 2, 17), (16, 2, 21), (15, 2, 22),
    (14, 2, 23), (11, 2, 5), (10, 2, 42), (6, 2, 24), (3, 2, 25)],
   [(58, 3, 207)],
   [(58, 3, 207)],
   [(58, 3, 207)],
   [(58, 3, 207)],
   [(58, 3, 207)],
   [(58, 3, 207)],
   [(58, 3, 207)],
   [(58, 3, 207)],
   [(58, 3, 207)],
   [(58, 3, 207)],
   [(58, 3, 207)],
   [(58, 3, 207)],
   [(48, 2, 123), (47, 2, 81)],
   [(25, 2, 57)],
   [(24, 2, 58)],
   [(23, 2, 59)],
   [(22, 2, 60)],
   [(21, 2, 61)],
   [(20, 2, 62)],
   [(19, 2, 63)],
   [(54, 2, 34), (51, 2, 13), (49, 2, 14), (32, 2, 16), (28, 2, 17), (16, 2, 21), (15, 2, 22),
    (14, 2, 23), (11, 2, 5), (10, 2, 42), (6, 2, 24), (3, 2, 25)],
   [(54, 2, 34), (51, 2, 13), (49, 2, 14), (32, 2, 16), (28, 2, 17), (16, 2, 21), (15, 2, 22),
    (14, 2, 23), (11, 2, 5), (10, 2, 42), (6, 2, 24), (3, 2, 25)],
   [(54, 2, 34), (51, 2, 13), (49, 2, 14), (32, 2, 16), (28, 2, 17), (16, 2, 21), (15, 2, 22),
    (14, 2, 23), (11, 2, 5), (10, 2, 42), (6, 2, 24), (3, 2, 25)],
   [(54, 2, 34), (51, 2, 13), (49, 2, 14), (32, 2, 16), (28, 2, 17), (16, 2, 21), (15, 2, 22),
    (14, 2, 23), (11, 2, 5), (10, 2, 42), (6, 2, 24), (3, 2, 25)],
   [(54, 2, 34), (51, 2, 13), (49, 2, 14), (32, 2, 16), (28, 2, 17), (16, 2, 21), (15, 2, 22),
    (14, 2, 23), (11, 2, 5), (10, 2, 42), (6, 2, 24), (3, 2, 25)],
   [(54, 2, 34), (51, 2, 13), (49, 2, 14), (32, 2, 16), (28, 2, 17), (16, 2, 21), (15, 2, 22),
    (14, 2, 23), (11, 2, 5), (10, 2, 42), (6, 2, 24), (3, 2, 25)],
   [(54, 2, 34), (51, 2, 13), (49, 2, 14), (32, 2, 16), (28, 2, 17), (16, 2, 21), (15, 2, 22),
    (14, 2, 23), (11, 2, 5), (10, 2, 42), (6, 2, 24), (3, 2, 25)],
   [(54, 2, 34), (51, 2, 13), (49, 2, 14), (32, 2, 16), (28, 2, 17), (16, 2, 21), (15, 2, 22),
    (14, 2, 23), (11, 2, 5), (10, 2, 42), (6, 2, 24), (3, 2, 25)],
   [(47, 2, 81)],
   [(48, 2, 123)],
   [(54, 2, 34), (51, 2, 13), (49, 2, 14), (32, 2, 16), (28, 2, 17), (16, 2, 21), (15, 2, 22),
    (14, 2, 23), (11, 2, 5), (10, 2, 42), (6, 2, 24), (3, 2, 25)],
   [(54, 2, 34), (51, 2, 13), (49, 2, 14), (32, 2, 16), (28, 2, 17), (16, 2, 21), (15, 2, 22),
    (14, 2, 23), (11, 2, 5), (10, 2, 42), (6, 2, 24), (3, 2, 25)],
   [(54, 2, 34), (51, 2, 13), (49, 2, 14), (32, 2, 16), (28, 2, 17), (16, 2, 21), (15, 2, 22),
    (14, 2, 23), (11, 2, 5), (10, 2, 42), (6, 2, 24), (3, 2, 25)],
   [(54, 2, 34), (51, 2, 13), (49, 2, 14), (32, 2, 16), (28, 2, 17), (16, 2, 21), (15, 2, 22),
    (14, 2, 23), (11, 2, 5), (10, 2, 42), (6, 2, 24), (3, 2, 25)],
   [(58, 3, 207)],
   [(54, 2, 34), (51, 2, 13), (49, 2, 14), (32, 2, 16), (28, 2, 17), (16, 2, 21), (15, 2, 22),
    (14, 2, 23), (11, 2, 5), (10, 2, 42), (6, 2, 24), (3, 2, 25)],
   [(54, 2, 34), (51, 2, 13), (49, 2, 14), (32, 2, 16), (28, 2, 17), (16, 2, 21), (15, 2, 22),
    (14, 2, 23), (11, 2, 5), (10, 2, 42), (6, 2, 24), (3, 2, 25)],
   [(54, 2, 34), (51, 2, 13), (49, 2, 14), (32, 2, 16), (28, 2, 17), (16, 2, 21), (15, 2, 22),
    (14, 2, 23), (11, 2, 5), (10, 2, 42), (6, 2, 24), (3, 2, 25)],
   [(54, 2, 34), (51, 2, 13), (49, 2, 14), (32, 2, 16), (28, 2, 17), (16, 2, 21), (15, 2, 22),
    (14, 2, 23), (11, 2, 5), (10, 2, 42), (6, 2, 24), (3, 2, 25)],
   [(54, 2, 34), (51, 2, 13), (49, 2, 14), (32, 2, 16), (28, 2, 17), (16, 2, 21), (15, 2, 22),
    (14, 2, 23), (11, 2, 5), (10, 2, 42), (6, 2, 24), (3, 2, 25)],
   [(58, 3, 207)],
   [(1, 2, 70)],
   [(58, 3, 207)],
   [(56, 2, 151)],
   [(8, 2, 153)],
   [(47, 2, 81)],
   [(48, 2, 123)],
   [(54, 2, 34), (51, 2, 13), (49, 2, 14), (32, 2, 16), (28, 2, 17), (16, 2, 21), (15, 2, 22),
    (14, 2, 23), (11, 2, 5), (10, 2, 42), (6, 2, 24), (3, 2, 25)],
   [(58, 3, 207)],
   [(58, 3, 207)],
   [(48, 2, 123)],
   [(48, 2, 123)],
   [(47, 2, 81)],
   [(47, 2, 81)],
   [(47, 2, 81)],
   [(47, 2, 81)],
   [(25, 2, 57), (24, 2, 58), (23, 2, 59), (22, 2, 60), (21, 2, 61), (20, 2, 62), (19, 2, 63)],
   [(47, 2, 81)],
   [(25, 2, 57), (24, 2, 58), (23, 2, 59), (22, 2, 60), (21, 2, 61), (20, 2, 62), (19, 2, 63)],
   [(48, 2, 123)],
   [(50, 2, 166)],
   [(29, 2, 167)],
   [(58, 3, 207)],
   [(1, 2, 70)],
   [(58, 3, 207)],
   [(47, 2, 81)],
   [(48, 2, 123)],
   [(54, 2, 34), (51, 2, 13), (49, 2, 14), (32, 2, 16), (28, 2, 17), (16, 2, 21), (15, 2, 22),
    (14, 2, 23), (11, 2, 5), (10, 2, 42), (6, 2, 24), (3, 2, 25)],
   [(47, 2, 81)],
   [(48, 2, 123)],
   [(54, 2, 34), (51, 2, 13), (49, 2, 14), (32, 2, 16), (28, 2, 17), (16, 2, 21), (15, 2, 22),
    (14, 2, 23), (11, 2, 5), (10, 2, 42), (6, 2, 24), (3, 2, 25)],
   [(48, 2, 123), (47, 2, 81)],
   [(54, 2, 34), (51, 2, 13), (49, 2, 14), (32, 2, 16), (28, 2, 17), (16, 2, 21), (15, 2, 22),
    (14, 2, 23), (11, 2, 5), (10, 2, 42), (6, 2, 24), (3, 2, 25)],
   [(47, 2, 81)],
   [(48, 2, 123)],
   [(54, 2, 34), (51, 2, 13), (49, 2, 14), (32, 2, 16), (28, 2, 17), (16, 2, 21), (15, 2, 22),
    (14, 2, 23), (11, 2, 5), (10, 2, 42), (6, 2, 24), (3, 2, 25)],
   [(54, 2, 34), (51, 2, 13), (49, 2, 14), (32, 2, 16), (28, 2, 17), (16, 2, 21), (15, 2, 22),
    (14, 2, 23), (11, 2, 5), (10, 2, 42), (6, 2, 24), (3, 2, 25)],
   [(58, 3, 207)],
   [(58, 3, 207)],
   [(2, 2, 131)],
   [(35, 2, 172)],
   [(25, 2, 57), (24, 2, 58), (23, 2, 59), (22, 2, 60), (21, 2, 61), (20, 2, 62), (19, 2, 63)],
   [(48, 2, 123)],
   [(58, 3, 207)],
   [(1, 2, 70)],
   [(34, 2, 175)],
   [(58, 3, 207)]]

/-- `go` (narsese.h:435-613): per state `(nonterminal, action, index)`. -/
def goRows : List (List (Nat × Nat × Nat)) :=
  [[(119, 3, 209), (118, 2, 1), (117, 2, 2)],
   [(119, 3, 208)],
   [(233, 2, 3), (232, 3, 0), (231, 3, 1), (230, 2, 4), (120, 3, 269), (103, 2, 6)],
   [],
   [(229, 3, 3), (228, 2, 7), (227, 2, 8), (226, 2, 9), (219, 2, 10), (216, 2, 11), (210, 2, 12),
    (205, 3, 36), (204, 3, 67), (200, 2, 15), (195, 3, 63), (194, 3, 65), (193, 3, 70),
    (192, 3, 71), (191, 3, 72), (190, 3, 73), (189, 3, 74), (188, 3, 75), (187, 3, 76),
    (186, 3, 77), (185, 3, 78), (184, 2, 18), (180, 2, 19), (176, 2, 20), (175, 3, 93),
    (156, 3, 121), (121, 3, 205), (106, 2, 26), (101, 3, 203), (100, 3, 204), (99, 2, 27),
    (98, 2, 28), (84, 3, 178), (71, 3, 177), (69, 3, 176), (68, 2, 29)],
   [(119, 3, 209), (118, 2, 1), (117, 3, 225)],
   [(62, 2, 31)],
   [],
   [],
   [(116, 2, 33)],
   [(115, 2, 35)],
   [(114, 2, 37)],
   [(113, 2, 39)],
   [(119, 3, 209), (118, 2, 1), (117, 3, 230)],
   [(119, 3, 209), (118, 2, 1), (117, 3, 222)],
   [(106, 2, 40)],
   [(119, 3, 209), (118, 2, 1), (117, 3, 229)],
   [(119, 3, 209), (118, 2, 1), (117, 3, 260)],
   [(228, 3, 62), (227, 3, 66), (207, 2, 41), (205, 3, 36), (204, 3, 67), (200, 2, 15),
    (196, 3, 61), (195, 3, 63), (194, 3, 65), (193, 3, 70), (192, 3, 71), (191, 3, 72),
    (190, 3, 73), (189, 3, 74), (188, 3, 75), (187, 3, 76), (186, 3, 77), (185, 3, 78),
    (184, 2, 18), (180, 2, 19), (176, 2, 20), (175, 3, 93), (156, 3, 121), (121, 3, 205),
    (115, 2, 43), (106, 2, 26), (103, 2, 44), (102, 2, 45), (101, 3, 203), (100, 3, 204),
    (99, 2, 27), (98, 2, 28), (84, 3, 178), (71, 3, 177), (69, 3, 176), (68, 2, 29)],
   [(228, 3, 62), (227, 3, 66), (207, 2, 46), (205, 3, 36), (204, 3, 67), (200, 2, 15),
    (196, 3, 61), (195, 3, 63), (194, 3, 65), (193, 3, 70), (192, 3, 71), (191, 3, 72),
    (190, 3, 73), (189, 3, 74), (188, 3, 75), (187, 3, 76), (186, 3, 77), (185, 3, 78),
    (184, 2, 18), (180, 2, 19), (176, 2, 20), (175, 3, 93), (156, 3, 121), (121, 3, 205),
    (115, 2, 43), (106, 2, 26), (103, 2, 44), (102, 2, 45), (101, 3, 203), (100, 3, 204),
    (99, 2, 27), (98, 2, 28), (84, 3, 178), (71, 3, 177), (69, 3, 176), (68, 2, 29)],
   [(228, 3, 62), (227, 3, 66), (207, 3, 91), (205, 3, 36), (204, 3, 67), (200, 2, 15),
    (196, 3, 61), (195, 3, 63), (194, 3, 65), (193, 3, 70), (192, 3, 71), (191, 3, 72),
    (190, 3, 73), (189, 3, 74), (188, 3, 75), (187, 3, 76), (186, 3, 77), (185, 3, 78),
    (184, 2, 18), (180, 2, 19), (176, 2, 20), (175, 3, 93), (156, 3, 121), (121, 3, 205),
    (115, 2, 43), (106, 2, 26), (103, 2, 44), (102, 2, 45), (101, 3, 203), (100, 3, 204),
    (99, 2, 27), (98, 2, 28), (84, 3, 178), (71, 3, 177), (69, 3, 176), (68, 2, 29)],
   [(119, 3, 209), (118, 2, 1), (117, 3, 259)],
   [(119, 3, 209), (118, 2, 1), (117, 3, 257)],
   [(119, 3, 209), (118, 2, 1), (117, 3, 244)],
   [(119, 3, 209), (118, 2, 1), (117, 3, 227)],
   [(119, 3, 209), (118, 2, 1), (117, 3, 228)],
   [(228, 3, 62), (227, 3, 66), (207, 2, 47), (205, 3, 36), (204, 2, 48), (200, 2, 15),
    (196, 3, 61), (195, 3, 63), (194, 3, 65), (193, 3, 70), (192, 3, 71), (191, 3, 72),
    (190, 3, 73), (189, 3, 74), (188, 3, 75), (187, 3, 76), (186, 3, 77), (185, 3, 78),
    (184, 2, 18), (180, 2, 19), (176, 2, 49), (175, 3, 93), (174, 2, 50), (170, 2, 51),
    (166, 2, 52), (163, 2, 53), (160, 2, 54), (156, 3, 121), (155, 2, 55), (152, 2, 56),
    (150, 3, 132), (149, 3, 133), (148, 3, 134), (147, 3, 135), (146, 3, 136), (145, 3, 137),
    (144, 3, 138), (121, 3, 205), (115, 2, 43), (106, 2, 26), (103, 2, 44), (102, 2, 45),
    (101, 3, 203), (100, 3, 204), (99, 2, 27), (98, 2, 28), (84, 3, 178), (83, 3, 179),
    (82, 3, 180), (81, 3, 173), (80, 3, 168), (79, 3, 167), (78, 3, 170), (77, 3, 169),
    (76, 3, 171), (75, 3, 172), (74, 3, 174), (73, 3, 175), (71, 3, 177), (69, 3, 176),
    (68, 2, 29)],
   [(200, 3, 68), (121, 3, 205), (101, 3, 203), (100, 3, 204)],
   [(228, 3, 62), (227, 3, 66), (207, 2, 68), (205, 3, 36), (204, 3, 67), (200, 2, 15),
    (196, 3, 61), (195, 3, 63), (194, 3, 65), (193, 3, 70), (192, 3, 71), (191, 3, 72),
    (190, 3, 73), (189, 3, 74), (188, 3, 75), (187, 3, 76), (186, 3, 77), (185, 3, 78),
    (184, 2, 18), (180, 2, 19), (176, 2, 20), (175, 3, 93), (156, 3, 121), (121, 3, 205),
    (115, 2, 43), (106, 2, 26), (103, 2, 44), (102, 2, 45), (101, 3, 203), (100, 3, 204),
    (99, 2, 27), (98, 2, 28), (84, 3, 178), (71, 3, 177), (69, 3, 176), (68, 2, 29)],
   [(111, 3, 69)],
   [(119, 3, 209), (118, 2, 1), (117, 3, 266)],
   [(123, 3, 201), (122, 2, 71), (65, 2, 72)],
   [(119, 3, 209), (118, 2, 1), (117, 3, 212)],
   [(225, 3, 7), (224, 3, 8), (223, 2, 73), (112, 2, 78), (109, 3, 185), (108, 3, 186),
    (107, 3, 187)],
   [(119, 3, 209), (118, 2, 1), (117, 3, 213)],
   [(225, 3, 16), (218, 3, 17), (217, 3, 15), (112, 2, 78), (109, 3, 185), (108, 3, 186),
    (107, 3, 187)],
   [(119, 3, 209), (118, 2, 1), (117, 3, 214)],
   [(225, 3, 22), (215, 3, 23), (214, 2, 79), (112, 2, 78), (109, 3, 185), (108, 3, 186),
    (107, 3, 187)],
   [(119, 3, 209), (118, 2, 1), (117, 3, 215)],
   [(225, 3, 31), (209, 3, 32), (208, 3, 30), (112, 2, 78), (109, 3, 185), (108, 3, 186),
    (107, 3, 187)],
   [(228, 3, 62), (227, 3, 66), (207, 2, 80), (205, 3, 36), (204, 3, 67), (200, 2, 15),
    (196, 3, 61), (195, 3, 63), (194, 3, 65), (193, 3, 70), (192, 3, 71), (191, 3, 72),
    (190, 3, 73), (189, 3, 74), (188, 3, 75), (187, 3, 76), (186, 3, 77), (185, 3, 78),
    (184, 2, 18), (180, 2, 19), (176, 2, 20), (175, 3, 93), (156, 3, 121), (121, 3, 205),
    (115, 2, 43), (106, 2, 26), (103, 2, 44), (102, 2, 45), (101, 3, 203), (100, 3, 204),
    (99, 2, 27), (98, 2, 28), (84, 3, 178), (71, 3, 177), (69, 3, 176), (68, 2, 29)],
   [(183, 3, 82), (182, 2, 82), (181, 2, 83), (104, 2, 84)],
   [(119, 3, 209), (118, 2, 1), (117, 3, 226)],
   [(200, 3, 183), (121, 3, 205), (101, 3, 203), (100, 3, 204)],
   [(200, 3, 181), (121, 3, 205), (101, 3, 203), (100, 3, 204)],
   [(200, 3, 182), (121, 3, 205), (101, 3, 203), (100, 3, 204)],
   [(179, 3, 88), (178, 2, 85), (177, 2, 86), (104, 2, 87)],
   [(206, 2, 88), (165, 3, 110), (164, 2, 101), (143, 3, 142), (142, 2, 102), (141, 3, 146),
    (140, 2, 103), (139, 3, 150), (138, 2, 104), (137, 3, 154), (136, 2, 105), (135, 3, 158),
    (134, 2, 106), (133, 3, 162), (132, 2, 107), (131, 3, 166), (130, 2, 108), (104, 2, 109),
    (96, 3, 49), (95, 3, 50), (94, 3, 51), (93, 3, 52), (92, 3, 53), (91, 3, 54), (90, 3, 55),
    (89, 3, 56), (88, 3, 57), (87, 3, 58), (86, 3, 59), (85, 3, 60), (81, 2, 110), (80, 2, 111),
    (79, 2, 112), (78, 2, 113), (77, 2, 114), (76, 2, 115), (75, 2, 116)],
   [(203, 3, 40), (202, 2, 117), (201, 2, 118), (104, 2, 119)],
   [(228, 3, 62), (227, 3, 66), (207, 3, 91), (205, 3, 36), (204, 3, 67), (200, 2, 15),
    (196, 3, 61), (195, 3, 63), (194, 3, 65), (193, 3, 70), (192, 3, 71), (191, 3, 72),
    (190, 3, 73), (189, 3, 74), (188, 3, 75), (187, 3, 76), (186, 3, 77), (185, 3, 78),
    (184, 2, 18), (180, 2, 19), (176, 2, 20), (175, 3, 93), (156, 3, 121), (121, 3, 205),
    (115, 2, 43), (106, 2, 26), (104, 2, 120), (103, 2, 44), (102, 2, 45), (101, 3, 203),
    (100, 3, 204), (99, 2, 27), (98, 2, 28), (84, 3, 178), (71, 3, 177), (69, 3, 176),
    (68, 2, 29)],
   [(104, 2, 121)],
   [(104, 2, 122)],
   [(105, 3, 106)],
   [(104, 2, 124)],
   [(104, 2, 125)],
   [(104, 2, 126)],
   [(155, 2, 127), (74, 3, 174), (73, 3, 175)],
   [(119, 3, 209), (118, 2, 1), (117, 3, 247)],
   [(119, 3, 209), (118, 2, 1), (117, 3, 248)],
   [(119, 3, 209), (118, 2, 1), (117, 3, 249)],
   [(119, 3, 209), (118, 2, 1), (117, 3, 250)],
   [(119, 3, 209), (118, 2, 1), (117, 3, 251)],
   [(119, 3, 209), (118, 2, 1), (117, 3, 252)],
   [(119, 3, 209), (118, 2, 1), (117, 3, 253)],
   [(119, 3, 209), (118, 2, 1), (117, 3, 254)],
   [(119, 3, 209), (118, 2, 1), (117, 3, 255)],
   [(119, 3, 209), (118, 2, 1), (117, 3, 245)],
   [(119, 3, 209), (118, 2, 1), (117, 3, 246)],
   [(206, 2, 128), (96, 3, 49), (95, 3, 50), (94, 3, 51), (93, 3, 52), (92, 3, 53), (91, 3, 54),
    (90, 3, 55), (89, 3, 56), (88, 3, 57), (87, 3, 58), (86, 3, 59), (85, 3, 60)],
   [(119, 3, 209), (118, 2, 1), (117, 3, 217)],
   [(119, 3, 209), (118, 2, 1), (117, 3, 263)],
   [(103, 3, 196)],
   [(61, 2, 130)],
   [(222, 3, 10), (221, 3, 11), (220, 3, 6), (67, 2, 132)],
   [(119, 3, 209), (118, 2, 1), (117, 3, 216)],
   [(119, 3, 209), (118, 2, 1), (117, 3, 219)],
   [(119, 3, 209), (118, 2, 1), (117, 3, 220)],
   [(119, 3, 209), (118, 2, 1), (117, 3, 221)],
   [(111, 2, 133)],
   [(222, 3, 188), (213, 3, 25), (212, 3, 26), (211, 3, 21), (67, 2, 132)],
   [(199, 3, 46), (198, 2, 134), (197, 2, 135), (104, 2, 136)],
   [(119, 3, 209), (118, 2, 1), (117, 3, 224)],
   [(183, 3, 81), (104, 2, 84)],
   [(70, 3, 79)],
   [(228, 3, 62), (227, 3, 66), (207, 3, 80), (205, 3, 36), (204, 3, 67), (200, 2, 15),
    (196, 3, 61), (195, 3, 63), (194, 3, 65), (193, 3, 70), (192, 3, 71), (191, 3, 72),
    (190, 3, 73), (189, 3, 74), (188, 3, 75), (187, 3, 76), (186, 3, 77), (185, 3, 78),
    (184, 2, 18), (180, 2, 19), (176, 2, 20), (175, 3, 93), (156, 3, 121), (121, 3, 205),
    (115, 2, 43), (106, 2, 26), (103, 2, 44), (102, 2, 45), (101, 3, 203), (100, 3, 204),
    (99, 2, 27), (98, 2, 28), (84, 3, 178), (71, 3, 177), (69, 3, 176), (68, 2, 29)],
   [(179, 3, 87), (104, 2, 87)],
   [(72, 3, 85)],
   [(228, 3, 62), (227, 3, 66), (207, 3, 86), (205, 3, 36), (204, 3, 67), (200, 2, 15),
    (196, 3, 61), (195, 3, 63), (194, 3, 65), (193, 3, 70), (192, 3, 71), (191, 3, 72),
    (190, 3, 73), (189, 3, 74), (188, 3, 75), (187, 3, 76), (186, 3, 77), (185, 3, 78),
    (184, 2, 18), (180, 2, 19), (176, 2, 20), (175, 3, 93), (156, 3, 121), (121, 3, 205),
    (115, 2, 43), (106, 2, 26), (103, 2, 44), (102, 2, 45), (101, 3, 203), (100, 3, 204),
    (99, 2, 27), (98, 2, 28), (84, 3, 178), (71, 3, 177), (69, 3, 176), (68, 2, 29)],
   [(228, 3, 62), (227, 3, 66), (207, 2, 139), (205, 3, 36), (204, 3, 67), (200, 2, 15),
    (196, 3, 61), (195, 3, 63), (194, 3, 65), (193, 3, 70), (192, 3, 71), (191, 3, 72),
    (190, 3, 73), (189, 3, 74), (188, 3, 75), (187, 3, 76), (186, 3, 77), (185, 3, 78),
    (184, 2, 18), (180, 2, 19), (176, 2, 20), (175, 3, 93), (156, 3, 121), (121, 3, 205),
    (115, 2, 43), (106, 2, 26), (103, 2, 44), (102, 2, 45), (101, 3, 203), (100, 3, 204),
    (99, 2, 27), (98, 2, 28), (84, 3, 178), (71, 3, 177), (69, 3, 176), (68, 2, 29)],
   [(119, 3, 209), (118, 2, 1), (117, 3, 232)],
   [(119, 3, 209), (118, 2, 1), (117, 3, 233)],
   [(119, 3, 209), (118, 2, 1), (117, 3, 234)],
   [(119, 3, 209), (118, 2, 1), (117, 3, 235)],
   [(119, 3, 209), (118, 2, 1), (117, 3, 236)],
   [(119, 3, 209), (118, 2, 1), (117, 3, 237)],
   [(119, 3, 209), (118, 2, 1), (117, 3, 238)],
   [(119, 3, 209), (118, 2, 1), (117, 3, 239)],
   [(119, 3, 209), (118, 2, 1), (117, 3, 240)],
   [(119, 3, 209), (118, 2, 1), (117, 3, 241)],
   [(119, 3, 209), (118, 2, 1), (117, 3, 242)],
   [(119, 3, 209), (118, 2, 1), (117, 3, 243)],
   [(165, 3, 109), (105, 3, 107), (104, 2, 109)],
   [(143, 3, 141), (81, 2, 110)],
   [(141, 3, 145), (80, 2, 111)],
   [(139, 3, 149), (79, 2, 112)],
   [(137, 3, 153), (78, 2, 113)],
   [(135, 3, 157), (77, 2, 114)],
   [(133, 3, 161), (76, 2, 115)],
   [(131, 3, 165), (75, 2, 116)],
   [(228, 3, 62), (227, 3, 66), (207, 3, 108), (205, 3, 36), (204, 3, 67), (200, 2, 15),
    (196, 3, 61), (195, 3, 63), (194, 3, 65), (193, 3, 70), (192, 3, 71), (191, 3, 72),
    (190, 3, 73), (189, 3, 74), (188, 3, 75), (187, 3, 76), (186, 3, 77), (185, 3, 78),
    (184, 2, 18), (180, 2, 19), (176, 2, 20), (175, 3, 93), (156, 3, 121), (121, 3, 205),
    (115, 2, 43), (106, 2, 26), (103, 2, 44), (102, 2, 45), (101, 3, 203), (100, 3, 204),
    (99, 2, 27), (98, 2, 28), (84, 3, 178), (71, 3, 177), (69, 3, 176), (68, 2, 29)],
   [(228, 3, 62), (227, 3, 66), (207, 3, 140), (205, 3, 36), (204, 3, 67), (200, 2, 15),
    (196, 3, 61), (195, 3, 63), (194, 3, 65), (193, 3, 70), (192, 3, 71), (191, 3, 72),
    (190, 3, 73), (189, 3, 74), (188, 3, 75), (187, 3, 76), (186, 3, 77), (185, 3, 78),
    (184, 2, 18), (180, 2, 19), (176, 2, 20), (175, 3, 93), (156, 3, 121), (121, 3, 205),
    (115, 2, 43), (106, 2, 26), (103, 2, 44), (102, 2, 45), (101, 3, 203), (100, 3, 204),
    (99, 2, 27), (98, 2, 28), (84, 3, 178), (71, 3, 177), (69, 3, 176), (68, 2, 29)],
   [(228, 3, 62), (227, 3, 66), (207, 3, 144), (205, 3, 36), (204, 3, 67), (200, 2, 15),
    (196, 3, 61), (195, 3, 63), (194, 3, 65), (193, 3, 70), (192, 3, 71), (191, 3, 72),
    (190, 3, 73), (189, 3, 74), (188, 3, 75), (187, 3, 76), (186, 3, 77), (185, 3, 78),
    (184, 2, 18), (180, 2, 19), (176, 2, 20), (175, 3, 93), (156, 3, 121), (121, 3, 205),
    (115, 2, 43), (106, 2, 26), (103, 2, 44), (102, 2, 45), (101, 3, 203), (100, 3, 204),
    (99, 2, 27), (98, 2, 28), (84, 3, 178), (71, 3, 177), (69, 3, 176), (68, 2, 29)],
   [(228, 3, 62), (227, 3, 66), (207, 3, 148), (205, 3, 36), (204, 3, 67), (200, 2, 15),
    (196, 3, 61), (195, 3, 63), (194, 3, 65), (193, 3, 70), (192, 3, 71), (191, 3, 72),
    (190, 3, 73), (189, 3, 74), (188, 3, 75), (187, 3, 76), (186, 3, 77), (185, 3, 78),
    (184, 2, 18), (180, 2, 19), (176, 2, 20), (175, 3, 93), (156, 3, 121), (121, 3, 205),
    (115, 2, 43), (106, 2, 26), (103, 2, 44), (102, 2, 45), (101, 3, 203), (100, 3, 204),
    (99, 2, 27), (98, 2, 28), (84, 3, 178), (71, 3, 177), (69, 3, 176), (68, 2, 29)],
   [(228, 3, 62), (227, 3, 66), (207, 3, 152), (205, 3, 36), (204, 3, 67), (200, 2, 15),
    (196, 3, 61), (195, 3, 63), (194, 3, 65), (193, 3, 70), (192, 3, 71), (191, 3, 72),
    (190, 3, 73), (189, 3, 74), (188, 3, 75), (187, 3, 76), (186, 3, 77), (185, 3, 78),
    (184, 2, 18), (180, 2, 19), (176, 2, 20), (175, 3, 93), (156, 3, 121), (121, 3, 205),
    (115, 2, 43), (106, 2, 26), (103, 2, 44), (102, 2, 45), (101, 3, 203), (100, 3, 204),
    (99, 2, 27), (98, 2, 28), (84, 3, 178), (71, 3, 177), (69, 3, 176), (68, 2, 29)],
   [(228, 3, 62), (227, 3, 66), (207, 3, 156), (205, 3, 36), (204, 3, 67), (200, 2, 15),
    (196, 3, 61), (195, 3, 63), (194, 3, 65), (193, 3, 70), (192, 3, 71), (191, 3, 72),
    (190, 3, 73), (189, 3, 74), (188, 3, 75), (187, 3, 76), (186, 3, 77), (185, 3, 78),
    (184, 2, 18), (180, 2, 19), (176, 2, 20), (175, 3, 93), (156, 3, 121), (121, 3, 205),
    (115, 2, 43), (106, 2, 26), (103, 2, 44), (102, 2, 45), (101, 3, 203), (100, 3, 204),
    (99, 2, 27), (98, 2, 28), (84, 3, 178), (71, 3, 177), (69, 3, 176), (68, 2, 29)],
   [(228, 3, 62), (227, 3, 66), (207, 3, 160), (205, 3, 36), (204, 3, 67), (200, 2, 15),
    (196, 3, 61), (195, 3, 63), (194, 3, 65), (193, 3, 70), (192, 3, 71), (191, 3, 72),
    (190, 3, 73), (189, 3, 74), (188, 3, 75), (187, 3, 76), (186, 3, 77), (185, 3, 78),
    (184, 2, 18), (180, 2, 19), (176, 2, 20), (175, 3, 93), (156, 3, 121), (121, 3, 205),
    (115, 2, 43), (106, 2, 26), (103, 2, 44), (102, 2, 45), (101, 3, 203), (100, 3, 204),
    (99, 2, 27), (98, 2, 28), (84, 3, 178), (71, 3, 177), (69, 3, 176), (68, 2, 29)],
   [(228, 3, 62), (227, 3, 66), (207, 3, 164), (205, 3, 36), (204, 3, 67), (200, 2, 15),
    (196, 3, 61), (195, 3, 63), (194, 3, 65), (193, 3, 70), (192, 3, 71), (191, 3, 72),
    (190, 3, 73), (189, 3, 74), (188, 3, 75), (187, 3, 76), (186, 3, 77), (185, 3, 78),
    (184, 2, 18), (180, 2, 19), (176, 2, 20), (175, 3, 93), (156, 3, 121), (121, 3, 205),
    (115, 2, 43), (106, 2, 26), (103, 2, 44), (102, 2, 45), (101, 3, 203), (100, 3, 204),
    (99, 2, 27), (98, 2, 28), (84, 3, 178), (71, 3, 177), (69, 3, 176), (68, 2, 29)],
   [(203, 3, 39), (104, 2, 119)],
   [(105, 3, 37)],
   [(228, 3, 62), (227, 3, 66), (207, 3, 38), (205, 3, 36), (204, 3, 67), (200, 2, 15),
    (196, 3, 61), (195, 3, 63), (194, 3, 65), (193, 3, 70), (192, 3, 71), (191, 3, 72),
    (190, 3, 73), (189, 3, 74), (188, 3, 75), (187, 3, 76), (186, 3, 77), (185, 3, 78),
    (184, 2, 18), (180, 2, 19), (176, 2, 20), (175, 3, 93), (156, 3, 121), (121, 3, 205),
    (115, 2, 43), (106, 2, 26), (103, 2, 44), (102, 2, 45), (101, 3, 203), (100, 3, 204),
    (99, 2, 27), (98, 2, 28), (84, 3, 178), (71, 3, 177), (69, 3, 176), (68, 2, 29)],
   [(228, 3, 62), (227, 3, 66), (207, 2, 140), (205, 3, 36), (204, 3, 67), (200, 2, 15),
    (196, 3, 61), (195, 3, 63), (194, 3, 65), (193, 3, 70), (192, 3, 71), (191, 3, 72),
    (190, 3, 73), (189, 3, 74), (188, 3, 75), (187, 3, 76), (186, 3, 77), (185, 3, 78),
    (184, 2, 18), (180, 2, 19), (176, 2, 20), (175, 3, 93), (156, 3, 121), (121, 3, 205),
    (115, 2, 43), (106, 2, 26), (103, 2, 44), (102, 2, 45), (101, 3, 203), (100, 3, 204),
    (99, 2, 27), (98, 2, 28), (84, 3, 178), (71, 3, 177), (69, 3, 176), (68, 2, 29)],
   [(228, 3, 62), (227, 3, 66), (207, 2, 141), (205, 3, 36), (204, 3, 67), (200, 2, 15),
    (196, 3, 61), (195, 3, 63), (194, 3, 65), (193, 3, 70), (192, 3, 71), (191, 3, 72),
    (190, 3, 73), (189, 3, 74), (188, 3, 75), (187, 3, 76), (186, 3, 77), (185, 3, 78),
    (184, 2, 18), (180, 2, 19), (176, 2, 20), (175, 3, 93), (156, 3, 121), (121, 3, 205),
    (115, 2, 43), (106, 2, 26), (103, 2, 44), (102, 2, 45), (101, 3, 203), (100, 3, 204),
    (99, 2, 27), (98, 2, 28), (84, 3, 178), (71, 3, 177), (69, 3, 176), (68, 2, 29)],
   [(228, 3, 62), (227, 3, 66), (207, 2, 142), (205, 3, 36), (204, 3, 67), (200, 2, 15),
    (196, 3, 61), (195, 3, 63), (194, 3, 65), (193, 3, 70), (192, 3, 71), (191, 3, 72),
    (190, 3, 73), (189, 3, 74), (188, 3, 75), (187, 3, 76), (186, 3, 77), (185, 3, 78),
    (184, 2, 18), (180, 2, 19), (176, 2, 20), (175, 3, 93), (156, 3, 121), (121, 3, 205),
    (115, 2, 43), (106, 2, 26), (103, 2, 44), (102, 2, 45), (101, 3, 203), (100, 3, 204),
    (99, 2, 27), (98, 2, 28), (84, 3, 178), (71, 3, 177), (69, 3, 176), (68, 2, 29)],
   [(119, 3, 209), (118, 2, 1), (117, 3, 223)],
   [(228, 3, 62), (227, 3, 66), (207, 2, 143), (205, 3, 36), (204, 3, 67), (200, 2, 15),
    (196, 3, 61), (195, 3, 63), (194, 3, 65), (193, 3, 70), (192, 3, 71), (191, 3, 72),
    (190, 3, 73), (189, 3, 74), (188, 3, 75), (187, 3, 76), (186, 3, 77), (185, 3, 78),
    (184, 2, 18), (180, 2, 19), (176, 2, 20), (175, 3, 93), (156, 3, 121), (121, 3, 205),
    (115, 2, 43), (106, 2, 26), (103, 2, 44), (102, 2, 45), (101, 3, 203), (100, 3, 204),
    (99, 2, 27), (98, 2, 28), (84, 3, 178), (71, 3, 177), (69, 3, 176), (68, 2, 29)],
   [(228, 3, 62), (227, 3, 66), (207, 2, 144), (205, 3, 36), (204, 3, 67), (200, 2, 15),
    (196, 3, 61), (195, 3, 63), (194, 3, 65), (193, 3, 70), (192, 3, 71), (191, 3, 72),
    (190, 3, 73), (189, 3, 74), (188, 3, 75), (187, 3, 76), (186, 3, 77), (185, 3, 78),
    (184, 2, 18), (180, 2, 19), (176, 2, 20), (175, 3, 93), (156, 3, 121), (121, 3, 205),
    (115, 2, 43), (106, 2, 26), (103, 2, 44), (102, 2, 45), (101, 3, 203), (100, 3, 204),
    (99, 2, 27), (98, 2, 28), (84, 3, 178), (71, 3, 177), (69, 3, 176), (68, 2, 29)],
   [(228, 3, 62), (227, 3, 66), (207, 2, 145), (205, 3, 36), (204, 3, 67), (200, 2, 15),
    (196, 3, 61), (195, 3, 63), (194, 3, 65), (193, 3, 70), (192, 3, 71), (191, 3, 72),
    (190, 3, 73), (189, 3, 74), (188, 3, 75), (187, 3, 76), (186, 3, 77), (185, 3, 78),
    (184, 2, 18), (180, 2, 19), (176, 2, 20), (175, 3, 93), (166, 3, 124), (156, 3, 121),
    (154, 2, 146), (150, 3, 132), (149, 3, 133), (148, 3, 134), (147, 3, 135), (146, 3, 136),
    (145, 3, 137), (144, 3, 138), (121, 3, 205), (115, 2, 43), (106, 2, 26), (103, 2, 44),
    (102, 2, 45), (101, 3, 203), (100, 3, 204), (99, 2, 27), (98, 2, 28), (84, 3, 178),
    (71, 3, 177), (69, 3, 176), (68, 2, 29)],
   [(228, 3, 62), (227, 3, 66), (207, 2, 147), (205, 3, 36), (204, 3, 67), (200, 2, 15),
    (196, 3, 61), (195, 3, 63), (194, 3, 65), (193, 3, 70), (192, 3, 71), (191, 3, 72),
    (190, 3, 73), (189, 3, 74), (188, 3, 75), (187, 3, 76), (186, 3, 77), (185, 3, 78),
    (184, 2, 18), (180, 2, 19), (176, 2, 20), (175, 3, 93), (166, 3, 131), (156, 3, 121),
    (151, 2, 148), (150, 3, 132), (149, 3, 133), (148, 3, 134), (147, 3, 135), (146, 3, 136),
    (145, 3, 137), (144, 3, 138), (121, 3, 205), (115, 2, 43), (106, 2, 26), (103, 2, 44),
    (102, 2, 45), (101, 3, 203), (100, 3, 204), (99, 2, 27), (98, 2, 28), (84, 3, 178),
    (71, 3, 177), (69, 3, 176), (68, 2, 29)],
   [(228, 3, 62), (227, 3, 66), (207, 2, 149), (205, 3, 36), (204, 3, 67), (200, 2, 15),
    (196, 3, 61), (195, 3, 63), (194, 3, 65), (193, 3, 70), (192, 3, 71), (191, 3, 72),
    (190, 3, 73), (189, 3, 74), (188, 3, 75), (187, 3, 76), (186, 3, 77), (185, 3, 78),
    (184, 2, 18), (180, 2, 19), (176, 2, 20), (175, 3, 93), (156, 3, 121), (121, 3, 205),
    (115, 2, 43), (106, 2, 26), (103, 2, 44), (102, 2, 45), (101, 3, 203), (100, 3, 204),
    (99, 2, 27), (98, 2, 28), (84, 3, 178), (71, 3, 177), (69, 3, 176), (68, 2, 29)],
   [(119, 3, 209), (118, 2, 1), (117, 3, 267)],
   [(125, 3, 199), (124, 3, 197), (65, 2, 150)],
   [(119, 3, 209), (118, 2, 1), (117, 3, 261)],
   [(66, 2, 152)],
   [(110, 3, 184)],
   [(199, 3, 45), (104, 2, 136)],
   [(105, 3, 43)],
   [(228, 3, 62), (227, 3, 66), (207, 3, 44), (205, 3, 36), (204, 3, 67), (200, 2, 15),
    (196, 3, 61), (195, 3, 63), (194, 3, 65), (193, 3, 70), (192, 3, 71), (191, 3, 72),
    (190, 3, 73), (189, 3, 74), (188, 3, 75), (187, 3, 76), (186, 3, 77), (185, 3, 78),
    (184, 2, 18), (180, 2, 19), (176, 2, 20), (175, 3, 93), (156, 3, 121), (121, 3, 205),
    (115, 2, 43), (106, 2, 26), (103, 2, 44), (102, 2, 45), (101, 3, 203), (100, 3, 204),
    (99, 2, 27), (98, 2, 28), (84, 3, 178), (71, 3, 177), (69, 3, 176), (68, 2, 29)],
   [(119, 3, 209), (118, 2, 1), (117, 3, 258)],
   [(119, 3, 209), (118, 2, 1), (117, 3, 256)],
   [(105, 3, 35)],
   [(105, 3, 92)],
   [(173, 3, 97), (172, 2, 154), (171, 2, 155), (104, 2, 156)],
   [(169, 3, 103), (168, 2, 157), (167, 2, 158), (104, 2, 159)],
   [(162, 3, 114), (161, 2, 160), (104, 2, 161)],
   [(159, 3, 118), (158, 2, 162), (157, 2, 163), (104, 2, 164)],
   [(143, 3, 142), (142, 2, 102), (141, 3, 146), (140, 2, 103), (139, 3, 150), (138, 2, 104),
    (137, 3, 154), (136, 2, 105), (135, 3, 158), (134, 2, 106), (133, 3, 162), (132, 2, 107),
    (131, 3, 166), (130, 2, 108), (81, 2, 110), (80, 2, 111), (79, 2, 112), (78, 2, 113),
    (77, 2, 114), (76, 2, 115), (75, 2, 116)],
   [(104, 2, 165)],
   [(143, 3, 142), (142, 2, 102), (141, 3, 146), (140, 2, 103), (139, 3, 150), (138, 2, 104),
    (137, 3, 154), (136, 2, 105), (135, 3, 158), (134, 2, 106), (133, 3, 162), (132, 2, 107),
    (131, 3, 166), (130, 2, 108), (81, 2, 110), (80, 2, 111), (79, 2, 112), (78, 2, 113),
    (77, 2, 114), (76, 2, 115), (75, 2, 116)],
   [(105, 3, 127)],
   [(97, 3, 34)],
   [(60, 3, 198)],
   [(119, 3, 209), (118, 2, 1), (117, 3, 262)],
   [(127, 3, 194), (126, 2, 168), (65, 2, 169)],
   [(119, 3, 209), (118, 2, 1), (117, 3, 218)],
   [(173, 3, 96), (104, 2, 156)],
   [(105, 3, 94)],
   [(228, 3, 62), (227, 3, 66), (207, 3, 95), (205, 3, 36), (204, 3, 67), (200, 2, 15),
    (196, 3, 61), (195, 3, 63), (194, 3, 65), (193, 3, 70), (192, 3, 71), (191, 3, 72),
    (190, 3, 73), (189, 3, 74), (188, 3, 75), (187, 3, 76), (186, 3, 77), (185, 3, 78),
    (184, 2, 18), (180, 2, 19), (176, 2, 20), (175, 3, 93), (156, 3, 121), (121, 3, 205),
    (115, 2, 43), (106, 2, 26), (103, 2, 44), (102, 2, 45), (101, 3, 203), (100, 3, 204),
    (99, 2, 27), (98, 2, 28), (84, 3, 178), (71, 3, 177), (69, 3, 176), (68, 2, 29)],
   [(169, 3, 102), (104, 2, 159)],
   [(105, 3, 100)],
   [(228, 3, 62), (227, 3, 66), (207, 3, 101), (205, 3, 36), (204, 3, 67), (200, 2, 15),
    (196, 3, 61), (195, 3, 63), (194, 3, 65), (193, 3, 70), (192, 3, 71), (191, 3, 72),
    (190, 3, 73), (189, 3, 74), (188, 3, 75), (187, 3, 76), (186, 3, 77), (185, 3, 78),
    (184, 2, 18), (180, 2, 19), (176, 2, 20), (175, 3, 93), (156, 3, 121), (121, 3, 205),
    (115, 2, 43), (106, 2, 26), (103, 2, 44), (102, 2, 45), (101, 3, 203), (100, 3, 204),
    (99, 2, 27), (98, 2, 28), (84, 3, 178), (71, 3, 177), (69, 3, 176), (68, 2, 29)],
   [(162, 3, 113), (105, 3, 111), (104, 2, 161)],
   [(228, 3, 62), (227, 3, 66), (207, 3, 112), (205, 3, 36), (204, 3, 67), (200, 2, 15),
    (196, 3, 61), (195, 3, 63), (194, 3, 65), (193, 3, 70), (192, 3, 71), (191, 3, 72),
    (190, 3, 73), (189, 3, 74), (188, 3, 75), (187, 3, 76), (186, 3, 77), (185, 3, 78),
    (184, 2, 18), (180, 2, 19), (176, 2, 20), (175, 3, 93), (156, 3, 121), (121, 3, 205),
    (115, 2, 43), (106, 2, 26), (103, 2, 44), (102, 2, 45), (101, 3, 203), (100, 3, 204),
    (99, 2, 27), (98, 2, 28), (84, 3, 178), (71, 3, 177), (69, 3, 176), (68, 2, 29)],
   [(159, 3, 117), (104, 2, 164)],
   [(105, 3, 115)],
   [(228, 3, 62), (227, 3, 66), (207, 3, 116), (205, 3, 36), (204, 3, 67), (200, 2, 15),
    (196, 3, 61), (195, 3, 63), (194, 3, 65), (193, 3, 70), (192, 3, 71), (191, 3, 72),
    (190, 3, 73), (189, 3, 74), (188, 3, 75), (187, 3, 76), (186, 3, 77), (185, 3, 78),
    (184, 2, 18), (180, 2, 19), (176, 2, 20), (175, 3, 93), (156, 3, 121), (121, 3, 205),
    (115, 2, 43), (106, 2, 26), (103, 2, 44), (102, 2, 45), (101, 3, 203), (100, 3, 204),
    (99, 2, 27), (98, 2, 28), (84, 3, 178), (71, 3, 177), (69, 3, 176), (68, 2, 29)],
   [(228, 3, 62), (227, 3, 66), (207, 2, 170), (205, 3, 36), (204, 3, 67), (200, 2, 15),
    (196, 3, 61), (195, 3, 63), (194, 3, 65), (193, 3, 70), (192, 3, 71), (191, 3, 72),
    (190, 3, 73), (189, 3, 74), (188, 3, 75), (187, 3, 76), (186, 3, 77), (185, 3, 78),
    (184, 2, 18), (180, 2, 19), (176, 2, 20), (175, 3, 93), (166, 3, 126), (156, 3, 121),
    (153, 2, 171), (150, 3, 132), (149, 3, 133), (148, 3, 134), (147, 3, 135), (146, 3, 136),
    (145, 3, 137), (144, 3, 138), (121, 3, 205), (115, 2, 43), (106, 2, 26), (103, 2, 44),
    (102, 2, 45), (101, 3, 203), (100, 3, 204), (99, 2, 27), (98, 2, 28), (84, 3, 178),
    (71, 3, 177), (69, 3, 176), (68, 2, 29)],
   [(119, 3, 209), (118, 2, 1), (117, 3, 231)],
   [(119, 3, 209), (118, 2, 1), (117, 3, 268)],
   [(67, 3, 189)],
   [(64, 2, 173)],
   [(143, 3, 142), (142, 2, 102), (141, 3, 146), (140, 2, 103), (139, 3, 150), (138, 2, 104),
    (137, 3, 154), (136, 2, 105), (135, 3, 158), (134, 2, 106), (133, 3, 162), (132, 2, 107),
    (131, 3, 166), (130, 2, 108), (81, 2, 110), (80, 2, 111), (79, 2, 112), (78, 2, 113),
    (77, 2, 114), (76, 2, 115), (75, 2, 116)],
   [(105, 3, 122)],
   [(119, 3, 209), (118, 2, 1), (117, 3, 264)],
   [(129, 3, 192), (128, 3, 190), (65, 2, 174)],
   [(63, 3, 191)],
   [(119, 3, 209), (118, 2, 1), (117, 3, 265)]]

/-- `def_prod` (narsese.h:616-620). -/
def defProdTable : List (Option Nat) :=
  [some 211, some 210, some 2, none, none, some 211, none, some 4, some 5, none, none, none,
   none, some 211, some 211, some 64, some 211, some 211, none, none, none, some 211, some 211,
   some 211, some 211, some 211, none, none, none, none, some 211, some 202, some 211, some 9,
   some 211, some 18, some 211, some 24, some 211, some 33, none, some 84, some 211, none, none,
   none, some 90, some 128, some 67, none, none, none, some 129, none, none, none, none,
   some 211, some 211, some 211, some 211, some 211, some 211, some 211, some 211, some 211,
   some 211, some 211, none, some 211, some 211, none, none, some 12, some 211, some 211,
   some 211, some 211, none, some 27, some 48, some 211, some 83, none, none, some 89, none,
   none, none, some 211, some 211, some 211, some 211, some 211, some 211, some 211, some 211,
   some 211, some 211, some 211, some 211, none, some 139, some 143, some 147, some 151,
   some 155, some 159, some 163, none, none, none, none, none, none, none, none, some 41, none,
   none, none, none, none, some 211, none, none, none, none, none, some 211, some 200, some 211,
   none, none, some 47, none, none, some 211, some 211, none, none, some 99, some 105, none,
   some 120, some 123, none, some 130, none, none, none, some 211, some 195, some 211, some 98,
   none, none, some 104, none, none, none, none, some 119, none, none, none, some 211, some 211,
   none, none, some 125, none, some 211, some 193, none, some 211]

/-- `dfa_select` (narsese.h:623-628). -/
def dfaSelectTable : List (Option Nat) :=
  [some 0, some 1, some 2, none, some 3, some 4, some 5, some 6, some 6, some 7, some 8, some 9,
   some 10, some 11, some 12, some 13, some 14, some 15, some 16, some 16, some 16, some 11,
   some 11, some 17, some 18, some 18, some 19, some 20, some 16, some 21, some 22, some 23,
   some 24, some 25, some 26, some 27, some 24, some 25, some 28, some 27, some 16, some 29,
   some 14, some 20, some 20, some 20, some 30, some 31, some 32, some 33, some 34, some 34,
   some 35, some 34, some 34, some 34, some 36, some 37, some 37, some 37, some 37, some 37,
   some 37, some 37, some 37, some 37, some 38, some 38, some 39, some 40, some 41, some 42,
   some 43, some 44, some 15, some 45, some 45, some 45, some 21, some 44, some 46, some 11,
   some 29, some 47, some 16, some 30, some 48, some 16, some 16, some 11, some 11, some 11,
   some 11, some 11, some 11, some 11, some 11, some 11, some 11, some 11, some 11, some 46,
   some 49, some 50, some 51, some 52, some 53, some 54, some 55, some 16, some 16, some 16,
   some 16, some 16, some 16, some 16, some 16, some 46, some 56, some 16, some 16, some 16,
   some 16, some 57, some 16, some 16, some 16, some 16, some 16, some 22, some 23, some 58,
   some 59, some 60, some 46, some 56, some 16, some 57, some 57, some 56, some 56, some 46,
   some 46, some 34, some 46, some 61, some 34, some 62, some 56, some 63, some 64, some 65,
   some 66, some 45, some 46, some 56, some 16, some 46, some 56, some 16, some 46, some 16,
   some 46, some 56, some 16, some 16, some 57, some 67, some 44, some 68, some 62, some 56,
   some 65, some 66, some 69, some 45]

/-- Lexer machine 0. -/
def dfa0 : Machine :=
  [([(94, 94, 4), (91, 91, 6), (123, 123, 7), (0, 8, 8), (10, 31, 8), (39, 39, 8), (48, 57, 8),
    (65, 90, 8), (95, 122, 8), (127, 65535, 8), (60, 60, 3), (45, 45, 13), (43, 43, 1),
    (40, 40, 2), (36, 36, 5), (34, 34, 12), (32, 32, 9), (9, 9, 8)], 0),
   ([], 29),
   ([], 50),
   ([], 52),
   ([], 33),
   ([], 12),
   ([], 17),
   ([], 16),
   ([(0, 31, 8), (39, 39, 8), (48, 57, 8), (65, 90, 8), (95, 122, 8), (127, 65535, 8)], 4),
   ([], 59),
   ([], 7),
   ([], 15),
   ([(34, 34, 10), (0, 33, 14), (35, 91, 14), (93, 65535, 14)], 0),
   ([(45, 45, 11)], 0),
   ([(0, 33, 14), (35, 91, 14), (93, 65535, 14), (92, 92, 15), (34, 34, 10)], 0),
   ([(34, 34, 16), (92, 92, 16)], 0),
   ([(0, 33, 14), (35, 91, 14), (93, 65535, 14), (34, 34, 10)], 0)]

/-- Lexer machine 1. -/
def dfa1 : Machine :=
  [([(126, 126, 8), (124, 124, 11), (125, 125, 18), (123, 123, 19), (0, 8, 61), (10, 31, 61),
    (39, 39, 61), (65, 90, 61), (95, 122, 61), (127, 65535, 61), (94, 94, 3), (93, 93, 17),
    (92, 92, 10), (91, 91, 5), (64, 64, 15), (63, 63, 7), (62, 62, 25), (61, 61, 57),
    (60, 60, 20), (59, 59, 22), (58, 58, 24), (50, 57, 58), (49, 49, 27), (48, 48, 55),
    (47, 47, 9), (46, 46, 28), (45, 45, 26), (44, 44, 16), (43, 43, 1), (42, 42, 13),
    (41, 41, 21), (40, 40, 2), (38, 38, 12), (37, 37, 23), (36, 36, 4), (35, 35, 6),
    (34, 34, 54), (33, 33, 14), (32, 32, 29), (9, 9, 61)], 0),
   ([], 29),
   ([], 50),
   ([], 33),
   ([], 12),
   ([], 17),
   ([], 11),
   ([], 55),
   ([], 18),
   ([], 13),
   ([], 14),
   ([(124, 124, 31)], 21),
   ([(124, 124, 32), (47, 47, 33), (38, 38, 34)], 20),
   ([], 26),
   ([], 54),
   ([], 53),
   ([], 48),
   ([], 28),
   ([], 27),
   ([(45, 45, 62)], 16),
   ([(124, 124, 71), (61, 61, 69), (47, 47, 70), (45, 45, 72)], 52),
   ([], 49),
   ([], 2),
   ([], 3),
   ([(124, 124, 74), (92, 92, 75), (47, 47, 73), (33, 33, 35)], 9),
   ([], 51),
   ([(48, 57, 36), (45, 45, 37)], 19),
   ([(49, 57, 65), (0, 31, 61), (39, 39, 61), (65, 90, 61), (95, 122, 61), (127, 65535, 61),
    (48, 48, 63), (46, 46, 38)], 4),
   ([(49, 57, 56), (48, 48, 79)], 56),
   ([], 59),
   ([], 7),
   ([], 25),
   ([], 22),
   ([], 23),
   ([], 24),
   ([], 10),
   ([(48, 57, 36)], 58),
   ([(93, 93, 52), (62, 62, 53)], 15),
   ([(48, 48, 38)], 30),
   ([], 43),
   ([], 45),
   ([], 40),
   ([], 39),
   ([], 42),
   ([], 41),
   ([], 38),
   ([], 37),
   ([], 34),
   ([], 46),
   ([], 8),
   ([], 6),
   ([], 5),
   ([], 44),
   ([], 47),
   ([(34, 34, 30), (0, 33, 60), (35, 91, 60), (93, 65535, 60)], 0),
   ([(0, 31, 61), (39, 39, 61), (65, 90, 61), (95, 122, 61), (127, 65535, 61), (48, 57, 63),
    (46, 46, 76)], 4),
   ([(49, 57, 56), (48, 48, 59)], 30),
   ([(124, 124, 64), (92, 92, 66), (61, 61, 67), (47, 47, 68)], 0),
   ([(0, 31, 61), (39, 39, 61), (65, 90, 61), (95, 122, 61), (127, 65535, 61), (49, 57, 65),
    (48, 48, 63)], 4),
   ([(48, 57, 59)], 30),
   ([(0, 33, 60), (35, 91, 60), (93, 65535, 60), (92, 92, 77), (34, 34, 30)], 0),
   ([(0, 31, 61), (39, 39, 61), (48, 57, 61), (65, 90, 61), (95, 122, 61), (127, 65535, 61)], 4),
   ([(93, 93, 39), (45, 45, 40)], 0),
   ([(0, 31, 61), (39, 39, 61), (65, 90, 61), (95, 122, 61), (127, 65535, 61), (48, 57, 63)], 4),
   ([(62, 62, 41)], 0),
   ([(0, 31, 61), (39, 39, 61), (65, 90, 61), (95, 122, 61), (127, 65535, 61), (49, 57, 58),
    (48, 48, 63)], 4),
   ([(62, 62, 42)], 0),
   ([(62, 62, 43)], 0),
   ([(62, 62, 44)], 0),
   ([(62, 62, 45)], 0),
   ([(62, 62, 46)], 0),
   ([(62, 62, 47)], 0),
   ([(62, 62, 48)], 0),
   ([(58, 58, 49)], 0),
   ([(58, 58, 50)], 0),
   ([(58, 58, 51)], 0),
   ([(49, 57, 56), (48, 48, 79)], 0),
   ([(34, 34, 78), (92, 92, 78)], 0),
   ([(0, 33, 60), (35, 91, 60), (93, 65535, 60), (34, 34, 30)], 0),
   ([(49, 57, 56), (48, 48, 79)], 30)]

/-- Lexer machine 2. -/
def dfa2 : Machine :=
  [([(94, 94, 4), (91, 91, 5), (123, 123, 6), (0, 31, 7), (39, 39, 7), (48, 57, 7), (65, 90, 7),
    (95, 122, 7), (127, 65535, 7), (60, 60, 3), (45, 45, 11), (43, 43, 1), (40, 40, 2),
    (36, 36, 8), (34, 34, 12)], 0),
   ([], 29),
   ([], 50),
   ([], 52),
   ([], 33),
   ([], 17),
   ([], 16),
   ([(0, 31, 7), (39, 39, 7), (48, 57, 7), (65, 90, 7), (95, 122, 7), (127, 65535, 7)], 4),
   ([], 12),
   ([], 15),
   ([], 7),
   ([(45, 45, 9)], 0),
   ([(34, 34, 10), (0, 33, 13), (35, 91, 13), (93, 65535, 13)], 0),
   ([(0, 33, 13), (35, 91, 13), (93, 65535, 13), (92, 92, 14), (34, 34, 10)], 0),
   ([(34, 34, 15), (92, 92, 15)], 0),
   ([(0, 33, 13), (35, 91, 13), (93, 65535, 13), (34, 34, 10)], 0)]

/-- Lexer machine 3. -/
def dfa3 : Machine :=
  [([(0, 31, 4), (39, 39, 4), (48, 57, 4), (65, 90, 4), (95, 122, 4), (127, 65535, 4),
    (123, 123, 3), (94, 94, 1), (91, 91, 2), (60, 60, 5), (45, 45, 10), (43, 43, 6), (40, 40, 7),
    (34, 34, 11)], 0),
   ([], 33),
   ([], 17),
   ([], 16),
   ([(0, 31, 4), (39, 39, 4), (48, 57, 4), (65, 90, 4), (95, 122, 4), (127, 65535, 4)], 4),
   ([], 52),
   ([], 29),
   ([], 50),
   ([], 15),
   ([], 7),
   ([(45, 45, 8)], 0),
   ([(34, 34, 9), (0, 33, 12), (35, 91, 12), (93, 65535, 12)], 0),
   ([(0, 33, 12), (35, 91, 12), (93, 65535, 12), (92, 92, 13), (34, 34, 9)], 0),
   ([(34, 34, 14), (92, 92, 14)], 0),
   ([(0, 33, 12), (35, 91, 12), (93, 65535, 12), (34, 34, 9)], 0)]

/-- Lexer machine 4. -/
def dfa4 : Machine :=
  [([(60, 60, 3), (94, 94, 4), (91, 91, 5), (123, 123, 6), (45, 45, 15), (48, 48, 7),
    (49, 49, 13), (46, 46, 17), (0, 8, 16), (10, 31, 16), (39, 39, 16), (50, 57, 16),
    (65, 90, 16), (95, 122, 16), (127, 65535, 16), (43, 43, 1), (40, 40, 2), (34, 34, 12),
    (32, 32, 8), (9, 9, 16)], 0),
   ([], 29),
   ([], 50),
   ([], 52),
   ([], 33),
   ([], 17),
   ([], 16),
   ([(0, 31, 16), (39, 39, 16), (48, 57, 16), (65, 90, 16), (95, 122, 16), (127, 65535, 16),
    (46, 46, 17)], 4),
   ([], 59),
   ([], 7),
   ([], 15),
   ([(48, 48, 11)], 32),
   ([(34, 34, 9), (0, 33, 18), (35, 91, 18), (93, 65535, 18)], 0),
   ([(0, 31, 16), (39, 39, 16), (48, 57, 16), (65, 90, 16), (95, 122, 16), (127, 65535, 16),
    (46, 46, 11)], 4),
   ([(48, 57, 14)], 32),
   ([(45, 45, 10)], 0),
   ([(0, 31, 16), (39, 39, 16), (48, 57, 16), (65, 90, 16), (95, 122, 16), (127, 65535, 16)], 4),
   ([(48, 57, 14)], 0),
   ([(0, 33, 18), (35, 91, 18), (93, 65535, 18), (92, 92, 19), (34, 34, 9)], 0),
   ([(34, 34, 20), (92, 92, 20)], 0),
   ([(0, 33, 18), (35, 91, 18), (93, 65535, 18), (34, 34, 9)], 0)]

/-- Lexer machine 5. -/
def dfa5 : Machine :=
  [([(49, 49, 1), (48, 48, 3), (46, 46, 2)], 0),
   ([(46, 46, 4)], 32),
   ([(48, 57, 5)], 0),
   ([(46, 46, 2)], 32),
   ([(48, 48, 4)], 32),
   ([(48, 57, 5)], 32)]

/-- Lexer machine 6. -/
def dfa6 : Machine :=
  [([(64, 64, 2), (63, 63, 1), (46, 46, 3), (33, 33, 4)], 0),
   ([], 55),
   ([], 53),
   ([], 56),
   ([], 54)]

/-- Lexer machine 7. -/
def dfa7 : Machine :=
  [([(46, 46, 1)], 0),
   ([], 56)]

/-- Lexer machine 8. -/
def dfa8 : Machine :=
  [([(63, 63, 1)], 0),
   ([], 55)]

/-- Lexer machine 9. -/
def dfa9 : Machine :=
  [([(33, 33, 1)], 0),
   ([], 54)]

/-- Lexer machine 10. -/
def dfa10 : Machine :=
  [([(64, 64, 1)], 0),
   ([], 53)]

/-- Lexer machine 11. -/
def dfa11 : Machine :=
  [([(94, 94, 7), (91, 91, 8), (123, 123, 9), (0, 8, 10), (10, 31, 10), (39, 39, 10),
    (48, 57, 10), (65, 90, 10), (95, 122, 10), (127, 65535, 10), (63, 63, 3), (60, 60, 6),
    (45, 45, 15), (43, 43, 4), (40, 40, 5), (36, 36, 1), (35, 35, 2), (34, 34, 14), (32, 32, 11),
    (9, 9, 10)], 0),
   ([], 12),
   ([], 11),
   ([], 55),
   ([], 29),
   ([], 50),
   ([], 52),
   ([], 33),
   ([], 17),
   ([], 16),
   ([(0, 31, 10), (39, 39, 10), (48, 57, 10), (65, 90, 10), (95, 122, 10), (127, 65535, 10)], 4),
   ([], 59),
   ([], 7),
   ([], 15),
   ([(34, 34, 12), (0, 33, 16), (35, 91, 16), (93, 65535, 16)], 0),
   ([(45, 45, 13)], 0),
   ([(0, 33, 16), (35, 91, 16), (93, 65535, 16), (92, 92, 17), (34, 34, 12)], 0),
   ([(34, 34, 18), (92, 92, 18)], 0),
   ([(0, 33, 16), (35, 91, 16), (93, 65535, 16), (34, 34, 12)], 0)]

/-- Lexer machine 12. -/
def dfa12 : Machine :=
  [([(126, 126, 11), (124, 124, 14), (0, 8, 17), (10, 31, 17), (39, 39, 17), (48, 57, 17),
    (65, 90, 17), (95, 122, 17), (127, 65535, 17), (123, 123, 9), (94, 94, 1), (92, 92, 13),
    (91, 91, 8), (63, 63, 4), (60, 60, 7), (47, 47, 12), (45, 45, 10), (43, 43, 5), (42, 42, 16),
    (40, 40, 6), (38, 38, 15), (36, 36, 2), (35, 35, 3), (34, 34, 25), (32, 32, 18), (9, 9, 17)], 0),
   ([], 33),
   ([], 12),
   ([], 11),
   ([], 55),
   ([], 29),
   ([], 50),
   ([], 52),
   ([], 17),
   ([], 16),
   ([(45, 45, 20)], 19),
   ([], 18),
   ([], 13),
   ([], 14),
   ([(124, 124, 21)], 21),
   ([(124, 124, 22), (47, 47, 23), (38, 38, 24)], 20),
   ([], 26),
   ([(0, 31, 17), (39, 39, 17), (48, 57, 17), (65, 90, 17), (95, 122, 17), (127, 65535, 17)], 4),
   ([], 59),
   ([], 7),
   ([], 15),
   ([], 25),
   ([], 22),
   ([], 23),
   ([], 24),
   ([(34, 34, 19), (0, 33, 26), (35, 91, 26), (93, 65535, 26)], 0),
   ([(0, 33, 26), (35, 91, 26), (93, 65535, 26), (92, 92, 27), (34, 34, 19)], 0),
   ([(34, 34, 28), (92, 92, 28)], 0),
   ([(0, 33, 26), (35, 91, 26), (93, 65535, 26), (34, 34, 19)], 0)]

/-- Lexer machine 13. -/
def dfa13 : Machine :=
  [([(64, 64, 3), (93, 93, 5), (125, 125, 6), (123, 123, 32), (126, 126, 8), (124, 124, 9),
    (63, 63, 2), (62, 62, 12), (61, 61, 33), (60, 60, 34), (46, 46, 1), (45, 45, 7), (44, 44, 4),
    (42, 42, 10), (41, 41, 11), (40, 40, 13), (38, 38, 14), (33, 33, 15)], 0),
   ([], 56),
   ([], 55),
   ([], 53),
   ([], 48),
   ([], 28),
   ([], 27),
   ([(45, 45, 44)], 19),
   ([], 18),
   ([(124, 124, 16)], 21),
   ([], 26),
   ([], 49),
   ([], 51),
   ([], 50),
   ([(124, 124, 17), (47, 47, 18), (38, 38, 19)], 20),
   ([], 54),
   ([], 25),
   ([], 22),
   ([], 23),
   ([], 24),
   ([], 43),
   ([], 45),
   ([], 40),
   ([], 39),
   ([], 42),
   ([], 41),
   ([], 38),
   ([], 37),
   ([], 34),
   ([], 46),
   ([], 44),
   ([], 47),
   ([(45, 45, 35)], 0),
   ([(124, 124, 36), (92, 92, 37), (61, 61, 38), (47, 47, 39)], 0),
   ([(124, 124, 42), (61, 61, 40), (47, 47, 41), (45, 45, 43)], 0),
   ([(93, 93, 20), (45, 45, 21)], 0),
   ([(62, 62, 22)], 0),
   ([(62, 62, 23)], 0),
   ([(62, 62, 24)], 0),
   ([(62, 62, 25)], 0),
   ([(62, 62, 26)], 0),
   ([(62, 62, 27)], 0),
   ([(62, 62, 28)], 0),
   ([(62, 62, 29)], 0),
   ([(93, 93, 30), (62, 62, 31)], 0)]

/-- Lexer machine 14. -/
def dfa14 : Machine :=
  [([(34, 34, 4), (32, 32, 2), (9, 9, 1), (0, 8, 1), (10, 31, 1), (39, 39, 1), (48, 57, 1),
    (65, 90, 1), (95, 122, 1), (127, 65535, 1)], 0),
   ([(0, 31, 1), (39, 39, 1), (48, 57, 1), (65, 90, 1), (95, 122, 1), (127, 65535, 1)], 4),
   ([], 59),
   ([], 7),
   ([(34, 34, 3), (0, 33, 5), (35, 91, 5), (93, 65535, 5)], 0),
   ([(0, 33, 5), (35, 91, 5), (93, 65535, 5), (92, 92, 6), (34, 34, 3)], 0),
   ([(34, 34, 7), (92, 92, 7)], 0),
   ([(0, 33, 5), (35, 91, 5), (93, 65535, 5), (34, 34, 3)], 0)]

/-- Lexer machine 15. -/
def dfa15 : Machine :=
  [([(9, 9, 2), (32, 32, 2), (48, 57, 1), (45, 45, 3)], 0),
   ([(48, 57, 1)], 58),
   ([], 59),
   ([(48, 57, 1)], 0)]

/-- Lexer machine 16. -/
def dfa16 : Machine :=
  [([(0, 31, 4), (39, 39, 4), (48, 57, 4), (65, 90, 4), (95, 122, 4), (127, 65535, 4),
    (123, 123, 3), (94, 94, 1), (91, 91, 2), (63, 63, 5), (60, 60, 6), (45, 45, 13), (43, 43, 7),
    (40, 40, 8), (36, 36, 9), (35, 35, 10), (34, 34, 14)], 0),
   ([], 33),
   ([], 17),
   ([], 16),
   ([(0, 31, 4), (39, 39, 4), (48, 57, 4), (65, 90, 4), (95, 122, 4), (127, 65535, 4)], 4),
   ([], 55),
   ([], 52),
   ([], 29),
   ([], 50),
   ([], 12),
   ([], 11),
   ([], 15),
   ([], 7),
   ([(45, 45, 11)], 0),
   ([(34, 34, 12), (0, 33, 15), (35, 91, 15), (93, 65535, 15)], 0),
   ([(0, 33, 15), (35, 91, 15), (93, 65535, 15), (92, 92, 16), (34, 34, 12)], 0),
   ([(34, 34, 17), (92, 92, 17)], 0),
   ([(0, 33, 15), (35, 91, 15), (93, 65535, 15), (34, 34, 12)], 0)]

/-- Lexer machine 17. -/
def dfa17 : Machine :=
  [([(94, 94, 7), (91, 91, 8), (123, 123, 9), (0, 8, 11), (10, 31, 11), (39, 39, 11),
    (48, 57, 11), (65, 90, 11), (95, 122, 11), (127, 65535, 11), (63, 63, 3), (60, 60, 6),
    (45, 45, 16), (44, 44, 10), (43, 43, 4), (40, 40, 5), (36, 36, 1), (35, 35, 2), (34, 34, 15),
    (32, 32, 12), (9, 9, 11)], 0),
   ([], 12),
   ([], 11),
   ([], 55),
   ([], 29),
   ([], 50),
   ([], 52),
   ([], 33),
   ([], 17),
   ([], 16),
   ([], 48),
   ([(0, 31, 11), (39, 39, 11), (48, 57, 11), (65, 90, 11), (95, 122, 11), (127, 65535, 11)], 4),
   ([], 59),
   ([], 7),
   ([], 15),
   ([(34, 34, 13), (0, 33, 17), (35, 91, 17), (93, 65535, 17)], 0),
   ([(45, 45, 14)], 0),
   ([(0, 33, 17), (35, 91, 17), (93, 65535, 17), (92, 92, 18), (34, 34, 13)], 0),
   ([(34, 34, 19), (92, 92, 19)], 0),
   ([(0, 33, 17), (35, 91, 17), (93, 65535, 17), (34, 34, 13)], 0)]

/-- Lexer machine 18. -/
def dfa18 : Machine :=
  [([(64, 64, 4), (93, 93, 7), (125, 125, 8), (123, 123, 33), (126, 126, 10), (124, 124, 11),
    (9, 9, 16), (32, 32, 16), (63, 63, 2), (62, 62, 15), (61, 61, 34), (60, 60, 35), (46, 46, 1),
    (45, 45, 9), (44, 44, 6), (42, 42, 13), (41, 41, 14), (40, 40, 5), (38, 38, 12), (33, 33, 3)], 0),
   ([], 56),
   ([], 55),
   ([], 54),
   ([], 53),
   ([], 50),
   ([], 48),
   ([], 28),
   ([], 27),
   ([(45, 45, 45)], 19),
   ([], 18),
   ([(124, 124, 17)], 21),
   ([(124, 124, 18), (47, 47, 19), (38, 38, 20)], 20),
   ([], 26),
   ([], 49),
   ([], 51),
   ([], 59),
   ([], 25),
   ([], 22),
   ([], 23),
   ([], 24),
   ([], 43),
   ([], 45),
   ([], 40),
   ([], 39),
   ([], 42),
   ([], 41),
   ([], 38),
   ([], 37),
   ([], 34),
   ([], 46),
   ([], 44),
   ([], 47),
   ([(45, 45, 36)], 0),
   ([(124, 124, 37), (92, 92, 38), (61, 61, 39), (47, 47, 40)], 0),
   ([(124, 124, 43), (61, 61, 41), (47, 47, 42), (45, 45, 44)], 0),
   ([(93, 93, 21), (45, 45, 22)], 0),
   ([(62, 62, 23)], 0),
   ([(62, 62, 24)], 0),
   ([(62, 62, 25)], 0),
   ([(62, 62, 26)], 0),
   ([(62, 62, 27)], 0),
   ([(62, 62, 28)], 0),
   ([(62, 62, 29)], 0),
   ([(62, 62, 30)], 0),
   ([(93, 93, 31), (62, 62, 32)], 0)]

/-- Lexer machine 19. -/
def dfa19 : Machine :=
  [([(126, 126, 3), (0, 31, 7), (39, 39, 7), (48, 57, 7), (65, 90, 7), (95, 122, 7),
    (127, 65535, 7), (124, 124, 2), (123, 123, 5), (94, 94, 1), (92, 92, 6), (91, 91, 4),
    (63, 63, 8), (60, 60, 9), (47, 47, 10), (45, 45, 11), (43, 43, 12), (42, 42, 13),
    (40, 40, 14), (38, 38, 15), (36, 36, 16), (35, 35, 17), (34, 34, 24)], 0),
   ([], 33),
   ([(124, 124, 18)], 21),
   ([], 18),
   ([], 17),
   ([], 16),
   ([], 14),
   ([(0, 31, 7), (39, 39, 7), (48, 57, 7), (65, 90, 7), (95, 122, 7), (127, 65535, 7)], 4),
   ([], 55),
   ([], 52),
   ([], 13),
   ([(45, 45, 19)], 19),
   ([], 29),
   ([], 26),
   ([], 50),
   ([(124, 124, 21), (47, 47, 20), (38, 38, 22)], 20),
   ([], 12),
   ([], 11),
   ([], 25),
   ([], 15),
   ([], 23),
   ([], 22),
   ([], 24),
   ([], 7),
   ([(34, 34, 23), (0, 33, 25), (35, 91, 25), (93, 65535, 25)], 0),
   ([(0, 33, 25), (35, 91, 25), (93, 65535, 25), (92, 92, 26), (34, 34, 23)], 0),
   ([(34, 34, 27), (92, 92, 27)], 0),
   ([(0, 33, 25), (35, 91, 25), (93, 65535, 25), (34, 34, 23)], 0)]

/-- Lexer machine 20. -/
def dfa20 : Machine :=
  [([(0, 31, 1), (39, 39, 1), (48, 57, 1), (65, 90, 1), (95, 122, 1), (127, 65535, 1),
    (34, 34, 3)], 0),
   ([(0, 31, 1), (39, 39, 1), (48, 57, 1), (65, 90, 1), (95, 122, 1), (127, 65535, 1)], 4),
   ([], 7),
   ([(34, 34, 2), (0, 33, 4), (35, 91, 4), (93, 65535, 4)], 0),
   ([(0, 33, 4), (35, 91, 4), (93, 65535, 4), (92, 92, 5), (34, 34, 2)], 0),
   ([(34, 34, 6), (92, 92, 6)], 0),
   ([(0, 33, 4), (35, 91, 4), (93, 65535, 4), (34, 34, 2)], 0)]

/-- Lexer machine 21. -/
def dfa21 : Machine :=
  [([(48, 57, 1), (45, 45, 2)], 0),
   ([(48, 57, 1)], 58),
   ([(48, 57, 1)], 0)]

/-- Lexer machine 22. -/
def dfa22 : Machine :=
  [([(59, 59, 1), (36, 36, 2), (9, 9, 3), (32, 32, 3)], 0),
   ([], 2),
   ([], 12),
   ([], 59)]

/-- Lexer machine 23. -/
def dfa23 : Machine :=
  [([(59, 59, 1), (36, 36, 2)], 0),
   ([], 2),
   ([], 12)]

/-- Lexer machine 24. -/
def dfa24 : Machine :=
  [([(58, 58, 7), (37, 37, 1), (9, 9, 2), (32, 32, 2)], 0),
   ([], 3),
   ([], 59),
   ([], 10),
   ([], 8),
   ([], 6),
   ([], 5),
   ([(124, 124, 9), (92, 92, 10), (47, 47, 8), (33, 33, 3)], 0),
   ([(58, 58, 4)], 0),
   ([(58, 58, 5)], 0),
   ([(58, 58, 6)], 0)]

/-- Lexer machine 25. -/
def dfa25 : Machine :=
  [([(58, 58, 6), (37, 37, 1)], 0),
   ([], 3),
   ([], 10),
   ([], 8),
   ([], 6),
   ([], 5),
   ([(124, 124, 8), (92, 92, 9), (47, 47, 7), (33, 33, 2)], 0),
   ([(58, 58, 3)], 0),
   ([(58, 58, 4)], 0),
   ([(58, 58, 5)], 0)]

/-- Lexer machine 26. -/
def dfa26 : Machine :=
  [([(58, 58, 8), (34, 34, 9), (32, 32, 2), (9, 9, 1), (0, 8, 1), (10, 31, 1), (39, 39, 1),
    (48, 57, 1), (65, 90, 1), (95, 122, 1), (127, 65535, 1)], 0),
   ([(0, 31, 1), (39, 39, 1), (48, 57, 1), (65, 90, 1), (95, 122, 1), (127, 65535, 1)], 4),
   ([], 59),
   ([], 10),
   ([], 7),
   ([], 8),
   ([], 6),
   ([], 5),
   ([(124, 124, 11), (92, 92, 12), (47, 47, 10), (33, 33, 3)], 0),
   ([(34, 34, 4), (0, 33, 13), (35, 91, 13), (93, 65535, 13)], 0),
   ([(58, 58, 5)], 0),
   ([(58, 58, 6)], 0),
   ([(58, 58, 7)], 0),
   ([(0, 33, 13), (35, 91, 13), (93, 65535, 13), (92, 92, 14), (34, 34, 4)], 0),
   ([(34, 34, 15), (92, 92, 15)], 0),
   ([(0, 33, 13), (35, 91, 13), (93, 65535, 13), (34, 34, 4)], 0)]

/-- Lexer machine 27. -/
def dfa27 : Machine :=
  [([(58, 58, 5)], 0),
   ([], 10),
   ([], 8),
   ([], 6),
   ([], 5),
   ([(124, 124, 7), (92, 92, 8), (47, 47, 6), (33, 33, 1)], 0),
   ([(58, 58, 2)], 0),
   ([(58, 58, 3)], 0),
   ([(58, 58, 4)], 0)]

/-- Lexer machine 28. -/
def dfa28 : Machine :=
  [([(58, 58, 6), (9, 9, 1), (32, 32, 1)], 0),
   ([], 59),
   ([], 10),
   ([], 8),
   ([], 6),
   ([], 5),
   ([(124, 124, 8), (92, 92, 9), (47, 47, 7), (33, 33, 2)], 0),
   ([(58, 58, 3)], 0),
   ([(58, 58, 4)], 0),
   ([(58, 58, 5)], 0)]

/-- Lexer machine 29. -/
def dfa29 : Machine :=
  [([(93, 93, 1), (44, 44, 2)], 0),
   ([], 28),
   ([], 48)]

/-- Lexer machine 30. -/
def dfa30 : Machine :=
  [([(125, 125, 1), (44, 44, 2)], 0),
   ([], 27),
   ([], 48)]

/-- Lexer machine 31. -/
def dfa31 : Machine :=
  [([(126, 126, 3), (124, 124, 1), (123, 123, 23), (61, 61, 24), (60, 60, 25), (45, 45, 2),
    (44, 44, 4), (42, 42, 5), (38, 38, 6)], 0),
   ([(124, 124, 7)], 21),
   ([(45, 45, 35)], 19),
   ([], 18),
   ([], 48),
   ([], 26),
   ([(124, 124, 9), (47, 47, 8), (38, 38, 10)], 20),
   ([], 25),
   ([], 23),
   ([], 22),
   ([], 24),
   ([], 43),
   ([], 45),
   ([], 40),
   ([], 39),
   ([], 42),
   ([], 41),
   ([], 38),
   ([], 37),
   ([], 34),
   ([], 46),
   ([], 44),
   ([], 47),
   ([(45, 45, 26)], 0),
   ([(124, 124, 27), (92, 92, 28), (61, 61, 29), (47, 47, 30)], 0),
   ([(124, 124, 33), (61, 61, 31), (47, 47, 32), (45, 45, 34)], 0),
   ([(93, 93, 11), (45, 45, 12)], 0),
   ([(62, 62, 13)], 0),
   ([(62, 62, 14)], 0),
   ([(62, 62, 15)], 0),
   ([(62, 62, 16)], 0),
   ([(62, 62, 17)], 0),
   ([(62, 62, 18)], 0),
   ([(62, 62, 19)], 0),
   ([(62, 62, 20)], 0),
   ([(93, 93, 21), (62, 62, 22)], 0)]

/-- Lexer machine 32. -/
def dfa32 : Machine :=
  [([(126, 126, 2), (124, 124, 3), (123, 123, 24), (61, 61, 25), (60, 60, 26), (45, 45, 1),
    (44, 44, 4), (42, 42, 5), (41, 41, 6), (38, 38, 7)], 0),
   ([(45, 45, 36)], 19),
   ([], 18),
   ([(124, 124, 8)], 21),
   ([], 48),
   ([], 26),
   ([], 49),
   ([(124, 124, 9), (47, 47, 10), (38, 38, 11)], 20),
   ([], 25),
   ([], 22),
   ([], 23),
   ([], 24),
   ([], 43),
   ([], 45),
   ([], 40),
   ([], 39),
   ([], 42),
   ([], 41),
   ([], 38),
   ([], 37),
   ([], 34),
   ([], 46),
   ([], 44),
   ([], 47),
   ([(45, 45, 27)], 0),
   ([(124, 124, 28), (92, 92, 29), (61, 61, 30), (47, 47, 31)], 0),
   ([(124, 124, 34), (61, 61, 32), (47, 47, 33), (45, 45, 35)], 0),
   ([(93, 93, 12), (45, 45, 13)], 0),
   ([(62, 62, 14)], 0),
   ([(62, 62, 15)], 0),
   ([(62, 62, 16)], 0),
   ([(62, 62, 17)], 0),
   ([(62, 62, 18)], 0),
   ([(62, 62, 19)], 0),
   ([(62, 62, 20)], 0),
   ([(62, 62, 21)], 0),
   ([(93, 93, 22), (62, 62, 23)], 0)]

/-- Lexer machine 33. -/
def dfa33 : Machine :=
  [([(0, 31, 4), (39, 39, 4), (48, 57, 4), (65, 90, 4), (95, 122, 4), (127, 65535, 4),
    (123, 123, 3), (94, 94, 1), (91, 91, 2), (63, 63, 5), (60, 60, 6), (45, 45, 14), (44, 44, 7),
    (43, 43, 8), (40, 40, 9), (36, 36, 10), (35, 35, 11), (34, 34, 15)], 0),
   ([], 33),
   ([], 17),
   ([], 16),
   ([(0, 31, 4), (39, 39, 4), (48, 57, 4), (65, 90, 4), (95, 122, 4), (127, 65535, 4)], 4),
   ([], 55),
   ([], 52),
   ([], 48),
   ([], 29),
   ([], 50),
   ([], 12),
   ([], 11),
   ([], 15),
   ([], 7),
   ([(45, 45, 12)], 0),
   ([(34, 34, 13), (0, 33, 16), (35, 91, 16), (93, 65535, 16)], 0),
   ([(0, 33, 16), (35, 91, 16), (93, 65535, 16), (92, 92, 17), (34, 34, 13)], 0),
   ([(34, 34, 18), (92, 92, 18)], 0),
   ([(0, 33, 16), (35, 91, 16), (93, 65535, 16), (34, 34, 13)], 0)]

/-- Lexer machine 34. -/
def dfa34 : Machine :=
  [([(44, 44, 1)], 0),
   ([], 48)]

/-- Lexer machine 35. -/
def dfa35 : Machine :=
  [([(126, 126, 2), (45, 45, 1), (41, 41, 3)], 0),
   ([], 19),
   ([], 18),
   ([], 49)]

/-- Lexer machine 36. -/
def dfa36 : Machine :=
  [([(126, 126, 1), (45, 45, 2)], 0),
   ([], 18),
   ([], 19)]

/-- Lexer machine 37. -/
def dfa37 : Machine :=
  [([(94, 94, 8), (91, 91, 9), (123, 123, 10), (0, 8, 11), (10, 31, 11), (39, 39, 11),
    (48, 57, 11), (65, 90, 11), (95, 122, 11), (127, 65535, 11), (63, 63, 4), (60, 60, 7),
    (45, 45, 16), (44, 44, 1), (43, 43, 5), (40, 40, 6), (36, 36, 2), (35, 35, 3), (34, 34, 15),
    (32, 32, 12), (9, 9, 11)], 0),
   ([], 48),
   ([], 12),
   ([], 11),
   ([], 55),
   ([], 29),
   ([], 50),
   ([], 52),
   ([], 33),
   ([], 17),
   ([], 16),
   ([(0, 31, 11), (39, 39, 11), (48, 57, 11), (65, 90, 11), (95, 122, 11), (127, 65535, 11)], 4),
   ([], 59),
   ([], 7),
   ([], 15),
   ([(34, 34, 13), (0, 33, 17), (35, 91, 17), (93, 65535, 17)], 0),
   ([(45, 45, 14)], 0),
   ([(0, 33, 17), (35, 91, 17), (93, 65535, 17), (92, 92, 18), (34, 34, 13)], 0),
   ([(34, 34, 19), (92, 92, 19)], 0),
   ([(0, 33, 17), (35, 91, 17), (93, 65535, 17), (34, 34, 13)], 0)]

/-- Lexer machine 38. -/
def dfa38 : Machine :=
  [([(44, 44, 1), (9, 9, 2), (32, 32, 2)], 0),
   ([], 48),
   ([], 59)]

/-- Lexer machine 39. -/
def dfa39 : Machine :=
  [([(123, 123, 13), (61, 61, 14), (60, 60, 15), (45, 45, 26)], 0),
   ([], 43),
   ([], 45),
   ([], 40),
   ([], 39),
   ([], 42),
   ([], 41),
   ([], 38),
   ([], 37),
   ([], 34),
   ([], 46),
   ([], 44),
   ([], 47),
   ([(45, 45, 16)], 0),
   ([(124, 124, 17), (92, 92, 18), (61, 61, 19), (47, 47, 20)], 0),
   ([(124, 124, 23), (61, 61, 21), (47, 47, 22), (45, 45, 24)], 0),
   ([(93, 93, 1), (45, 45, 2)], 0),
   ([(62, 62, 3)], 0),
   ([(62, 62, 4)], 0),
   ([(62, 62, 5)], 0),
   ([(62, 62, 6)], 0),
   ([(62, 62, 7)], 0),
   ([(62, 62, 8)], 0),
   ([(62, 62, 9)], 0),
   ([(62, 62, 10)], 0),
   ([(93, 93, 11), (62, 62, 12)], 0),
   ([(45, 45, 25)], 0)]

/-- Lexer machine 40. -/
def dfa40 : Machine :=
  [([(64, 64, 4), (93, 93, 6), (125, 125, 7), (123, 123, 33), (126, 126, 9), (124, 124, 10),
    (9, 9, 16), (32, 32, 16), (63, 63, 2), (62, 62, 15), (61, 61, 34), (60, 60, 35),
    (58, 58, 14), (46, 46, 1), (45, 45, 8), (44, 44, 5), (42, 42, 12), (41, 41, 13),
    (38, 38, 11), (33, 33, 3)], 0),
   ([], 56),
   ([], 55),
   ([], 54),
   ([], 53),
   ([], 48),
   ([], 28),
   ([], 27),
   ([(45, 45, 45)], 19),
   ([], 18),
   ([(124, 124, 17)], 21),
   ([(124, 124, 18), (47, 47, 19), (38, 38, 20)], 20),
   ([], 26),
   ([], 49),
   ([], 9),
   ([], 51),
   ([], 59),
   ([], 25),
   ([], 22),
   ([], 23),
   ([], 24),
   ([], 43),
   ([], 45),
   ([], 40),
   ([], 39),
   ([], 42),
   ([], 41),
   ([], 38),
   ([], 37),
   ([], 34),
   ([], 46),
   ([], 44),
   ([], 47),
   ([(45, 45, 36)], 0),
   ([(124, 124, 37), (92, 92, 38), (61, 61, 39), (47, 47, 40)], 0),
   ([(124, 124, 43), (61, 61, 41), (47, 47, 42), (45, 45, 44)], 0),
   ([(93, 93, 21), (45, 45, 22)], 0),
   ([(62, 62, 23)], 0),
   ([(62, 62, 24)], 0),
   ([(62, 62, 25)], 0),
   ([(62, 62, 26)], 0),
   ([(62, 62, 27)], 0),
   ([(62, 62, 28)], 0),
   ([(62, 62, 29)], 0),
   ([(62, 62, 30)], 0),
   ([(93, 93, 31), (62, 62, 32)], 0)]

/-- Lexer machine 41. -/
def dfa41 : Machine :=
  [([(9, 9, 3), (32, 32, 3), (50, 57, 2), (49, 49, 1), (48, 48, 5), (46, 46, 4)], 0),
   ([(49, 57, 2), (48, 48, 6), (46, 46, 7)], 30),
   ([(49, 57, 2), (48, 48, 6)], 35),
   ([], 59),
   ([(49, 57, 8), (48, 48, 10)], 0),
   ([(46, 46, 4)], 30),
   ([(48, 57, 6)], 35),
   ([(48, 48, 7)], 30),
   ([(49, 57, 8), (48, 48, 9)], 30),
   ([(48, 57, 9)], 30),
   ([(49, 57, 8), (48, 48, 10)], 30)]

/-- Lexer machine 42. -/
def dfa42 : Machine :=
  [([(36, 36, 1)], 0),
   ([], 12)]

/-- Lexer machine 43. -/
def dfa43 : Machine :=
  [([(48, 48, 2), (46, 46, 4)], 0),
   ([(49, 57, 1), (48, 48, 3)], 31),
   ([(46, 46, 4)], 0),
   ([(48, 57, 3)], 31),
   ([(49, 57, 1), (48, 48, 4)], 0)]

/-- Lexer machine 44. -/
def dfa44 : Machine :=
  [([(37, 37, 1)], 0),
   ([], 3)]

/-- Lexer machine 45. -/
def dfa45 : Machine :=
  [([(37, 37, 1), (9, 9, 2), (32, 32, 2)], 0),
   ([], 3),
   ([], 59)]

/-- Lexer machine 46. -/
def dfa46 : Machine :=
  [([(44, 44, 1), (41, 41, 2)], 0),
   ([], 48),
   ([], 49)]

/-- Lexer machine 47. -/
def dfa47 : Machine :=
  [([(93, 93, 1)], 0),
   ([], 28)]

/-- Lexer machine 48. -/
def dfa48 : Machine :=
  [([(125, 125, 1)], 0),
   ([], 27)]

/-- Lexer machine 49. -/
def dfa49 : Machine :=
  [([(126, 126, 2), (45, 45, 1), (44, 44, 3), (42, 42, 4), (41, 41, 5)], 0),
   ([], 19),
   ([], 18),
   ([], 48),
   ([], 26),
   ([], 49)]

/-- Lexer machine 50. -/
def dfa50 : Machine :=
  [([(126, 126, 1), (124, 124, 6), (45, 45, 2), (44, 44, 3), (41, 41, 4)], 0),
   ([], 18),
   ([], 19),
   ([], 48),
   ([], 49),
   ([], 25),
   ([(124, 124, 5)], 0)]

/-- Lexer machine 51. -/
def dfa51 : Machine :=
  [([(126, 126, 3), (45, 45, 2), (44, 44, 4), (41, 41, 1), (38, 38, 6)], 0),
   ([], 49),
   ([], 19),
   ([], 18),
   ([], 48),
   ([], 24),
   ([(38, 38, 5)], 0)]

/-- Lexer machine 52. -/
def dfa52 : Machine :=
  [([(126, 126, 3), (45, 45, 2), (44, 44, 4), (41, 41, 1), (38, 38, 6)], 0),
   ([], 49),
   ([], 19),
   ([], 18),
   ([], 48),
   ([], 23),
   ([(47, 47, 5)], 0)]

/-- Lexer machine 53. -/
def dfa53 : Machine :=
  [([(126, 126, 3), (45, 45, 2), (44, 44, 4), (41, 41, 1), (38, 38, 6)], 0),
   ([], 49),
   ([], 19),
   ([], 18),
   ([], 48),
   ([], 22),
   ([(124, 124, 5)], 0)]

/-- Lexer machine 54. -/
def dfa54 : Machine :=
  [([(126, 126, 1), (124, 124, 2), (45, 45, 3), (44, 44, 4), (41, 41, 5)], 0),
   ([], 18),
   ([], 21),
   ([], 19),
   ([], 48),
   ([], 49)]

/-- Lexer machine 55. -/
def dfa55 : Machine :=
  [([(126, 126, 3), (45, 45, 2), (44, 44, 4), (41, 41, 1), (38, 38, 5)], 0),
   ([], 49),
   ([], 19),
   ([], 18),
   ([], 48),
   ([], 20)]

/-- Lexer machine 56. -/
def dfa56 : Machine :=
  [([(41, 41, 1)], 0),
   ([], 49)]

/-- Lexer machine 57. -/
def dfa57 : Machine :=
  [([(64, 64, 4), (93, 93, 6), (125, 125, 7), (123, 123, 32), (126, 126, 9), (124, 124, 10),
    (9, 9, 15), (32, 32, 15), (63, 63, 2), (62, 62, 14), (61, 61, 33), (60, 60, 34), (46, 46, 1),
    (45, 45, 8), (44, 44, 5), (42, 42, 12), (41, 41, 13), (38, 38, 11), (33, 33, 3)], 0),
   ([], 56),
   ([], 55),
   ([], 54),
   ([], 53),
   ([], 48),
   ([], 28),
   ([], 27),
   ([(45, 45, 44)], 19),
   ([], 18),
   ([(124, 124, 16)], 21),
   ([(124, 124, 17), (47, 47, 18), (38, 38, 19)], 20),
   ([], 26),
   ([], 49),
   ([], 51),
   ([], 59),
   ([], 25),
   ([], 22),
   ([], 23),
   ([], 24),
   ([], 43),
   ([], 45),
   ([], 40),
   ([], 39),
   ([], 42),
   ([], 41),
   ([], 38),
   ([], 37),
   ([], 34),
   ([], 46),
   ([], 44),
   ([], 47),
   ([(45, 45, 35)], 0),
   ([(124, 124, 36), (92, 92, 37), (61, 61, 38), (47, 47, 39)], 0),
   ([(124, 124, 42), (61, 61, 40), (47, 47, 41), (45, 45, 43)], 0),
   ([(93, 93, 20), (45, 45, 21)], 0),
   ([(62, 62, 22)], 0),
   ([(62, 62, 23)], 0),
   ([(62, 62, 24)], 0),
   ([(62, 62, 25)], 0),
   ([(62, 62, 26)], 0),
   ([(62, 62, 27)], 0),
   ([(62, 62, 28)], 0),
   ([(62, 62, 29)], 0),
   ([(93, 93, 30), (62, 62, 31)], 0)]

/-- Lexer machine 58. -/
def dfa58 : Machine :=
  [([(9, 9, 2), (32, 32, 2), (49, 49, 4), (48, 48, 1), (46, 46, 3)], 0),
   ([(46, 46, 3)], 57),
   ([], 59),
   ([(48, 57, 6)], 0),
   ([(46, 46, 5)], 57),
   ([(48, 48, 5)], 57),
   ([(48, 57, 6)], 57)]

/-- Lexer machine 59. -/
def dfa59 : Machine :=
  [([(49, 49, 1), (48, 48, 3), (46, 46, 2)], 0),
   ([(46, 46, 4)], 57),
   ([(48, 57, 5)], 0),
   ([(46, 46, 2)], 57),
   ([(48, 48, 4)], 57),
   ([(48, 57, 5)], 57)]

/-- Lexer machine 60. -/
def dfa60 : Machine :=
  [([(58, 58, 1)], 0),
   ([], 9)]

/-- Lexer machine 61. -/
def dfa61 : Machine :=
  [([(124, 124, 1), (44, 44, 2), (42, 42, 3), (38, 38, 4)], 0),
   ([(124, 124, 5)], 21),
   ([], 48),
   ([], 26),
   ([(124, 124, 7), (47, 47, 6), (38, 38, 8)], 20),
   ([], 25),
   ([], 23),
   ([], 22),
   ([], 24)]

/-- Lexer machine 62. -/
def dfa62 : Machine :=
  [([(124, 124, 1), (42, 42, 2), (41, 41, 3), (38, 38, 4)], 0),
   ([(124, 124, 5)], 21),
   ([], 26),
   ([], 49),
   ([(124, 124, 7), (47, 47, 6), (38, 38, 8)], 20),
   ([], 25),
   ([], 23),
   ([], 22),
   ([], 24)]

/-- Lexer machine 63. -/
def dfa63 : Machine :=
  [([(62, 62, 1)], 0),
   ([], 51)]

/-- Lexer machine 64. -/
def dfa64 : Machine :=
  [([(49, 49, 1), (48, 48, 3), (46, 46, 2)], 0),
   ([(46, 46, 4)], 30),
   ([(48, 57, 5)], 0),
   ([(46, 46, 2)], 30),
   ([(48, 48, 4)], 30),
   ([(48, 57, 5)], 30)]

/-- Lexer machine 65. -/
def dfa65 : Machine :=
  [([(59, 59, 1), (37, 37, 2), (9, 9, 3), (32, 32, 3)], 0),
   ([], 2),
   ([], 3),
   ([], 59)]

/-- Lexer machine 66. -/
def dfa66 : Machine :=
  [([(59, 59, 1), (37, 37, 2)], 0),
   ([], 2),
   ([], 3)]

/-- Lexer machine 67. -/
def dfa67 : Machine :=
  [([(36, 36, 1), (9, 9, 2), (32, 32, 2)], 0),
   ([], 12),
   ([], 59)]

/-- Lexer machine 68. -/
def dfa68 : Machine :=
  [([(48, 48, 2), (46, 46, 4)], 0),
   ([(49, 57, 1), (48, 48, 3)], 36),
   ([(46, 46, 4)], 0),
   ([(48, 57, 3)], 36),
   ([(49, 57, 1), (48, 48, 4)], 0)]

/-- Lexer machine 69. -/
def dfa69 : Machine :=
  [([(49, 57, 1)], 0),
   ([(49, 57, 1), (48, 48, 2)], 35),
   ([(48, 57, 2)], 35)]

/-- All lexer machines (narsese.h:631-792). -/
def dfaTable : List Machine :=
  [dfa0, dfa1, dfa2, dfa3, dfa4, dfa5, dfa6, dfa7, dfa8, dfa9, dfa10, dfa11, dfa12, dfa13, dfa14,
   dfa15, dfa16, dfa17, dfa18, dfa19, dfa20, dfa21, dfa22, dfa23, dfa24, dfa25, dfa26, dfa27,
   dfa28, dfa29, dfa30, dfa31, dfa32, dfa33, dfa34, dfa35, dfa36, dfa37, dfa38, dfa39, dfa40,
   dfa41, dfa42, dfa43, dfa44, dfa45, dfa46, dfa47, dfa48, dfa49, dfa50, dfa51, dfa52, dfa53,
   dfa54, dfa55, dfa56, dfa57, dfa58, dfa59, dfa60, dfa61, dfa62, dfa63, dfa64, dfa65, dfa66,
   dfa67, dfa68, dfa69]

/-- `symbols` (narsese.h:795-1031). -/
def symbolTable : List SymInfo :=
  [⟨.none, 3, true⟩,  -- 0  &eof
   ⟨.none, 2, true⟩,  -- 1  ;
   ⟨.none, 2, true⟩,  -- 2  %
   ⟨.string_raw, 2, true⟩,  -- 3  string_raw
   ⟨.none, 2, true⟩,  -- 4  :\\:
   ⟨.none, 2, true⟩,  -- 5  :|:
   ⟨.«string», 2, true⟩,  -- 6  string
   ⟨.none, 2, true⟩,  -- 7  :/:
   ⟨.none, 2, true⟩,  -- 8  :
   ⟨.none, 2, true⟩,  -- 9  :!
   ⟨.none, 2, true⟩,  -- 10  #
   ⟨.none, 2, true⟩,  -- 11  $
   ⟨.none, 2, true⟩,  -- 12  /
   ⟨.none, 2, true⟩,  -- 13  \\
   ⟨.none, 2, true⟩,  -- 14  --
   ⟨.none, 2, true⟩,  -- 15  {
   ⟨.none, 2, true⟩,  -- 16  [
   ⟨.none, 2, true⟩,  -- 17  ~
   ⟨.none, 2, true⟩,  -- 18  -
   ⟨.none, 2, true⟩,  -- 19  &
   ⟨.none, 2, true⟩,  -- 20  |
   ⟨.none, 2, true⟩,  -- 21  &|
   ⟨.none, 2, true⟩,  -- 22  &/
   ⟨.none, 2, true⟩,  -- 23  &&
   ⟨.none, 2, true⟩,  -- 24  ||
   ⟨.none, 2, true⟩,  -- 25  *
   ⟨.none, 2, true⟩,  -- 26  }
   ⟨.none, 2, true⟩,  -- 27  ]
   ⟨.none, 2, true⟩,  -- 28  +
   ⟨.quality, 2, true⟩,  -- 29  quality
   ⟨.durability, 2, true⟩,  -- 30  durability
   ⟨.priority, 2, true⟩,  -- 31  priority
   ⟨.none, 2, true⟩,  -- 32  ^
   ⟨.none, 2, true⟩,  -- 33  <|>
   ⟨.k_evidence, 2, true⟩,  -- 34  k_evidence
   ⟨.confidence, 2, true⟩,  -- 35  confidence
   ⟨.none, 2, true⟩,  -- 36  </>
   ⟨.none, 2, true⟩,  -- 37  <=>
   ⟨.none, 2, true⟩,  -- 38  =\\>
   ⟨.none, 2, true⟩,  -- 39  =|>
   ⟨.none, 2, true⟩,  -- 40  =/>
   ⟨.none, 2, true⟩,  -- 41  ==>
   ⟨.none, 2, true⟩,  -- 42  {-]
   ⟨.none, 2, true⟩,  -- 43  --]
   ⟨.none, 2, true⟩,  -- 44  {--
   ⟨.none, 2, true⟩,  -- 45  <->
   ⟨.none, 2, true⟩,  -- 46  -->
   ⟨.none, 2, true⟩,  -- 47  ,
   ⟨.none, 2, true⟩,  -- 48  )
   ⟨.none, 2, true⟩,  -- 49  (
   ⟨.none, 2, true⟩,  -- 50  >
   ⟨.none, 2, true⟩,  -- 51  <
   ⟨.none, 2, true⟩,  -- 52  @
   ⟨.none, 2, true⟩,  -- 53  !
   ⟨.none, 2, true⟩,  -- 54  ?
   ⟨.none, 2, true⟩,  -- 55  .
   ⟨.frequency, 2, true⟩,  -- 56  frequency
   ⟨.integer, 2, true⟩,  -- 57  integer
   ⟨.none, 1, true⟩,  -- 58  \t 
   ⟨.none, 0, true⟩,  -- 59  task''
   ⟨.none, 0, true⟩,  -- 60  quality'
   ⟨.none, 0, true⟩,  -- 61  durability'
   ⟨.none, 0, true⟩,  -- 62  priority'
   ⟨.none, 0, true⟩,  -- 63  k_evidence'
   ⟨.none, 0, true⟩,  -- 64  confidence'
   ⟨.none, 0, true⟩,  -- 65  ;'
   ⟨.none, 0, true⟩,  -- 66  frequency'
   ⟨.none, 0, true⟩,  -- 67  %'
   ⟨.none, 0, true⟩,  -- 68  +'
   ⟨.none, 0, true⟩,  -- 69  ['
   ⟨.none, 0, true⟩,  -- 70  ]'
   ⟨.none, 0, true⟩,  -- 71  {'
   ⟨.none, 0, true⟩,  -- 72  }'
   ⟨.none, 0, true⟩,  -- 73  ~'
   ⟨.none, 0, true⟩,  -- 74  -'
   ⟨.none, 0, true⟩,  -- 75  &'
   ⟨.none, 0, true⟩,  -- 76  |'
   ⟨.none, 0, true⟩,  -- 77  &|'
   ⟨.none, 0, true⟩,  -- 78  &/'
   ⟨.none, 0, true⟩,  -- 79  &&'
   ⟨.none, 0, true⟩,  -- 80  ||'
   ⟨.none, 0, true⟩,  -- 81  *'
   ⟨.none, 0, true⟩,  -- 82  /'
   ⟨.none, 0, true⟩,  -- 83  \\'
   ⟨.none, 0, true⟩,  -- 84  --'
   ⟨.none, 0, true⟩,  -- 85  <|>'
   ⟨.none, 0, true⟩,  -- 86  </>'
   ⟨.none, 0, true⟩,  -- 87  <=>'
   ⟨.none, 0, true⟩,  -- 88  =\\>'
   ⟨.none, 0, true⟩,  -- 89  =|>'
   ⟨.none, 0, true⟩,  -- 90  =/>'
   ⟨.none, 0, true⟩,  -- 91  ==>'
   ⟨.none, 0, true⟩,  -- 92  {-]'
   ⟨.none, 0, true⟩,  -- 93  --]'
   ⟨.none, 0, true⟩,  -- 94  {--'
   ⟨.none, 0, true⟩,  -- 95  <->'
   ⟨.none, 0, true⟩,  -- 96  -->'
   ⟨.none, 0, true⟩,  -- 97  >'
   ⟨.none, 0, true⟩,  -- 98  <'
   ⟨.none, 0, true⟩,  -- 99  ^'
   ⟨.none, 0, true⟩,  -- 100  string_raw'
   ⟨.none, 0, true⟩,  -- 101  string'
   ⟨.none, 0, true⟩,  -- 102  #'
   ⟨.none, 0, true⟩,  -- 103  $'
   ⟨.none, 0, true⟩,  -- 104  ,'
   ⟨.none, 0, true⟩,  -- 105  )'
   ⟨.none, 0, true⟩,  -- 106  ('
   ⟨.none, 0, true⟩,  -- 107  :\\:'
   ⟨.none, 0, true⟩,  -- 108  :|:'
   ⟨.none, 0, true⟩,  -- 109  :/:'
   ⟨.none, 0, true⟩,  -- 110  :'
   ⟨.none, 0, true⟩,  -- 111  integer'
   ⟨.none, 0, true⟩,  -- 112  :!'
   ⟨.none, 0, true⟩,  -- 113  @'
   ⟨.none, 0, true⟩,  -- 114  !'
   ⟨.none, 0, true⟩,  -- 115  ?'
   ⟨.none, 0, true⟩,  -- 116  .'
   ⟨.none, 0, true⟩,  -- 117  &whitespace*
   ⟨.none, 0, true⟩,  -- 118  &whitespace+
   ⟨.none, 0, true⟩,  -- 119  &whitespace
   ⟨.none, 0, true⟩,  -- 120  task'
   ⟨.none, 0, true⟩,  -- 121  &embedded_39
   ⟨.none, 0, true⟩,  -- 122  &embedded_38?
   ⟨.none, 0, true⟩,  -- 123  &embedded_38
   ⟨.none, 0, true⟩,  -- 124  &embedded_37?
   ⟨.none, 0, true⟩,  -- 125  &embedded_37
   ⟨.none, 0, true⟩,  -- 126  &embedded_36?
   ⟨.none, 0, true⟩,  -- 127  &embedded_36
   ⟨.none, 0, true⟩,  -- 128  &embedded_35?
   ⟨.none, 0, true⟩,  -- 129  &embedded_35
   ⟨.none, 0, true⟩,  -- 130  &embedded_34+
   ⟨.none, 0, true⟩,  -- 131  &embedded_34
   ⟨.none, 0, true⟩,  -- 132  &embedded_33+
   ⟨.none, 0, true⟩,  -- 133  &embedded_33
   ⟨.none, 0, true⟩,  -- 134  &embedded_32+
   ⟨.none, 0, true⟩,  -- 135  &embedded_32
   ⟨.none, 0, true⟩,  -- 136  &embedded_31+
   ⟨.none, 0, true⟩,  -- 137  &embedded_31
   ⟨.none, 0, true⟩,  -- 138  &embedded_30+
   ⟨.none, 0, true⟩,  -- 139  &embedded_30
   ⟨.none, 0, true⟩,  -- 140  &embedded_29+
   ⟨.none, 0, true⟩,  -- 141  &embedded_29
   ⟨.none, 0, true⟩,  -- 142  &embedded_28+
   ⟨.none, 0, true⟩,  -- 143  &embedded_28
   ⟨.none, 0, true⟩,  -- 144  multi_prod_expr
   ⟨.none, 0, true⟩,  -- 145  multi_disj_expr
   ⟨.none, 0, true⟩,  -- 146  multi_conj_expr
   ⟨.none, 0, true⟩,  -- 147  multi_sequential_expr
   ⟨.none, 0, true⟩,  -- 148  multi_parallel_expr
   ⟨.none, 0, true⟩,  -- 149  multi_intint_expr
   ⟨.none, 0, true⟩,  -- 150  multi_extint_expr
   ⟨.none, 0, true⟩,  -- 151  &embedded_27
   ⟨.none, 0, true⟩,  -- 152  &embedded_26
   ⟨.none, 0, true⟩,  -- 153  &embedded_25
   ⟨.none, 0, true⟩,  -- 154  &embedded_24
   ⟨.none, 0, true⟩,  -- 155  con_single
   ⟨.none, 0, true⟩,  -- 156  &embedded_23
   ⟨.none, 0, true⟩,  -- 157  &embedded_22*
   ⟨.none, 0, true⟩,  -- 158  &embedded_22+
   ⟨.none, 0, true⟩,  -- 159  &embedded_22
   ⟨.none, 0, true⟩,  -- 160  con_product
   ⟨.none, 0, true⟩,  -- 161  &embedded_21+
   ⟨.none, 0, true⟩,  -- 162  &embedded_21
   ⟨.none, 0, true⟩,  -- 163  con_multi
   ⟨.none, 0, true⟩,  -- 164  &embedded_20+
   ⟨.none, 0, true⟩,  -- 165  &embedded_20
   ⟨.none, 0, true⟩,  -- 166  multi_infix_expr
   ⟨.none, 0, true⟩,  -- 167  &embedded_19*
   ⟨.none, 0, true⟩,  -- 168  &embedded_19+
   ⟨.none, 0, true⟩,  -- 169  &embedded_19
   ⟨.none, 0, true⟩,  -- 170  con_ext_image
   ⟨.none, 0, true⟩,  -- 171  &embedded_18*
   ⟨.none, 0, true⟩,  -- 172  &embedded_18+
   ⟨.none, 0, true⟩,  -- 173  &embedded_18
   ⟨.none, 0, true⟩,  -- 174  con_int_image
   ⟨.none, 0, true⟩,  -- 175  &embedded_17
   ⟨.none, 0, true⟩,  -- 176  con_negation
   ⟨.none, 0, true⟩,  -- 177  &embedded_16*
   ⟨.none, 0, true⟩,  -- 178  &embedded_16+
   ⟨.none, 0, true⟩,  -- 179  &embedded_16
   ⟨.none, 0, true⟩,  -- 180  con_ext_set
   ⟨.none, 0, true⟩,  -- 181  &embedded_15*
   ⟨.none, 0, true⟩,  -- 182  &embedded_15+
   ⟨.none, 0, true⟩,  -- 183  &embedded_15
   ⟨.none, 0, true⟩,  -- 184  con_int_set
   ⟨.none, 0, true⟩,  -- 185  &embedded_14
   ⟨.none, 0, true⟩,  -- 186  ext_set
   ⟨.none, 0, true⟩,  -- 187  int_set
   ⟨.none, 0, true⟩,  -- 188  negation
   ⟨.none, 0, true⟩,  -- 189  int_image
   ⟨.none, 0, true⟩,  -- 190  ext_image
   ⟨.none, 0, true⟩,  -- 191  single
   ⟨.none, 0, true⟩,  -- 192  multi
   ⟨.none, 0, true⟩,  -- 193  set
   ⟨.none, 0, true⟩,  -- 194  compound_term
   ⟨.none, 0, true⟩,  -- 195  interval
   ⟨.none, 0, true⟩,  -- 196  variable
   ⟨.none, 0, true⟩,  -- 197  &embedded_13*
   ⟨.none, 0, true⟩,  -- 198  &embedded_13+
   ⟨.none, 0, true⟩,  -- 199  &embedded_13
   ⟨.none, 0, true⟩,  -- 200  word
   ⟨.none, 0, true⟩,  -- 201  &embedded_12*
   ⟨.none, 0, true⟩,  -- 202  &embedded_12+
   ⟨.none, 0, true⟩,  -- 203  &embedded_12
   ⟨.none, 0, true⟩,  -- 204  op
   ⟨.none, 0, true⟩,  -- 205  &embedded_11
   ⟨.none, 0, true⟩,  -- 206  copula
   ⟨.none, 0, true⟩,  -- 207  term
   ⟨.none, 0, true⟩,  -- 208  &embedded_10?
   ⟨.none, 0, true⟩,  -- 209  &embedded_10
   ⟨.none, 0, true⟩,  -- 210  &embedded_9
   ⟨.none, 0, true⟩,  -- 211  &embedded_8?
   ⟨.none, 0, true⟩,  -- 212  &embedded_8
   ⟨.none, 0, true⟩,  -- 213  desire
   ⟨.none, 0, true⟩,  -- 214  &embedded_7?
   ⟨.none, 0, true⟩,  -- 215  &embedded_7
   ⟨.none, 0, true⟩,  -- 216  &embedded_6
   ⟨.none, 0, true⟩,  -- 217  &embedded_5?
   ⟨.none, 0, true⟩,  -- 218  &embedded_5
   ⟨.none, 0, true⟩,  -- 219  &embedded_4
   ⟨.none, 0, true⟩,  -- 220  &embedded_3?
   ⟨.none, 0, true⟩,  -- 221  &embedded_3
   ⟨.none, 0, true⟩,  -- 222  truth
   ⟨.none, 0, true⟩,  -- 223  &embedded_2?
   ⟨.none, 0, true⟩,  -- 224  &embedded_2
   ⟨.none, 0, true⟩,  -- 225  tense
   ⟨.none, 0, true⟩,  -- 226  &embedded_1
   ⟨.none, 0, true⟩,  -- 227  statement
   ⟨.none, 0, true⟩,  -- 228  term_nonvar
   ⟨.none, 0, true⟩,  -- 229  sentence
   ⟨.none, 0, true⟩,  -- 230  &embedded_0?
   ⟨.none, 0, true⟩,  -- 231  &embedded_0
   ⟨.none, 0, true⟩,  -- 232  budget
   ⟨.none, 0, true⟩  -- 233  task
  ]

/-- `productions` (narsese.h:1034-1306). -/
def productionTable : List ProdInfo :=
  [⟨.none, 1, 231⟩,  -- 0  &embedded_0 : budget
   ⟨.none, 1, 230⟩,  -- 1  &embedded_0? : &embedded_0
   ⟨.none, 0, 230⟩,  -- 2  &embedded_0? : 
   ⟨.task, 2, 233⟩,  -- 3  task : &embedded_0? sentence
   ⟨.none, 1, 226⟩,  -- 4  &embedded_1 : term_nonvar
   ⟨.none, 1, 226⟩,  -- 5  &embedded_1 : statement
   ⟨.judgement, 4, 229⟩,  -- 6  sentence : &embedded_1 .' &embedded_2? &embedded_3?
   ⟨.none, 1, 224⟩,  -- 7  &embedded_2 : tense
   ⟨.none, 1, 223⟩,  -- 8  &embedded_2? : &embedded_2
   ⟨.none, 0, 223⟩,  -- 9  &embedded_2? : 
   ⟨.none, 1, 221⟩,  -- 10  &embedded_3 : truth
   ⟨.none, 1, 220⟩,  -- 11  &embedded_3? : &embedded_3
   ⟨.none, 0, 220⟩,  -- 12  &embedded_3? : 
   ⟨.none, 1, 219⟩,  -- 13  &embedded_4 : term_nonvar
   ⟨.none, 1, 219⟩,  -- 14  &embedded_4 : statement
   ⟨.question, 3, 229⟩,  -- 15  sentence : &embedded_4 ?' &embedded_5?
   ⟨.none, 1, 218⟩,  -- 16  &embedded_5 : tense
   ⟨.none, 1, 217⟩,  -- 17  &embedded_5? : &embedded_5
   ⟨.none, 0, 217⟩,  -- 18  &embedded_5? : 
   ⟨.none, 1, 216⟩,  -- 19  &embedded_6 : term_nonvar
   ⟨.none, 1, 216⟩,  -- 20  &embedded_6 : statement
   ⟨.goal, 4, 229⟩,  -- 21  sentence : &embedded_6 !' &embedded_7? &embedded_8?
   ⟨.none, 1, 215⟩,  -- 22  &embedded_7 : tense
   ⟨.none, 1, 214⟩,  -- 23  &embedded_7? : &embedded_7
   ⟨.none, 0, 214⟩,  -- 24  &embedded_7? : 
   ⟨.none, 1, 212⟩,  -- 25  &embedded_8 : desire
   ⟨.none, 1, 211⟩,  -- 26  &embedded_8? : &embedded_8
   ⟨.none, 0, 211⟩,  -- 27  &embedded_8? : 
   ⟨.none, 1, 210⟩,  -- 28  &embedded_9 : term_nonvar
   ⟨.none, 1, 210⟩,  -- 29  &embedded_9 : statement
   ⟨.quest, 3, 229⟩,  -- 30  sentence : &embedded_9 @' &embedded_10?
   ⟨.none, 1, 209⟩,  -- 31  &embedded_10 : tense
   ⟨.none, 1, 208⟩,  -- 32  &embedded_10? : &embedded_10
   ⟨.none, 0, 208⟩,  -- 33  &embedded_10? : 
   ⟨.none, 5, 205⟩,  -- 34  &embedded_11 : <' term copula term >'
   ⟨.none, 5, 205⟩,  -- 35  &embedded_11 : (' term copula term )'
   ⟨.statement, 1, 227⟩,  -- 36  statement : &embedded_11
   ⟨.statement_operation1, 4, 227⟩,  -- 37  statement : (' op &embedded_12* )'
   ⟨.none, 2, 203⟩,  -- 38  &embedded_12 : ,' term
   ⟨.none, 2, 202⟩,  -- 39  &embedded_12+ : &embedded_12+ &embedded_12
   ⟨.none, 1, 202⟩,  -- 40  &embedded_12+ : &embedded_12
   ⟨.none, 1, 201⟩,  -- 41  &embedded_12* : &embedded_12+
   ⟨.none, 0, 201⟩,  -- 42  &embedded_12* : 
   ⟨.statement_operation2, 5, 227⟩,  -- 43  statement : word (' term &embedded_13* )'
   ⟨.none, 2, 199⟩,  -- 44  &embedded_13 : ,' term
   ⟨.none, 2, 198⟩,  -- 45  &embedded_13+ : &embedded_13+ &embedded_13
   ⟨.none, 1, 198⟩,  -- 46  &embedded_13+ : &embedded_13
   ⟨.none, 1, 197⟩,  -- 47  &embedded_13* : &embedded_13+
   ⟨.none, 0, 197⟩,  -- 48  &embedded_13* : 
   ⟨.inheritance, 1, 206⟩,  -- 49  copula : -->'
   ⟨.similarity, 1, 206⟩,  -- 50  copula : <->'
   ⟨.«instance», 1, 206⟩,  -- 51  copula : {--'
   ⟨.property, 1, 206⟩,  -- 52  copula : --]'
   ⟨.instance_property, 1, 206⟩,  -- 53  copula : {-]'
   ⟨.implication, 1, 206⟩,  -- 54  copula : ==>'
   ⟨.predictive_implication, 1, 206⟩,  -- 55  copula : =/>'
   ⟨.concurrent_implication, 1, 206⟩,  -- 56  copula : =|>'
   ⟨.retrospective_implication, 1, 206⟩,  -- 57  copula : =\\>'
   ⟨.equivalence, 1, 206⟩,  -- 58  copula : <=>'
   ⟨.predictive_equivalence, 1, 206⟩,  -- 59  copula : </>'
   ⟨.concurrent_equivalence, 1, 206⟩,  -- 60  copula : <|>'
   ⟨.variable_term, 1, 207⟩,  -- 61  term : variable
   ⟨.none, 1, 207⟩,  -- 62  term : term_nonvar
   ⟨.none, 1, 228⟩,  -- 63  term_nonvar : interval
   ⟨.atom_term, 1, 228⟩,  -- 64  term_nonvar : word
   ⟨.compound_term, 1, 228⟩,  -- 65  term_nonvar : compound_term
   ⟨.statement_term, 1, 228⟩,  -- 66  term_nonvar : statement
   ⟨.none, 1, 228⟩,  -- 67  term_nonvar : op
   ⟨.operation, 2, 204⟩,  -- 68  op : ^' word
   ⟨.interval, 2, 195⟩,  -- 69  interval : +' integer'
   ⟨.none, 1, 194⟩,  -- 70  compound_term : set
   ⟨.none, 1, 194⟩,  -- 71  compound_term : multi
   ⟨.none, 1, 194⟩,  -- 72  compound_term : single
   ⟨.none, 1, 194⟩,  -- 73  compound_term : ext_image
   ⟨.none, 1, 194⟩,  -- 74  compound_term : int_image
   ⟨.none, 1, 194⟩,  -- 75  compound_term : negation
   ⟨.none, 1, 185⟩,  -- 76  &embedded_14 : int_set
   ⟨.none, 1, 185⟩,  -- 77  &embedded_14 : ext_set
   ⟨.«set», 1, 193⟩,  -- 78  set : &embedded_14
   ⟨.none, 4, 187⟩,  -- 79  int_set : con_int_set term &embedded_15* ]'
   ⟨.none, 2, 183⟩,  -- 80  &embedded_15 : ,' term
   ⟨.none, 2, 182⟩,  -- 81  &embedded_15+ : &embedded_15+ &embedded_15
   ⟨.none, 1, 182⟩,  -- 82  &embedded_15+ : &embedded_15
   ⟨.none, 1, 181⟩,  -- 83  &embedded_15* : &embedded_15+
   ⟨.none, 0, 181⟩,  -- 84  &embedded_15* : 
   ⟨.none, 4, 186⟩,  -- 85  ext_set : con_ext_set term &embedded_16* }'
   ⟨.none, 2, 179⟩,  -- 86  &embedded_16 : ,' term
   ⟨.none, 2, 178⟩,  -- 87  &embedded_16+ : &embedded_16+ &embedded_16
   ⟨.none, 1, 178⟩,  -- 88  &embedded_16+ : &embedded_16
   ⟨.none, 1, 177⟩,  -- 89  &embedded_16* : &embedded_16+
   ⟨.none, 0, 177⟩,  -- 90  &embedded_16* : 
   ⟨.none, 2, 175⟩,  -- 91  &embedded_17 : con_negation term
   ⟨.none, 5, 175⟩,  -- 92  &embedded_17 : (' con_negation ,' term )'
   ⟨.negation, 1, 188⟩,  -- 93  negation : &embedded_17
   ⟨.int_image, 6, 189⟩,  -- 94  int_image : (' con_int_image ,' term &embedded_18* )'
   ⟨.none, 2, 173⟩,  -- 95  &embedded_18 : ,' term
   ⟨.none, 2, 172⟩,  -- 96  &embedded_18+ : &embedded_18+ &embedded_18
   ⟨.none, 1, 172⟩,  -- 97  &embedded_18+ : &embedded_18
   ⟨.none, 1, 171⟩,  -- 98  &embedded_18* : &embedded_18+
   ⟨.none, 0, 171⟩,  -- 99  &embedded_18* : 
   ⟨.ext_image, 6, 190⟩,  -- 100  ext_image : (' con_ext_image ,' term &embedded_19* )'
   ⟨.none, 2, 169⟩,  -- 101  &embedded_19 : ,' term
   ⟨.none, 2, 168⟩,  -- 102  &embedded_19+ : &embedded_19+ &embedded_19
   ⟨.none, 1, 168⟩,  -- 103  &embedded_19+ : &embedded_19
   ⟨.none, 1, 167⟩,  -- 104  &embedded_19* : &embedded_19+
   ⟨.none, 0, 167⟩,  -- 105  &embedded_19* : 
   ⟨.multi_infix, 3, 192⟩,  -- 106  multi : (' multi_infix_expr )'
   ⟨.multi_prefix_product, 4, 192⟩,  -- 107  multi : (' term &embedded_20+ )'
   ⟨.none, 2, 165⟩,  -- 108  &embedded_20 : ,' term
   ⟨.none, 2, 164⟩,  -- 109  &embedded_20+ : &embedded_20+ &embedded_20
   ⟨.none, 1, 164⟩,  -- 110  &embedded_20+ : &embedded_20
   ⟨.none, 6, 156⟩,  -- 111  &embedded_23 : (' con_multi ,' term &embedded_21+ )'
   ⟨.none, 2, 162⟩,  -- 112  &embedded_21 : ,' term
   ⟨.none, 2, 161⟩,  -- 113  &embedded_21+ : &embedded_21+ &embedded_21
   ⟨.none, 1, 161⟩,  -- 114  &embedded_21+ : &embedded_21
   ⟨.none, 6, 156⟩,  -- 115  &embedded_23 : (' con_product ,' term &embedded_22* )'
   ⟨.none, 2, 159⟩,  -- 116  &embedded_22 : ,' term
   ⟨.none, 2, 158⟩,  -- 117  &embedded_22+ : &embedded_22+ &embedded_22
   ⟨.none, 1, 158⟩,  -- 118  &embedded_22+ : &embedded_22
   ⟨.none, 1, 157⟩,  -- 119  &embedded_22* : &embedded_22+
   ⟨.none, 0, 157⟩,  -- 120  &embedded_22* : 
   ⟨.multi_prefix, 1, 192⟩,  -- 121  multi : &embedded_23
   ⟨.single_prefix, 7, 191⟩,  -- 122  single : (' con_single ,' &embedded_24 ,' &embedded_25 )'
   ⟨.none, 1, 154⟩,  -- 123  &embedded_24 : term
   ⟨.none, 1, 154⟩,  -- 124  &embedded_24 : multi_infix_expr
   ⟨.none, 1, 153⟩,  -- 125  &embedded_25 : term
   ⟨.none, 1, 153⟩,  -- 126  &embedded_25 : multi_infix_expr
   ⟨.single_infix, 5, 191⟩,  -- 127  single : (' &embedded_26 con_single &embedded_27 )'
   ⟨.none, 1, 152⟩,  -- 128  &embedded_26 : term
   ⟨.none, 1, 152⟩,  -- 129  &embedded_26 : multi_infix_expr
   ⟨.none, 1, 151⟩,  -- 130  &embedded_27 : term
   ⟨.none, 1, 151⟩,  -- 131  &embedded_27 : multi_infix_expr
   ⟨.none, 1, 166⟩,  -- 132  multi_infix_expr : multi_extint_expr
   ⟨.none, 1, 166⟩,  -- 133  multi_infix_expr : multi_intint_expr
   ⟨.none, 1, 166⟩,  -- 134  multi_infix_expr : multi_parallel_expr
   ⟨.none, 1, 166⟩,  -- 135  multi_infix_expr : multi_sequential_expr
   ⟨.none, 1, 166⟩,  -- 136  multi_infix_expr : multi_conj_expr
   ⟨.none, 1, 166⟩,  -- 137  multi_infix_expr : multi_disj_expr
   ⟨.none, 1, 166⟩,  -- 138  multi_infix_expr : multi_prod_expr
   ⟨.multi_prod_expr, 2, 144⟩,  -- 139  multi_prod_expr : term &embedded_28+
   ⟨.none, 2, 143⟩,  -- 140  &embedded_28 : *' term
   ⟨.none, 2, 142⟩,  -- 141  &embedded_28+ : &embedded_28+ &embedded_28
   ⟨.none, 1, 142⟩,  -- 142  &embedded_28+ : &embedded_28
   ⟨.multi_disj_expr, 2, 145⟩,  -- 143  multi_disj_expr : term &embedded_29+
   ⟨.none, 2, 141⟩,  -- 144  &embedded_29 : ||' term
   ⟨.none, 2, 140⟩,  -- 145  &embedded_29+ : &embedded_29+ &embedded_29
   ⟨.none, 1, 140⟩,  -- 146  &embedded_29+ : &embedded_29
   ⟨.multi_conj_expr, 2, 146⟩,  -- 147  multi_conj_expr : term &embedded_30+
   ⟨.none, 2, 139⟩,  -- 148  &embedded_30 : &&' term
   ⟨.none, 2, 138⟩,  -- 149  &embedded_30+ : &embedded_30+ &embedded_30
   ⟨.none, 1, 138⟩,  -- 150  &embedded_30+ : &embedded_30
   ⟨.multi_sequential_expr, 2, 147⟩,  -- 151  multi_sequential_expr : term &embedded_31+
   ⟨.none, 2, 137⟩,  -- 152  &embedded_31 : &/' term
   ⟨.none, 2, 136⟩,  -- 153  &embedded_31+ : &embedded_31+ &embedded_31
   ⟨.none, 1, 136⟩,  -- 154  &embedded_31+ : &embedded_31
   ⟨.multi_parallel_expr, 2, 148⟩,  -- 155  multi_parallel_expr : term &embedded_32+
   ⟨.none, 2, 135⟩,  -- 156  &embedded_32 : &|' term
   ⟨.none, 2, 134⟩,  -- 157  &embedded_32+ : &embedded_32+ &embedded_32
   ⟨.none, 1, 134⟩,  -- 158  &embedded_32+ : &embedded_32
   ⟨.multi_intint_expr, 2, 149⟩,  -- 159  multi_intint_expr : term &embedded_33+
   ⟨.none, 2, 133⟩,  -- 160  &embedded_33 : |' term
   ⟨.none, 2, 132⟩,  -- 161  &embedded_33+ : &embedded_33+ &embedded_33
   ⟨.none, 1, 132⟩,  -- 162  &embedded_33+ : &embedded_33
   ⟨.multi_extint_expr, 2, 150⟩,  -- 163  multi_extint_expr : term &embedded_34+
   ⟨.none, 2, 131⟩,  -- 164  &embedded_34 : &' term
   ⟨.none, 2, 130⟩,  -- 165  &embedded_34+ : &embedded_34+ &embedded_34
   ⟨.none, 1, 130⟩,  -- 166  &embedded_34+ : &embedded_34
   ⟨.con_conjunction, 1, 163⟩,  -- 167  con_multi : &&'
   ⟨.con_disjunction, 1, 163⟩,  -- 168  con_multi : ||'
   ⟨.con_parallel_events, 1, 163⟩,  -- 169  con_multi : &|'
   ⟨.con_sequential_events, 1, 163⟩,  -- 170  con_multi : &/'
   ⟨.con_intensional_intersection, 1, 163⟩,  -- 171  con_multi : |'
   ⟨.con_extensional_intersection, 1, 163⟩,  -- 172  con_multi : &'
   ⟨.con_product, 1, 160⟩,  -- 173  con_product : *'
   ⟨.con_extensional_difference, 1, 155⟩,  -- 174  con_single : -'
   ⟨.con_intensional_difference, 1, 155⟩,  -- 175  con_single : ~'
   ⟨.con_int_set, 1, 184⟩,  -- 176  con_int_set : ['
   ⟨.con_ext_set, 1, 180⟩,  -- 177  con_ext_set : {'
   ⟨.con_negation, 1, 176⟩,  -- 178  con_negation : --'
   ⟨.con_int_image, 1, 174⟩,  -- 179  con_int_image : \\'
   ⟨.con_ext_image, 1, 170⟩,  -- 180  con_ext_image : /'
   ⟨.independent_var, 2, 196⟩,  -- 181  variable : $' word
   ⟨.dependent_var, 2, 196⟩,  -- 182  variable : #' word
   ⟨.query_var, 2, 196⟩,  -- 183  variable : ?' word
   ⟨.tense_time, 3, 225⟩,  -- 184  tense : :!' integer' :'
   ⟨.tense_future, 1, 225⟩,  -- 185  tense : :/:'
   ⟨.tense_present, 1, 225⟩,  -- 186  tense : :|:'
   ⟨.tense_past, 1, 225⟩,  -- 187  tense : :\\:'
   ⟨.none, 1, 213⟩,  -- 188  desire : truth
   ⟨.truth, 4, 222⟩,  -- 189  truth : %' frequency' &embedded_36? %'
   ⟨.none, 3, 127⟩,  -- 190  &embedded_36 : ;' confidence' &embedded_35?
   ⟨.none, 2, 129⟩,  -- 191  &embedded_35 : ;' k_evidence'
   ⟨.none, 1, 128⟩,  -- 192  &embedded_35? : &embedded_35
   ⟨.none, 0, 128⟩,  -- 193  &embedded_35? : 
   ⟨.none, 1, 126⟩,  -- 194  &embedded_36? : &embedded_36
   ⟨.none, 0, 126⟩,  -- 195  &embedded_36? : 
   ⟨.budget, 4, 232⟩,  -- 196  budget : $' priority' &embedded_38? $'
   ⟨.none, 3, 123⟩,  -- 197  &embedded_38 : ;' durability' &embedded_37?
   ⟨.none, 2, 125⟩,  -- 198  &embedded_37 : ;' quality'
   ⟨.none, 1, 124⟩,  -- 199  &embedded_37? : &embedded_37
   ⟨.none, 0, 124⟩,  -- 200  &embedded_37? : 
   ⟨.none, 1, 122⟩,  -- 201  &embedded_38? : &embedded_38
   ⟨.none, 0, 122⟩,  -- 202  &embedded_38? : 
   ⟨.none, 1, 121⟩,  -- 203  &embedded_39 : string'
   ⟨.none, 1, 121⟩,  -- 204  &embedded_39 : string_raw'
   ⟨.none, 1, 200⟩,  -- 205  word : &embedded_39
   ⟨.none, 2, 120⟩,  -- 206  task' : task ~&eof
   ⟨.none, 1, 119⟩,  -- 207  &whitespace : '\t '
   ⟨.none, 2, 118⟩,  -- 208  &whitespace+ : &whitespace+ &whitespace
   ⟨.none, 1, 118⟩,  -- 209  &whitespace+ : &whitespace
   ⟨.none, 1, 117⟩,  -- 210  &whitespace* : &whitespace+
   ⟨.none, 0, 117⟩,  -- 211  &whitespace* : 
   ⟨.none, 2, 116⟩,  -- 212  .' : "." &whitespace*
   ⟨.none, 2, 115⟩,  -- 213  ?' : "?" &whitespace*
   ⟨.none, 2, 114⟩,  -- 214  !' : "!" &whitespace*
   ⟨.none, 2, 113⟩,  -- 215  @' : "@" &whitespace*
   ⟨.none, 2, 112⟩,  -- 216  :!' : ":!" &whitespace*
   ⟨.none, 2, 111⟩,  -- 217  integer' : @integer &whitespace*
   ⟨.none, 2, 110⟩,  -- 218  :' : ":" &whitespace*
   ⟨.none, 2, 109⟩,  -- 219  :/:' : ":/:" &whitespace*
   ⟨.none, 2, 108⟩,  -- 220  :|:' : ":|:" &whitespace*
   ⟨.none, 2, 107⟩,  -- 221  :\\:' : ":\\:" &whitespace*
   ⟨.none, 2, 106⟩,  -- 222  (' : "(" &whitespace*
   ⟨.none, 2, 105⟩,  -- 223  )' : ")" &whitespace*
   ⟨.none, 2, 104⟩,  -- 224  ,' : "," &whitespace*
   ⟨.none, 2, 103⟩,  -- 225  $' : "$" &whitespace*
   ⟨.none, 2, 102⟩,  -- 226  #' : "#" &whitespace*
   ⟨.none, 2, 101⟩,  -- 227  string' : @string &whitespace*
   ⟨.none, 2, 100⟩,  -- 228  string_raw' : @string_raw &whitespace*
   ⟨.none, 2, 99⟩,  -- 229  ^' : "^" &whitespace*
   ⟨.none, 2, 98⟩,  -- 230  <' : "<" &whitespace*
   ⟨.none, 2, 97⟩,  -- 231  >' : ">" &whitespace*
   ⟨.none, 2, 96⟩,  -- 232  -->' : "-->" &whitespace*
   ⟨.none, 2, 95⟩,  -- 233  <->' : "<->" &whitespace*
   ⟨.none, 2, 94⟩,  -- 234  {--' : "{--" &whitespace*
   ⟨.none, 2, 93⟩,  -- 235  --]' : "--]" &whitespace*
   ⟨.none, 2, 92⟩,  -- 236  {-]' : "{-]" &whitespace*
   ⟨.none, 2, 91⟩,  -- 237  ==>' : "==>" &whitespace*
   ⟨.none, 2, 90⟩,  -- 238  =/>' : "=/>" &whitespace*
   ⟨.none, 2, 89⟩,  -- 239  =|>' : "=|>" &whitespace*
   ⟨.none, 2, 88⟩,  -- 240  =\\>' : "=\\>" &whitespace*
   ⟨.none, 2, 87⟩,  -- 241  <=>' : "<=>" &whitespace*
   ⟨.none, 2, 86⟩,  -- 242  </>' : "</>" &whitespace*
   ⟨.none, 2, 85⟩,  -- 243  <|>' : "<|>" &whitespace*
   ⟨.none, 2, 84⟩,  -- 244  --' : "--" &whitespace*
   ⟨.none, 2, 83⟩,  -- 245  \\' : "\\" &whitespace*
   ⟨.none, 2, 82⟩,  -- 246  /' : "/" &whitespace*
   ⟨.none, 2, 81⟩,  -- 247  *' : "*" &whitespace*
   ⟨.none, 2, 80⟩,  -- 248  ||' : "||" &whitespace*
   ⟨.none, 2, 79⟩,  -- 249  &&' : "&&" &whitespace*
   ⟨.none, 2, 78⟩,  -- 250  &/' : "&/" &whitespace*
   ⟨.none, 2, 77⟩,  -- 251  &|' : "&|" &whitespace*
   ⟨.none, 2, 76⟩,  -- 252  |' : "|" &whitespace*
   ⟨.none, 2, 75⟩,  -- 253  &' : "&" &whitespace*
   ⟨.none, 2, 74⟩,  -- 254  -' : "-" &whitespace*
   ⟨.none, 2, 73⟩,  -- 255  ~' : "~" &whitespace*
   ⟨.none, 2, 72⟩,  -- 256  }' : "}" &whitespace*
   ⟨.none, 2, 71⟩,  -- 257  {' : "{" &whitespace*
   ⟨.none, 2, 70⟩,  -- 258  ]' : "]" &whitespace*
   ⟨.none, 2, 69⟩,  -- 259  [' : "[" &whitespace*
   ⟨.none, 2, 68⟩,  -- 260  +' : "+" &whitespace*
   ⟨.none, 2, 67⟩,  -- 261  %' : "%" &whitespace*
   ⟨.none, 2, 66⟩,  -- 262  frequency' : @frequency &whitespace*
   ⟨.none, 2, 65⟩,  -- 263  ;' : ";" &whitespace*
   ⟨.none, 2, 64⟩,  -- 264  confidence' : @confidence &whitespace*
   ⟨.none, 2, 63⟩,  -- 265  k_evidence' : @k_evidence &whitespace*
   ⟨.none, 2, 62⟩,  -- 266  priority' : @priority &whitespace*
   ⟨.none, 2, 61⟩,  -- 267  durability' : @durability &whitespace*
   ⟨.none, 2, 60⟩,  -- 268  quality' : @quality &whitespace*
   ⟨.none, 2, 59⟩  -- 269  task'' : &whitespace* task'
  ]

/-- The right-hand sides, from the `definition` texts of `productions` (narsese.h:1034-1306). -/
def rhsTable : List (List Nat) :=
  [[232], [231], [], [230, 229], [228], [227], [226, 116, 223, 220], [225], [224], [], [222],
   [221], [], [228], [227], [219, 115, 217], [225], [218], [], [228], [227],
   [216, 114, 214, 211], [225], [215], [], [213], [212], [], [228], [227], [210, 113, 208],
   [225], [209], [], [98, 207, 206, 207, 97], [106, 207, 206, 207, 105], [205],
   [106, 204, 201, 105], [104, 207], [202, 203], [203], [202], [], [200, 106, 207, 197, 105],
   [104, 207], [198, 199], [199], [198], [], [96], [95], [94], [93], [92], [91], [90], [89],
   [88], [87], [86], [85], [196], [228], [195], [200], [194], [227], [204], [99, 200], [68, 111],
   [193], [192], [191], [190], [189], [188], [187], [186], [185], [184, 207, 181, 70],
   [104, 207], [182, 183], [183], [182], [], [180, 207, 177, 72], [104, 207], [178, 179], [179],
   [178], [], [176, 207], [106, 176, 104, 207, 105], [175], [106, 174, 104, 207, 171, 105],
   [104, 207], [172, 173], [173], [172], [], [106, 170, 104, 207, 167, 105], [104, 207],
   [168, 169], [169], [168], [], [106, 166, 105], [106, 207, 164, 105], [104, 207], [164, 165],
   [165], [106, 163, 104, 207, 161, 105], [104, 207], [161, 162], [162],
   [106, 160, 104, 207, 157, 105], [104, 207], [158, 159], [159], [158], [], [156],
   [106, 155, 104, 154, 104, 153, 105], [207], [166], [207], [166], [106, 152, 155, 151, 105],
   [207], [166], [207], [166], [150], [149], [148], [147], [146], [145], [144], [207, 142],
   [81, 207], [142, 143], [143], [207, 140], [80, 207], [140, 141], [141], [207, 138], [79, 207],
   [138, 139], [139], [207, 136], [78, 207], [136, 137], [137], [207, 134], [77, 207],
   [134, 135], [135], [207, 132], [76, 207], [132, 133], [133], [207, 130], [75, 207],
   [130, 131], [131], [79], [80], [77], [78], [76], [75], [81], [74], [73], [69], [71], [84],
   [83], [82], [103, 200], [102, 200], [115, 200], [112, 111, 110], [109], [108], [107], [222],
   [67, 66, 126, 67], [65, 64, 128], [65, 63], [129], [], [127], [], [103, 62, 122, 103],
   [65, 61, 124], [65, 60], [125], [], [123], [], [101], [100], [121], [233, 0], [58],
   [118, 119], [119], [118], [], [55, 117], [54, 117], [53, 117], [52, 117], [9, 117], [57, 117],
   [8, 117], [7, 117], [5, 117], [4, 117], [49, 117], [48, 117], [47, 117], [11, 117], [10, 117],
   [6, 117], [3, 117], [32, 117], [51, 117], [50, 117], [46, 117], [45, 117], [44, 117],
   [43, 117], [42, 117], [41, 117], [40, 117], [39, 117], [38, 117], [37, 117], [36, 117],
   [33, 117], [14, 117], [13, 117], [12, 117], [25, 117], [24, 117], [23, 117], [22, 117],
   [21, 117], [20, 117], [19, 117], [18, 117], [17, 117], [26, 117], [15, 117], [27, 117],
   [16, 117], [28, 117], [2, 117], [56, 117], [1, 117], [35, 117], [34, 117], [31, 117],
   [30, 117], [29, 117], [117, 120]]

end Cnars.Parser
