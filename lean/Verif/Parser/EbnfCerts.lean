import Verif.Parser.Ebnf

/-!
# Certificates for the grammar

Generated by `tools/gen_ebnf.py`; see `EbnfLemmas.lean` and `Regex.lean` for what they mean.
-/

namespace Cnars.Parser

/-- Residual expressions of the tokens. -/
def rxTable : List Rx :=
  [.seq (.cls [(0, 31), (39, 39), (48, 57), (65, 90), (95, 122), (127, 65535)]) (.star (.cls [(0, 31), (39, 39), (48, 57), (65, 90), (95, 122), (127, 65535)])),
   .cls [(91, 91)], .cls [(60, 60)], .cls [(36, 36)], .cls [(123, 123)],
   .seq (.cls [(45, 45)]) (.cls [(45, 45)]), .cls [(94, 94)], .cls [(40, 40)],
   .cls [(9, 9), (32, 32)], .cls [(43, 43)],
   .seq (.cls [(34, 34)]) (.seq (.star (.seq (.cls [(0, 33), (35, 91), (93, 65535)]) (.alt (.seq (.cls [(92, 92)]) (.cls [(34, 34), (92, 92)])) (.eps)))) (.cls [(34, 34)])),
   .eps, .star (.cls [(0, 31), (39, 39), (48, 57), (65, 90), (95, 122), (127, 65535)]),
   .seq (.star (.seq (.cls [(0, 33), (35, 91), (93, 65535)]) (.alt (.seq (.cls [(92, 92)]) (.cls [(34, 34), (92, 92)])) (.eps)))) (.cls [(34, 34)]),
   .cls [(34, 34)], .cls [(45, 45)],
   .seq (.seq (.alt (.seq (.cls [(92, 92)]) (.cls [(34, 34), (92, 92)])) (.eps)) (.star (.seq (.cls [(0, 33), (35, 91), (93, 65535)]) (.alt (.seq (.cls [(92, 92)]) (.cls [(34, 34), (92, 92)])) (.eps))))) (.cls [(34, 34)]),
   .seq (.seq (.cls [(34, 34), (92, 92)]) (.star (.seq (.cls [(0, 33), (35, 91), (93, 65535)]) (.alt (.seq (.cls [(92, 92)]) (.cls [(34, 34), (92, 92)])) (.eps))))) (.cls [(34, 34)]),
   .cls [(35, 35)], .cls [(62, 62)], .seq (.cls [(38, 38)]) (.cls [(124, 124)]),
   .cls [(124, 124)], .seq (.cls [(61, 61)]) (.seq (.cls [(47, 47)]) (.cls [(62, 62)])),
   .seq (.cls [(45, 45)]) (.seq (.cls [(45, 45)]) (.cls [(93, 93)])), .cls [(46, 46)],
   .cls [(37, 37)],
   .seq (.alt (.cls [(48, 48)]) (.eps)) (.seq (.cls [(46, 46)]) (.seq (.cls [(48, 57)]) (.star (.cls [(48, 57)])))),
   .seq (.cls [(60, 60)]) (.seq (.cls [(47, 47)]) (.cls [(62, 62)])),
   .seq (.cls [(46, 46)]) (.seq (.cls [(48, 57)]) (.star (.cls [(48, 57)]))),
   .seq (.cls [(61, 61)]) (.seq (.cls [(61, 61)]) (.cls [(62, 62)])), .cls [(41, 41)],
   .seq (.cls [(61, 61)]) (.seq (.cls [(92, 92)]) (.cls [(62, 62)])), .cls [(92, 92)],
   .cls [(44, 44)], .cls [(93, 93)],
   .seq (.cls [(61, 61)]) (.seq (.cls [(124, 124)]) (.cls [(62, 62)])),
   .seq (.cls [(60, 60)]) (.seq (.cls [(61, 61)]) (.cls [(62, 62)])),
   .seq (.cls [(58, 58)]) (.seq (.cls [(47, 47)]) (.cls [(58, 58)])), .cls [(63, 63)],
   .seq (.cls [(124, 124)]) (.cls [(124, 124)]),
   .seq (.cls [(123, 123)]) (.seq (.cls [(45, 45)]) (.cls [(93, 93)])),
   .seq (.cls [(123, 123)]) (.seq (.cls [(45, 45)]) (.cls [(45, 45)])),
   .seq (.cls [(60, 60)]) (.seq (.cls [(124, 124)]) (.cls [(62, 62)])),
   .seq (.alt (.cls [(45, 45)]) (.eps)) (.seq (.cls [(48, 57)]) (.star (.cls [(48, 57)]))),
   .cls [(125, 125)], .cls [(58, 58)],
   .seq (.cls [(45, 45)]) (.seq (.cls [(45, 45)]) (.cls [(62, 62)])), .cls [(42, 42)],
   .cls [(47, 47)], .cls [(64, 64)], .seq (.cls [(38, 38)]) (.cls [(47, 47)]),
   .seq (.cls [(49, 49)]) (.seq (.cls [(46, 46)]) (.star (.cls [(48, 48)]))),
   .seq (.cls [(58, 58)]) (.cls [(33, 33)]), .cls [(59, 59)], .cls [(126, 126)], .cls [(38, 38)],
   .cls [(33, 33)], .seq (.cls [(38, 38)]) (.cls [(38, 38)]),
   .seq (.cls [(60, 60)]) (.seq (.cls [(45, 45)]) (.cls [(62, 62)])),
   .seq (.cls [(58, 58)]) (.seq (.cls [(124, 124)]) (.cls [(58, 58)])),
   .seq (.cls [(58, 58)]) (.seq (.cls [(92, 92)]) (.cls [(58, 58)])),
   .seq (.cls [(45, 45)]) (.cls [(93, 93)]), .seq (.cls [(45, 45)]) (.cls [(62, 62)]),
   .seq (.cls [(47, 47)]) (.cls [(62, 62)]), .seq (.cls [(61, 61)]) (.cls [(62, 62)]),
   .seq (.cls [(124, 124)]) (.cls [(62, 62)]), .seq (.cls [(124, 124)]) (.cls [(58, 58)]),
   .seq (.cls [(47, 47)]) (.cls [(58, 58)]), .seq (.cls [(92, 92)]) (.cls [(58, 58)]),
   .seq (.cls [(48, 57)]) (.star (.cls [(48, 57)])),
   .seq (.cls [(46, 46)]) (.star (.cls [(48, 48)])), .star (.cls [(48, 57)]),
   .star (.cls [(48, 48)]), .seq (.cls [(92, 92)]) (.cls [(62, 62)]), .cls [(49, 49)],
   .cls [(48, 48)],
   .seq (.seq (.cls [(49, 57)]) (.star (.cls [(49, 57)]))) (.star (.cls [(48, 57)])),
   .seq (.alt (.cls [(48, 48)]) (.eps)) (.seq (.cls [(46, 46)]) (.seq (.star (.cls [(48, 48)])) (.seq (.seq (.cls [(49, 57)]) (.star (.cls [(49, 57)]))) (.star (.cls [(48, 57)]))))),
   .seq (.cls [(46, 46)]) (.seq (.star (.cls [(48, 48)])) (.seq (.seq (.cls [(49, 57)]) (.star (.cls [(49, 57)]))) (.star (.cls [(48, 57)])))),
   .seq (.star (.cls [(48, 48)])) (.seq (.seq (.cls [(49, 57)]) (.star (.cls [(49, 57)]))) (.star (.cls [(48, 57)])))]

/-- The expressions of the terminals, by symbol number. -/
def tokTable : List Rx :=
  [.eps, (.lit [';']), (.lit ['%']), .raw, (.lit [':', '\\', ':']), (.lit [':', '|', ':']),
   .quoted, (.lit [':', '/', ':']), (.lit [':']), (.lit [':', '!']), (.lit ['#']), (.lit ['$']),
   (.lit ['/']), (.lit ['\\']), (.lit ['-', '-']), (.lit ['{']), (.lit ['[']), (.lit ['~']),
   (.lit ['-']), (.lit ['&']), (.lit ['|']), (.lit ['&', '|']), (.lit ['&', '/']),
   (.lit ['&', '&']), (.lit ['|', '|']), (.lit ['*']), (.lit ['}']), (.lit [']']), (.lit ['+']),
   .unit, .openUnit, .unit, (.lit ['^']), (.lit ['<', '|', '>']), .posNat, .openUnit,
   (.lit ['<', '/', '>']), (.lit ['<', '=', '>']), (.lit ['=', '\\', '>']),
   (.lit ['=', '|', '>']), (.lit ['=', '/', '>']), (.lit ['=', '=', '>']), (.lit ['{', '-', ']']),
   (.lit ['-', '-', ']']), (.lit ['{', '-', '-']), (.lit ['<', '-', '>']), (.lit ['-', '-', '>']),
   (.lit [',']), (.lit [')']), (.lit ['(']), (.lit ['>']), (.lit ['<']), (.lit ['@']),
   (.lit ['!']), (.lit ['?']), (.lit ['.']), .unit, .int, .blank]

def rxCert0 : MachineCert :=
  [[(3, 0), (6, 10), (11, 3), (14, 5), (15, 4), (16, 1), (28, 9), (32, 6), (49, 7), (51, 2), (58, 8)],
   [(28, 11)], [(49, 11)], [(51, 11)], [(32, 11)], [(11, 11)], [(16, 11)], [(15, 11)], [(3, 12)],
   [(58, 11)], [(6, 11)], [(14, 11)], [(6, 13), (6, 14)], [(14, 15)], [(6, 14), (6, 16)],
   [(6, 17)], [(6, 13)]]

def rxCert1 : MachineCert :=
  [[(1, 53), (2, 25), (3, 0), (4, 60), (5, 59), (6, 10), (7, 37), (8, 45), (9, 52), (10, 18), (11, 3), (12, 48), (13, 32), (14, 5), (15, 4), (16, 1), (17, 54), (18, 15), (19, 55), (20, 21), (21, 20), (22, 50), (23, 57), (24, 39), (25, 47), (26, 44), (27, 34), (28, 9), (29, 26), (29, 28), (29, 51), (32, 6), (33, 42), (36, 27), (37, 36), (38, 31), (39, 35), (40, 22), (41, 29), (42, 40), (43, 23), (44, 41), (45, 58), (46, 46), (47, 33), (48, 30), (49, 7), (50, 19), (51, 2), (52, 49), (53, 56), (54, 38), (55, 24), (57, 43), (58, 8)],
   [(28, 11)], [(49, 11)], [(32, 11)], [(11, 11)], [(16, 11)], [(10, 11)], [(54, 11)], [(17, 11)],
   [(12, 11)], [(13, 11)], [(20, 11), (24, 21)], [(19, 11), (21, 21), (22, 48), (23, 55)],
   [(25, 11)], [(53, 11)], [(52, 11)], [(47, 11)], [(27, 11)], [(26, 11)],
   [(15, 11), (42, 61), (44, 5)], [(33, 65), (36, 63), (37, 64), (45, 62), (51, 11)], [(48, 11)],
   [(1, 11)], [(2, 11)], [(4, 68), (5, 66), (7, 67), (8, 11), (9, 56)], [(50, 11)],
   [(14, 15), (18, 11), (43, 61), (46, 62), (57, 69)], [(3, 12), (29, 70)], [(29, 69), (55, 11)],
   [(58, 11)], [(6, 11)], [(24, 11)], [(21, 11)], [(22, 11)], [(23, 11)], [(9, 11)], [(57, 71)],
   [(14, 11), (43, 34), (46, 19)], [(29, 72)], [(42, 11)], [(44, 11)], [(39, 11)], [(38, 11)],
   [(41, 11)], [(40, 11)], [(37, 11)], [(36, 11)], [(33, 11)], [(45, 11)], [(7, 11)], [(5, 11)],
   [(4, 11)], [(43, 11)], [(46, 11)], [(6, 13), (6, 14)], [(3, 12), (29, 28)], [(29, 71)],
   [(38, 73), (39, 65), (40, 63), (41, 64)], [(3, 12)], [(29, 71)], [(6, 14), (6, 16)], [(3, 12)],
   [(42, 34), (44, 15)], [(3, 12)], [(39, 19)], [(3, 12)], [(38, 19)], [(41, 19)], [(40, 19)],
   [(37, 19)], [(36, 19)], [(33, 19)], [(45, 19)], [(7, 45)], [(5, 45)], [(4, 45)], [(29, 69)],
   [(6, 17)], [(6, 13)], [(29, 71)]]

def rxCert2 : MachineCert :=
  [[(3, 0), (6, 10), (11, 3), (14, 5), (15, 4), (16, 1), (28, 9), (32, 6), (49, 7), (51, 2)],
   [(28, 11)], [(49, 11)], [(51, 11)], [(32, 11)], [(16, 11)], [(15, 11)], [(3, 12)], [(11, 11)],
   [(14, 11)], [(6, 11)], [(14, 15)], [(6, 13), (6, 14)], [(6, 14), (6, 16)], [(6, 17)], [(6, 13)]]

def rxCert3 : MachineCert :=
  [[(3, 0), (6, 10), (14, 5), (15, 4), (16, 1), (28, 9), (32, 6), (49, 7), (51, 2)], [(32, 11)],
   [(16, 11)], [(15, 11)], [(3, 12)], [(51, 11)], [(28, 11)], [(49, 11)], [(14, 11)], [(6, 11)],
   [(14, 15)], [(6, 13), (6, 14)], [(6, 14), (6, 16)], [(6, 17)], [(6, 13)]]

def rxCert4 : MachineCert :=
  [[(3, 0), (6, 10), (14, 5), (15, 4), (16, 1), (28, 9), (31, 26), (31, 28), (31, 51), (32, 6), (49, 7), (51, 2), (58, 8)],
   [(28, 11)], [(49, 11)], [(51, 11)], [(32, 11)], [(16, 11)], [(15, 11)], [(3, 12), (31, 28)],
   [(58, 11)], [(6, 11)], [(14, 11)], [(31, 72)], [(6, 13), (6, 14)], [(3, 12), (31, 70)],
   [(31, 71)], [(14, 15)], [(3, 12)], [(31, 69)], [(6, 14), (6, 16)], [(6, 17)], [(6, 13)]]

def rxCert5 : MachineCert :=
  [[(31, 26), (31, 51), (31, 74), (31, 75)], [(31, 11), (31, 70)], [(31, 69)],
   [(31, 11), (31, 28)], [(31, 72)], [(31, 71)]]

def rxCert6 : MachineCert :=
  [[(52, 49), (53, 56), (54, 38), (55, 24)], [(54, 11)], [(52, 11)], [(55, 11)], [(53, 11)]]

def rxCert7 : MachineCert :=
  [[(55, 24)], [(55, 11)]]

def rxCert8 : MachineCert :=
  [[(54, 38)], [(54, 11)]]

def rxCert9 : MachineCert :=
  [[(53, 56)], [(53, 11)]]

def rxCert10 : MachineCert :=
  [[(52, 49)], [(52, 11)]]

def rxCert11 : MachineCert :=
  [[(3, 0), (6, 10), (10, 18), (11, 3), (14, 5), (15, 4), (16, 1), (28, 9), (32, 6), (49, 7), (51, 2), (54, 38), (58, 8)],
   [(11, 11)], [(10, 11)], [(54, 11)], [(28, 11)], [(49, 11)], [(51, 11)], [(32, 11)], [(16, 11)],
   [(15, 11)], [(3, 12)], [(58, 11)], [(6, 11)], [(14, 11)], [(6, 13), (6, 14)], [(14, 15)],
   [(6, 14), (6, 16)], [(6, 17)], [(6, 13)]]

def rxCert12 : MachineCert :=
  [[(3, 0), (6, 10), (10, 18), (11, 3), (12, 48), (13, 32), (14, 5), (15, 4), (16, 1), (17, 54), (18, 15), (19, 55), (20, 21), (21, 20), (22, 50), (23, 57), (24, 39), (25, 47), (28, 9), (32, 6), (49, 7), (51, 2), (54, 38), (58, 8)],
   [(32, 11)], [(11, 11)], [(10, 11)], [(54, 11)], [(28, 11)], [(49, 11)], [(51, 11)], [(16, 11)],
   [(15, 11)], [(14, 15), (18, 11)], [(17, 11)], [(12, 11)], [(13, 11)], [(20, 11), (24, 21)],
   [(19, 11), (21, 21), (22, 48), (23, 55)], [(25, 11)], [(3, 12)], [(58, 11)], [(6, 11)],
   [(14, 11)], [(24, 11)], [(21, 11)], [(22, 11)], [(23, 11)], [(6, 13), (6, 14)],
   [(6, 14), (6, 16)], [(6, 17)], [(6, 13)]]

def rxCert13 : MachineCert :=
  [[(17, 54), (18, 15), (19, 55), (20, 21), (21, 20), (22, 50), (23, 57), (24, 39), (25, 47), (26, 44), (27, 34), (33, 42), (36, 27), (37, 36), (38, 31), (39, 35), (40, 22), (41, 29), (42, 40), (43, 23), (44, 41), (45, 58), (46, 46), (47, 33), (48, 30), (49, 7), (50, 19), (52, 49), (53, 56), (54, 38), (55, 24)],
   [(55, 11)], [(54, 11)], [(52, 11)], [(47, 11)], [(27, 11)], [(26, 11)],
   [(18, 11), (43, 61), (46, 62)], [(17, 11)], [(20, 11), (24, 21)], [(25, 11)], [(48, 11)],
   [(50, 11)], [(49, 11)], [(19, 11), (21, 21), (22, 48), (23, 55)], [(53, 11)], [(24, 11)],
   [(21, 11)], [(22, 11)], [(23, 11)], [(42, 11)], [(44, 11)], [(39, 11)], [(38, 11)], [(41, 11)],
   [(40, 11)], [(37, 11)], [(36, 11)], [(33, 11)], [(45, 11)], [(43, 11)], [(46, 11)],
   [(42, 61), (44, 5)], [(38, 73), (39, 65), (40, 63), (41, 64)],
   [(33, 65), (36, 63), (37, 64), (45, 62)], [(42, 34), (44, 15)], [(39, 19)], [(38, 19)],
   [(41, 19)], [(40, 19)], [(37, 19)], [(36, 19)], [(33, 19)], [(45, 19)], [(43, 34), (46, 19)]]

def rxCert14 : MachineCert :=
  [[(3, 0), (6, 10), (58, 8)], [(3, 12)], [(58, 11)], [(6, 11)], [(6, 13), (6, 14)],
   [(6, 14), (6, 16)], [(6, 17)], [(6, 13)]]

def rxCert15 : MachineCert :=
  [[(57, 43), (57, 69), (58, 8)], [(57, 71)], [(58, 11)], [(57, 69)]]

def rxCert16 : MachineCert :=
  [[(3, 0), (6, 10), (10, 18), (11, 3), (14, 5), (15, 4), (16, 1), (28, 9), (32, 6), (49, 7), (51, 2), (54, 38)],
   [(32, 11)], [(16, 11)], [(15, 11)], [(3, 12)], [(54, 11)], [(51, 11)], [(28, 11)], [(49, 11)],
   [(11, 11)], [(10, 11)], [(14, 11)], [(6, 11)], [(14, 15)], [(6, 13), (6, 14)],
   [(6, 14), (6, 16)], [(6, 17)], [(6, 13)]]

def rxCert17 : MachineCert :=
  [[(3, 0), (6, 10), (10, 18), (11, 3), (14, 5), (15, 4), (16, 1), (28, 9), (32, 6), (47, 33), (49, 7), (51, 2), (54, 38), (58, 8)],
   [(11, 11)], [(10, 11)], [(54, 11)], [(28, 11)], [(49, 11)], [(51, 11)], [(32, 11)], [(16, 11)],
   [(15, 11)], [(47, 11)], [(3, 12)], [(58, 11)], [(6, 11)], [(14, 11)], [(6, 13), (6, 14)],
   [(14, 15)], [(6, 14), (6, 16)], [(6, 17)], [(6, 13)]]

def rxCert18 : MachineCert :=
  [[(17, 54), (18, 15), (19, 55), (20, 21), (21, 20), (22, 50), (23, 57), (24, 39), (25, 47), (26, 44), (27, 34), (33, 42), (36, 27), (37, 36), (38, 31), (39, 35), (40, 22), (41, 29), (42, 40), (43, 23), (44, 41), (45, 58), (46, 46), (47, 33), (48, 30), (49, 7), (50, 19), (52, 49), (53, 56), (54, 38), (55, 24), (58, 8)],
   [(55, 11)], [(54, 11)], [(53, 11)], [(52, 11)], [(49, 11)], [(47, 11)], [(27, 11)], [(26, 11)],
   [(18, 11), (43, 61), (46, 62)], [(17, 11)], [(20, 11), (24, 21)],
   [(19, 11), (21, 21), (22, 48), (23, 55)], [(25, 11)], [(48, 11)], [(50, 11)], [(58, 11)],
   [(24, 11)], [(21, 11)], [(22, 11)], [(23, 11)], [(42, 11)], [(44, 11)], [(39, 11)], [(38, 11)],
   [(41, 11)], [(40, 11)], [(37, 11)], [(36, 11)], [(33, 11)], [(45, 11)], [(43, 11)], [(46, 11)],
   [(42, 61), (44, 5)], [(38, 73), (39, 65), (40, 63), (41, 64)],
   [(33, 65), (36, 63), (37, 64), (45, 62)], [(42, 34), (44, 15)], [(39, 19)], [(38, 19)],
   [(41, 19)], [(40, 19)], [(37, 19)], [(36, 19)], [(33, 19)], [(45, 19)], [(43, 34), (46, 19)]]

def rxCert19 : MachineCert :=
  [[(3, 0), (6, 10), (10, 18), (11, 3), (12, 48), (13, 32), (14, 5), (15, 4), (16, 1), (17, 54), (18, 15), (19, 55), (20, 21), (21, 20), (22, 50), (23, 57), (24, 39), (25, 47), (28, 9), (32, 6), (49, 7), (51, 2), (54, 38)],
   [(32, 11)], [(20, 11), (24, 21)], [(17, 11)], [(16, 11)], [(15, 11)], [(13, 11)], [(3, 12)],
   [(54, 11)], [(51, 11)], [(12, 11)], [(14, 15), (18, 11)], [(28, 11)], [(25, 11)], [(49, 11)],
   [(19, 11), (21, 21), (22, 48), (23, 55)], [(11, 11)], [(10, 11)], [(24, 11)], [(14, 11)],
   [(22, 11)], [(21, 11)], [(23, 11)], [(6, 11)], [(6, 13), (6, 14)], [(6, 14), (6, 16)],
   [(6, 17)], [(6, 13)]]

def rxCert20 : MachineCert :=
  [[(3, 0), (6, 10)], [(3, 12)], [(6, 11)], [(6, 13), (6, 14)], [(6, 14), (6, 16)], [(6, 17)],
   [(6, 13)]]

def rxCert21 : MachineCert :=
  [[(57, 43), (57, 69)], [(57, 71)], [(57, 69)]]

def rxCert22 : MachineCert :=
  [[(1, 53), (11, 3), (58, 8)], [(1, 11)], [(11, 11)], [(58, 11)]]

def rxCert23 : MachineCert :=
  [[(1, 53), (11, 3)], [(1, 11)], [(11, 11)]]

def rxCert24 : MachineCert :=
  [[(2, 25), (4, 60), (5, 59), (7, 37), (9, 52), (58, 8)], [(2, 11)], [(58, 11)], [(9, 11)],
   [(7, 11)], [(5, 11)], [(4, 11)], [(4, 68), (5, 66), (7, 67), (9, 56)], [(7, 45)], [(5, 45)],
   [(4, 45)]]

def rxCert25 : MachineCert :=
  [[(2, 25), (4, 60), (5, 59), (7, 37), (9, 52)], [(2, 11)], [(9, 11)], [(7, 11)], [(5, 11)],
   [(4, 11)], [(4, 68), (5, 66), (7, 67), (9, 56)], [(7, 45)], [(5, 45)], [(4, 45)]]

def rxCert26 : MachineCert :=
  [[(3, 0), (4, 60), (5, 59), (6, 10), (7, 37), (9, 52), (58, 8)], [(3, 12)], [(58, 11)],
   [(9, 11)], [(6, 11)], [(7, 11)], [(5, 11)], [(4, 11)], [(4, 68), (5, 66), (7, 67), (9, 56)],
   [(6, 13), (6, 14)], [(7, 45)], [(5, 45)], [(4, 45)], [(6, 14), (6, 16)], [(6, 17)], [(6, 13)]]

def rxCert27 : MachineCert :=
  [[(4, 60), (5, 59), (7, 37), (9, 52)], [(9, 11)], [(7, 11)], [(5, 11)], [(4, 11)],
   [(4, 68), (5, 66), (7, 67), (9, 56)], [(7, 45)], [(5, 45)], [(4, 45)]]

def rxCert28 : MachineCert :=
  [[(4, 60), (5, 59), (7, 37), (9, 52), (58, 8)], [(58, 11)], [(9, 11)], [(7, 11)], [(5, 11)],
   [(4, 11)], [(4, 68), (5, 66), (7, 67), (9, 56)], [(7, 45)], [(5, 45)], [(4, 45)]]

def rxCert29 : MachineCert :=
  [[(27, 34), (47, 33)], [(27, 11)], [(47, 11)]]

def rxCert30 : MachineCert :=
  [[(26, 44), (47, 33)], [(26, 11)], [(47, 11)]]

def rxCert31 : MachineCert :=
  [[(17, 54), (18, 15), (19, 55), (20, 21), (21, 20), (22, 50), (23, 57), (24, 39), (25, 47), (33, 42), (36, 27), (37, 36), (38, 31), (39, 35), (40, 22), (41, 29), (42, 40), (43, 23), (44, 41), (45, 58), (46, 46), (47, 33)],
   [(20, 11), (24, 21)], [(18, 11), (43, 61), (46, 62)], [(17, 11)], [(47, 11)], [(25, 11)],
   [(19, 11), (21, 21), (22, 48), (23, 55)], [(24, 11)], [(22, 11)], [(21, 11)], [(23, 11)],
   [(42, 11)], [(44, 11)], [(39, 11)], [(38, 11)], [(41, 11)], [(40, 11)], [(37, 11)], [(36, 11)],
   [(33, 11)], [(45, 11)], [(43, 11)], [(46, 11)], [(42, 61), (44, 5)],
   [(38, 73), (39, 65), (40, 63), (41, 64)], [(33, 65), (36, 63), (37, 64), (45, 62)],
   [(42, 34), (44, 15)], [(39, 19)], [(38, 19)], [(41, 19)], [(40, 19)], [(37, 19)], [(36, 19)],
   [(33, 19)], [(45, 19)], [(43, 34), (46, 19)]]

def rxCert32 : MachineCert :=
  [[(17, 54), (18, 15), (19, 55), (20, 21), (21, 20), (22, 50), (23, 57), (24, 39), (25, 47), (33, 42), (36, 27), (37, 36), (38, 31), (39, 35), (40, 22), (41, 29), (42, 40), (43, 23), (44, 41), (45, 58), (46, 46), (47, 33), (48, 30)],
   [(18, 11), (43, 61), (46, 62)], [(17, 11)], [(20, 11), (24, 21)], [(47, 11)], [(25, 11)],
   [(48, 11)], [(19, 11), (21, 21), (22, 48), (23, 55)], [(24, 11)], [(21, 11)], [(22, 11)],
   [(23, 11)], [(42, 11)], [(44, 11)], [(39, 11)], [(38, 11)], [(41, 11)], [(40, 11)], [(37, 11)],
   [(36, 11)], [(33, 11)], [(45, 11)], [(43, 11)], [(46, 11)], [(42, 61), (44, 5)],
   [(38, 73), (39, 65), (40, 63), (41, 64)], [(33, 65), (36, 63), (37, 64), (45, 62)],
   [(42, 34), (44, 15)], [(39, 19)], [(38, 19)], [(41, 19)], [(40, 19)], [(37, 19)], [(36, 19)],
   [(33, 19)], [(45, 19)], [(43, 34), (46, 19)]]

def rxCert33 : MachineCert :=
  [[(3, 0), (6, 10), (10, 18), (11, 3), (14, 5), (15, 4), (16, 1), (28, 9), (32, 6), (47, 33), (49, 7), (51, 2), (54, 38)],
   [(32, 11)], [(16, 11)], [(15, 11)], [(3, 12)], [(54, 11)], [(51, 11)], [(47, 11)], [(28, 11)],
   [(49, 11)], [(11, 11)], [(10, 11)], [(14, 11)], [(6, 11)], [(14, 15)], [(6, 13), (6, 14)],
   [(6, 14), (6, 16)], [(6, 17)], [(6, 13)]]

def rxCert34 : MachineCert :=
  [[(47, 33)], [(47, 11)]]

def rxCert35 : MachineCert :=
  [[(17, 54), (18, 15), (48, 30)], [(18, 11)], [(17, 11)], [(48, 11)]]

def rxCert36 : MachineCert :=
  [[(17, 54), (18, 15)], [(17, 11)], [(18, 11)]]

def rxCert37 : MachineCert :=
  [[(3, 0), (6, 10), (10, 18), (11, 3), (14, 5), (15, 4), (16, 1), (28, 9), (32, 6), (47, 33), (49, 7), (51, 2), (54, 38), (58, 8)],
   [(47, 11)], [(11, 11)], [(10, 11)], [(54, 11)], [(28, 11)], [(49, 11)], [(51, 11)], [(32, 11)],
   [(16, 11)], [(15, 11)], [(3, 12)], [(58, 11)], [(6, 11)], [(14, 11)], [(6, 13), (6, 14)],
   [(14, 15)], [(6, 14), (6, 16)], [(6, 17)], [(6, 13)]]

def rxCert38 : MachineCert :=
  [[(47, 33), (58, 8)], [(47, 11)], [(58, 11)]]

def rxCert39 : MachineCert :=
  [[(33, 42), (36, 27), (37, 36), (38, 31), (39, 35), (40, 22), (41, 29), (42, 40), (43, 23), (44, 41), (45, 58), (46, 46)],
   [(42, 11)], [(44, 11)], [(39, 11)], [(38, 11)], [(41, 11)], [(40, 11)], [(37, 11)], [(36, 11)],
   [(33, 11)], [(45, 11)], [(43, 11)], [(46, 11)], [(42, 61), (44, 5)],
   [(38, 73), (39, 65), (40, 63), (41, 64)], [(33, 65), (36, 63), (37, 64), (45, 62)],
   [(42, 34), (44, 15)], [(39, 19)], [(38, 19)], [(41, 19)], [(40, 19)], [(37, 19)], [(36, 19)],
   [(33, 19)], [(45, 19)], [(43, 34), (46, 19)], [(43, 61), (46, 62)]]

def rxCert40 : MachineCert :=
  [[(8, 45), (17, 54), (18, 15), (19, 55), (20, 21), (21, 20), (22, 50), (23, 57), (24, 39), (25, 47), (26, 44), (27, 34), (33, 42), (36, 27), (37, 36), (38, 31), (39, 35), (40, 22), (41, 29), (42, 40), (43, 23), (44, 41), (45, 58), (46, 46), (47, 33), (48, 30), (50, 19), (52, 49), (53, 56), (54, 38), (55, 24), (58, 8)],
   [(55, 11)], [(54, 11)], [(53, 11)], [(52, 11)], [(47, 11)], [(27, 11)], [(26, 11)],
   [(18, 11), (43, 61), (46, 62)], [(17, 11)], [(20, 11), (24, 21)],
   [(19, 11), (21, 21), (22, 48), (23, 55)], [(25, 11)], [(48, 11)], [(8, 11)], [(50, 11)],
   [(58, 11)], [(24, 11)], [(21, 11)], [(22, 11)], [(23, 11)], [(42, 11)], [(44, 11)], [(39, 11)],
   [(38, 11)], [(41, 11)], [(40, 11)], [(37, 11)], [(36, 11)], [(33, 11)], [(45, 11)], [(43, 11)],
   [(46, 11)], [(42, 61), (44, 5)], [(38, 73), (39, 65), (40, 63), (41, 64)],
   [(33, 65), (36, 63), (37, 64), (45, 62)], [(42, 34), (44, 15)], [(39, 19)], [(38, 19)],
   [(41, 19)], [(40, 19)], [(37, 19)], [(36, 19)], [(33, 19)], [(45, 19)], [(43, 34), (46, 19)]]

def rxCert41 : MachineCert :=
  [[(29, 26), (29, 51), (29, 74), (29, 75), (34, 76), (58, 8)], [(29, 11), (29, 70), (34, 71)],
   [(34, 71)], [(58, 11)], [(29, 69)], [(29, 11), (29, 28)], [(34, 71)], [(29, 72)], [(29, 71)],
   [(29, 71)], [(29, 71)]]

def rxCert42 : MachineCert :=
  [[(11, 3)], [(11, 11)]]

def rxCert43 : MachineCert :=
  [[(30, 77), (30, 78)], [(30, 71)], [(30, 78)], [(30, 71)], [(30, 76), (30, 79)]]

def rxCert44 : MachineCert :=
  [[(2, 25)], [(2, 11)]]

def rxCert45 : MachineCert :=
  [[(2, 25), (58, 8)], [(2, 11)], [(58, 11)]]

def rxCert46 : MachineCert :=
  [[(47, 33), (48, 30)], [(47, 11)], [(48, 11)]]

def rxCert47 : MachineCert :=
  [[(27, 34)], [(27, 11)]]

def rxCert48 : MachineCert :=
  [[(26, 44)], [(26, 11)]]

def rxCert49 : MachineCert :=
  [[(17, 54), (18, 15), (25, 47), (47, 33), (48, 30)], [(18, 11)], [(17, 11)], [(47, 11)],
   [(25, 11)], [(48, 11)]]

def rxCert50 : MachineCert :=
  [[(17, 54), (18, 15), (24, 39), (47, 33), (48, 30)], [(17, 11)], [(18, 11)], [(47, 11)],
   [(48, 11)], [(24, 11)], [(24, 21)]]

def rxCert51 : MachineCert :=
  [[(17, 54), (18, 15), (23, 57), (47, 33), (48, 30)], [(48, 11)], [(18, 11)], [(17, 11)],
   [(47, 11)], [(23, 11)], [(23, 55)]]

def rxCert52 : MachineCert :=
  [[(17, 54), (18, 15), (22, 50), (47, 33), (48, 30)], [(48, 11)], [(18, 11)], [(17, 11)],
   [(47, 11)], [(22, 11)], [(22, 48)]]

def rxCert53 : MachineCert :=
  [[(17, 54), (18, 15), (21, 20), (47, 33), (48, 30)], [(48, 11)], [(18, 11)], [(17, 11)],
   [(47, 11)], [(21, 11)], [(21, 21)]]

def rxCert54 : MachineCert :=
  [[(17, 54), (18, 15), (20, 21), (47, 33), (48, 30)], [(17, 11)], [(20, 11)], [(18, 11)],
   [(47, 11)], [(48, 11)]]

def rxCert55 : MachineCert :=
  [[(17, 54), (18, 15), (19, 55), (47, 33), (48, 30)], [(48, 11)], [(18, 11)], [(17, 11)],
   [(47, 11)], [(19, 11)]]

def rxCert56 : MachineCert :=
  [[(48, 30)], [(48, 11)]]

def rxCert57 : MachineCert :=
  [[(17, 54), (18, 15), (19, 55), (20, 21), (21, 20), (22, 50), (23, 57), (24, 39), (25, 47), (26, 44), (27, 34), (33, 42), (36, 27), (37, 36), (38, 31), (39, 35), (40, 22), (41, 29), (42, 40), (43, 23), (44, 41), (45, 58), (46, 46), (47, 33), (48, 30), (50, 19), (52, 49), (53, 56), (54, 38), (55, 24), (58, 8)],
   [(55, 11)], [(54, 11)], [(53, 11)], [(52, 11)], [(47, 11)], [(27, 11)], [(26, 11)],
   [(18, 11), (43, 61), (46, 62)], [(17, 11)], [(20, 11), (24, 21)],
   [(19, 11), (21, 21), (22, 48), (23, 55)], [(25, 11)], [(48, 11)], [(50, 11)], [(58, 11)],
   [(24, 11)], [(21, 11)], [(22, 11)], [(23, 11)], [(42, 11)], [(44, 11)], [(39, 11)], [(38, 11)],
   [(41, 11)], [(40, 11)], [(37, 11)], [(36, 11)], [(33, 11)], [(45, 11)], [(43, 11)], [(46, 11)],
   [(42, 61), (44, 5)], [(38, 73), (39, 65), (40, 63), (41, 64)],
   [(33, 65), (36, 63), (37, 64), (45, 62)], [(42, 34), (44, 15)], [(39, 19)], [(38, 19)],
   [(41, 19)], [(40, 19)], [(37, 19)], [(36, 19)], [(33, 19)], [(45, 19)], [(43, 34), (46, 19)]]

def rxCert58 : MachineCert :=
  [[(56, 26), (56, 28), (56, 51), (56, 74), (56, 75), (58, 8)], [(56, 11), (56, 28)], [(58, 11)],
   [(56, 69)], [(56, 11), (56, 70)], [(56, 72)], [(56, 71)]]

def rxCert59 : MachineCert :=
  [[(56, 26), (56, 51), (56, 74), (56, 75)], [(56, 11), (56, 70)], [(56, 69)],
   [(56, 11), (56, 28)], [(56, 72)], [(56, 71)]]

def rxCert60 : MachineCert :=
  [[(8, 45)], [(8, 11)]]

def rxCert61 : MachineCert :=
  [[(19, 55), (20, 21), (21, 20), (22, 50), (23, 57), (24, 39), (25, 47), (47, 33)],
   [(20, 11), (24, 21)], [(47, 11)], [(25, 11)], [(19, 11), (21, 21), (22, 48), (23, 55)],
   [(24, 11)], [(22, 11)], [(21, 11)], [(23, 11)]]

def rxCert62 : MachineCert :=
  [[(19, 55), (20, 21), (21, 20), (22, 50), (23, 57), (24, 39), (25, 47), (48, 30)],
   [(20, 11), (24, 21)], [(25, 11)], [(48, 11)], [(19, 11), (21, 21), (22, 48), (23, 55)],
   [(24, 11)], [(22, 11)], [(21, 11)], [(23, 11)]]

def rxCert63 : MachineCert :=
  [[(50, 19)], [(50, 11)]]

def rxCert64 : MachineCert :=
  [[(29, 26), (29, 51), (29, 74), (29, 75)], [(29, 11), (29, 70)], [(29, 69)],
   [(29, 11), (29, 28)], [(29, 72)], [(29, 71)]]

def rxCert65 : MachineCert :=
  [[(1, 53), (2, 25), (58, 8)], [(1, 11)], [(2, 11)], [(58, 11)]]

def rxCert66 : MachineCert :=
  [[(1, 53), (2, 25)], [(1, 11)], [(2, 11)]]

def rxCert67 : MachineCert :=
  [[(11, 3), (58, 8)], [(11, 11)], [(58, 11)]]

def rxCert68 : MachineCert :=
  [[(35, 77), (35, 78)], [(35, 71)], [(35, 78)], [(35, 71)], [(35, 76), (35, 79)]]

def rxCert69 : MachineCert :=
  [[(34, 76)], [(34, 71)], [(34, 71)]]

/-- Per state of every machine. -/
def rxCerts : List MachineCert :=
  [rxCert0, rxCert1, rxCert2, rxCert3, rxCert4, rxCert5, rxCert6, rxCert7, rxCert8, rxCert9,
   rxCert10, rxCert11, rxCert12, rxCert13, rxCert14, rxCert15, rxCert16, rxCert17, rxCert18,
   rxCert19, rxCert20, rxCert21, rxCert22, rxCert23, rxCert24, rxCert25, rxCert26, rxCert27,
   rxCert28, rxCert29, rxCert30, rxCert31, rxCert32, rxCert33, rxCert34, rxCert35, rxCert36,
   rxCert37, rxCert38, rxCert39, rxCert40, rxCert41, rxCert42, rxCert43, rxCert44, rxCert45,
   rxCert46, rxCert47, rxCert48, rxCert49, rxCert50, rxCert51, rxCert52, rxCert53, rxCert54,
   rxCert55, rxCert56, rxCert57, rxCert58, rxCert59, rxCert60, rxCert61, rxCert62, rxCert63,
   rxCert64, rxCert65, rxCert66, rxCert67, rxCert68, rxCert69]

/-- What the symbols of the tables stand for. -/
def symGram : List Gram :=
  [.tok .eps .none, .tok (.lit [';']) .none, .tok (.lit ['%']) .none, .tok .raw .string_raw,
   .tok (.lit [':', '\\', ':']) .none, .tok (.lit [':', '|', ':']) .none, .tok .quoted .string,
   .tok (.lit [':', '/', ':']) .none, .tok (.lit [':']) .none, .tok (.lit [':', '!']) .none,
   .tok (.lit ['#']) .none, .tok (.lit ['$']) .none, .tok (.lit ['/']) .none,
   .tok (.lit ['\\']) .none, .tok (.lit ['-', '-']) .none, .tok (.lit ['{']) .none,
   .tok (.lit ['[']) .none, .tok (.lit ['~']) .none, .tok (.lit ['-']) .none,
   .tok (.lit ['&']) .none, .tok (.lit ['|']) .none, .tok (.lit ['&', '|']) .none,
   .tok (.lit ['&', '/']) .none, .tok (.lit ['&', '&']) .none, .tok (.lit ['|', '|']) .none,
   .tok (.lit ['*']) .none, .tok (.lit ['}']) .none, .tok (.lit [']']) .none,
   .tok (.lit ['+']) .none, .tok .unit .quality, .tok .openUnit .durability, .tok .unit .priority,
   .tok (.lit ['^']) .none, .tok (.lit ['<', '|', '>']) .none, .tok .posNat .k_evidence,
   .tok .openUnit .confidence, .tok (.lit ['<', '/', '>']) .none,
   .tok (.lit ['<', '=', '>']) .none, .tok (.lit ['=', '\\', '>']) .none,
   .tok (.lit ['=', '|', '>']) .none, .tok (.lit ['=', '/', '>']) .none,
   .tok (.lit ['=', '=', '>']) .none, .tok (.lit ['{', '-', ']']) .none,
   .tok (.lit ['-', '-', ']']) .none, .tok (.lit ['{', '-', '-']) .none,
   .tok (.lit ['<', '-', '>']) .none, .tok (.lit ['-', '-', '>']) .none, .tok (.lit [',']) .none,
   .tok (.lit [')']) .none, .tok (.lit ['(']) .none, .tok (.lit ['>']) .none,
   .tok (.lit ['<']) .none, .tok (.lit ['@']) .none, .tok (.lit ['!']) .none,
   .tok (.lit ['?']) .none, .tok (.lit ['.']) .none, .tok .unit .frequency, .tok .int .integer,
   .tok .blank .none,
   .grp [[.star (.grp [[.tok .blank .none]]), .grp [[.nt .task, .tok .eps .none]]]],
   .grp [[.tok .unit .quality, .star (.grp [[.tok .blank .none]])]],
   .grp [[.tok .openUnit .durability, .star (.grp [[.tok .blank .none]])]],
   .grp [[.tok .unit .priority, .star (.grp [[.tok .blank .none]])]],
   .grp [[.tok .posNat .k_evidence, .star (.grp [[.tok .blank .none]])]],
   .grp [[.tok .openUnit .confidence, .star (.grp [[.tok .blank .none]])]],
   .grp [[.tok (.lit [';']) .none, .star (.grp [[.tok .blank .none]])]],
   .grp [[.tok .unit .frequency, .star (.grp [[.tok .blank .none]])]],
   .grp [[.tok (.lit ['%']) .none, .star (.grp [[.tok .blank .none]])]],
   .grp [[.tok (.lit ['+']) .none, .star (.grp [[.tok .blank .none]])]],
   .grp [[.tok (.lit ['[']) .none, .star (.grp [[.tok .blank .none]])]],
   .grp [[.tok (.lit [']']) .none, .star (.grp [[.tok .blank .none]])]],
   .grp [[.tok (.lit ['{']) .none, .star (.grp [[.tok .blank .none]])]],
   .grp [[.tok (.lit ['}']) .none, .star (.grp [[.tok .blank .none]])]],
   .grp [[.tok (.lit ['~']) .none, .star (.grp [[.tok .blank .none]])]],
   .grp [[.tok (.lit ['-']) .none, .star (.grp [[.tok .blank .none]])]],
   .grp [[.tok (.lit ['&']) .none, .star (.grp [[.tok .blank .none]])]],
   .grp [[.tok (.lit ['|']) .none, .star (.grp [[.tok .blank .none]])]],
   .grp [[.tok (.lit ['&', '|']) .none, .star (.grp [[.tok .blank .none]])]],
   .grp [[.tok (.lit ['&', '/']) .none, .star (.grp [[.tok .blank .none]])]],
   .grp [[.tok (.lit ['&', '&']) .none, .star (.grp [[.tok .blank .none]])]],
   .grp [[.tok (.lit ['|', '|']) .none, .star (.grp [[.tok .blank .none]])]],
   .grp [[.tok (.lit ['*']) .none, .star (.grp [[.tok .blank .none]])]],
   .grp [[.tok (.lit ['/']) .none, .star (.grp [[.tok .blank .none]])]],
   .grp [[.tok (.lit ['\\']) .none, .star (.grp [[.tok .blank .none]])]],
   .grp [[.tok (.lit ['-', '-']) .none, .star (.grp [[.tok .blank .none]])]],
   .grp [[.tok (.lit ['<', '|', '>']) .none, .star (.grp [[.tok .blank .none]])]],
   .grp [[.tok (.lit ['<', '/', '>']) .none, .star (.grp [[.tok .blank .none]])]],
   .grp [[.tok (.lit ['<', '=', '>']) .none, .star (.grp [[.tok .blank .none]])]],
   .grp [[.tok (.lit ['=', '\\', '>']) .none, .star (.grp [[.tok .blank .none]])]],
   .grp [[.tok (.lit ['=', '|', '>']) .none, .star (.grp [[.tok .blank .none]])]],
   .grp [[.tok (.lit ['=', '/', '>']) .none, .star (.grp [[.tok .blank .none]])]],
   .grp [[.tok (.lit ['=', '=', '>']) .none, .star (.grp [[.tok .blank .none]])]],
   .grp [[.tok (.lit ['{', '-', ']']) .none, .star (.grp [[.tok .blank .none]])]],
   .grp [[.tok (.lit ['-', '-', ']']) .none, .star (.grp [[.tok .blank .none]])]],
   .grp [[.tok (.lit ['{', '-', '-']) .none, .star (.grp [[.tok .blank .none]])]],
   .grp [[.tok (.lit ['<', '-', '>']) .none, .star (.grp [[.tok .blank .none]])]],
   .grp [[.tok (.lit ['-', '-', '>']) .none, .star (.grp [[.tok .blank .none]])]],
   .grp [[.tok (.lit ['>']) .none, .star (.grp [[.tok .blank .none]])]],
   .grp [[.tok (.lit ['<']) .none, .star (.grp [[.tok .blank .none]])]],
   .grp [[.tok (.lit ['^']) .none, .star (.grp [[.tok .blank .none]])]],
   .grp [[.tok .raw .string_raw, .star (.grp [[.tok .blank .none]])]],
   .grp [[.tok .quoted .string, .star (.grp [[.tok .blank .none]])]],
   .grp [[.tok (.lit ['#']) .none, .star (.grp [[.tok .blank .none]])]],
   .grp [[.tok (.lit ['$']) .none, .star (.grp [[.tok .blank .none]])]],
   .grp [[.tok (.lit [',']) .none, .star (.grp [[.tok .blank .none]])]],
   .grp [[.tok (.lit [')']) .none, .star (.grp [[.tok .blank .none]])]],
   .grp [[.tok (.lit ['(']) .none, .star (.grp [[.tok .blank .none]])]],
   .grp [[.tok (.lit [':', '\\', ':']) .none, .star (.grp [[.tok .blank .none]])]],
   .grp [[.tok (.lit [':', '|', ':']) .none, .star (.grp [[.tok .blank .none]])]],
   .grp [[.tok (.lit [':', '/', ':']) .none, .star (.grp [[.tok .blank .none]])]],
   .grp [[.tok (.lit [':']) .none, .star (.grp [[.tok .blank .none]])]],
   .grp [[.tok .int .integer, .star (.grp [[.tok .blank .none]])]],
   .grp [[.tok (.lit [':', '!']) .none, .star (.grp [[.tok .blank .none]])]],
   .grp [[.tok (.lit ['@']) .none, .star (.grp [[.tok .blank .none]])]],
   .grp [[.tok (.lit ['!']) .none, .star (.grp [[.tok .blank .none]])]],
   .grp [[.tok (.lit ['?']) .none, .star (.grp [[.tok .blank .none]])]],
   .grp [[.tok (.lit ['.']) .none, .star (.grp [[.tok .blank .none]])]],
   .star (.grp [[.tok .blank .none]]), .plus (.grp [[.tok .blank .none]]),
   .grp [[.tok .blank .none]], .grp [[.nt .task, .tok .eps .none]],
   .grp [[.grp [[.tok .quoted .string, .star (.grp [[.tok .blank .none]])]]], [.grp [[.tok .raw .string_raw, .star (.grp [[.tok .blank .none]])]]]],
   .opt (.grp [[.grp [[.tok (.lit [';']) .none, .star (.grp [[.tok .blank .none]])]], .grp [[.tok .openUnit .durability, .star (.grp [[.tok .blank .none]])]], .opt (.grp [[.grp [[.tok (.lit [';']) .none, .star (.grp [[.tok .blank .none]])]], .grp [[.tok .unit .quality, .star (.grp [[.tok .blank .none]])]]]])]]),
   .grp [[.grp [[.tok (.lit [';']) .none, .star (.grp [[.tok .blank .none]])]], .grp [[.tok .openUnit .durability, .star (.grp [[.tok .blank .none]])]], .opt (.grp [[.grp [[.tok (.lit [';']) .none, .star (.grp [[.tok .blank .none]])]], .grp [[.tok .unit .quality, .star (.grp [[.tok .blank .none]])]]]])]],
   .opt (.grp [[.grp [[.tok (.lit [';']) .none, .star (.grp [[.tok .blank .none]])]], .grp [[.tok .unit .quality, .star (.grp [[.tok .blank .none]])]]]]),
   .grp [[.grp [[.tok (.lit [';']) .none, .star (.grp [[.tok .blank .none]])]], .grp [[.tok .unit .quality, .star (.grp [[.tok .blank .none]])]]]],
   .opt (.grp [[.grp [[.tok (.lit [';']) .none, .star (.grp [[.tok .blank .none]])]], .grp [[.tok .openUnit .confidence, .star (.grp [[.tok .blank .none]])]], .opt (.grp [[.grp [[.tok (.lit [';']) .none, .star (.grp [[.tok .blank .none]])]], .grp [[.tok .posNat .k_evidence, .star (.grp [[.tok .blank .none]])]]]])]]),
   .grp [[.grp [[.tok (.lit [';']) .none, .star (.grp [[.tok .blank .none]])]], .grp [[.tok .openUnit .confidence, .star (.grp [[.tok .blank .none]])]], .opt (.grp [[.grp [[.tok (.lit [';']) .none, .star (.grp [[.tok .blank .none]])]], .grp [[.tok .posNat .k_evidence, .star (.grp [[.tok .blank .none]])]]]])]],
   .opt (.grp [[.grp [[.tok (.lit [';']) .none, .star (.grp [[.tok .blank .none]])]], .grp [[.tok .posNat .k_evidence, .star (.grp [[.tok .blank .none]])]]]]),
   .grp [[.grp [[.tok (.lit [';']) .none, .star (.grp [[.tok .blank .none]])]], .grp [[.tok .posNat .k_evidence, .star (.grp [[.tok .blank .none]])]]]],
   .plus (.grp [[.grp [[.tok (.lit ['&']) .none, .star (.grp [[.tok .blank .none]])]], .nt .term]]),
   .grp [[.grp [[.tok (.lit ['&']) .none, .star (.grp [[.tok .blank .none]])]], .nt .term]],
   .plus (.grp [[.grp [[.tok (.lit ['|']) .none, .star (.grp [[.tok .blank .none]])]], .nt .term]]),
   .grp [[.grp [[.tok (.lit ['|']) .none, .star (.grp [[.tok .blank .none]])]], .nt .term]],
   .plus (.grp [[.grp [[.tok (.lit ['&', '|']) .none, .star (.grp [[.tok .blank .none]])]], .nt .term]]),
   .grp [[.grp [[.tok (.lit ['&', '|']) .none, .star (.grp [[.tok .blank .none]])]], .nt .term]],
   .plus (.grp [[.grp [[.tok (.lit ['&', '/']) .none, .star (.grp [[.tok .blank .none]])]], .nt .term]]),
   .grp [[.grp [[.tok (.lit ['&', '/']) .none, .star (.grp [[.tok .blank .none]])]], .nt .term]],
   .plus (.grp [[.grp [[.tok (.lit ['&', '&']) .none, .star (.grp [[.tok .blank .none]])]], .nt .term]]),
   .grp [[.grp [[.tok (.lit ['&', '&']) .none, .star (.grp [[.tok .blank .none]])]], .nt .term]],
   .plus (.grp [[.grp [[.tok (.lit ['|', '|']) .none, .star (.grp [[.tok .blank .none]])]], .nt .term]]),
   .grp [[.grp [[.tok (.lit ['|', '|']) .none, .star (.grp [[.tok .blank .none]])]], .nt .term]],
   .plus (.grp [[.grp [[.tok (.lit ['*']) .none, .star (.grp [[.tok .blank .none]])]], .nt .term]]),
   .grp [[.grp [[.tok (.lit ['*']) .none, .star (.grp [[.tok .blank .none]])]], .nt .term]],
   .nt .multi_prod_expr, .nt .multi_disj_expr, .nt .multi_conj_expr, .nt .multi_sequential_expr,
   .nt .multi_parallel_expr, .nt .multi_intint_expr, .nt .multi_extint_expr,
   .grp [[.nt .term], [.nt .multi_infix_expr]], .grp [[.nt .term], [.nt .multi_infix_expr]],
   .grp [[.nt .term], [.nt .multi_infix_expr]], .grp [[.nt .term], [.nt .multi_infix_expr]],
   .nt .con_single,
   .grp [[.grp [[.tok (.lit ['(']) .none, .star (.grp [[.tok .blank .none]])]], .nt .con_multi, .grp [[.tok (.lit [',']) .none, .star (.grp [[.tok .blank .none]])]], .nt .term, .plus (.grp [[.grp [[.tok (.lit [',']) .none, .star (.grp [[.tok .blank .none]])]], .nt .term]]), .grp [[.tok (.lit [')']) .none, .star (.grp [[.tok .blank .none]])]]], [.grp [[.tok (.lit ['(']) .none, .star (.grp [[.tok .blank .none]])]], .nt .con_product, .grp [[.tok (.lit [',']) .none, .star (.grp [[.tok .blank .none]])]], .nt .term, .star (.grp [[.grp [[.tok (.lit [',']) .none, .star (.grp [[.tok .blank .none]])]], .nt .term]]), .grp [[.tok (.lit [')']) .none, .star (.grp [[.tok .blank .none]])]]]],
   .star (.grp [[.grp [[.tok (.lit [',']) .none, .star (.grp [[.tok .blank .none]])]], .nt .term]]),
   .plus (.grp [[.grp [[.tok (.lit [',']) .none, .star (.grp [[.tok .blank .none]])]], .nt .term]]),
   .grp [[.grp [[.tok (.lit [',']) .none, .star (.grp [[.tok .blank .none]])]], .nt .term]],
   .nt .con_product,
   .plus (.grp [[.grp [[.tok (.lit [',']) .none, .star (.grp [[.tok .blank .none]])]], .nt .term]]),
   .grp [[.grp [[.tok (.lit [',']) .none, .star (.grp [[.tok .blank .none]])]], .nt .term]],
   .nt .con_multi,
   .plus (.grp [[.grp [[.tok (.lit [',']) .none, .star (.grp [[.tok .blank .none]])]], .nt .term]]),
   .grp [[.grp [[.tok (.lit [',']) .none, .star (.grp [[.tok .blank .none]])]], .nt .term]],
   .nt .multi_infix_expr,
   .star (.grp [[.grp [[.tok (.lit [',']) .none, .star (.grp [[.tok .blank .none]])]], .nt .term]]),
   .plus (.grp [[.grp [[.tok (.lit [',']) .none, .star (.grp [[.tok .blank .none]])]], .nt .term]]),
   .grp [[.grp [[.tok (.lit [',']) .none, .star (.grp [[.tok .blank .none]])]], .nt .term]],
   .nt .con_ext_image,
   .star (.grp [[.grp [[.tok (.lit [',']) .none, .star (.grp [[.tok .blank .none]])]], .nt .term]]),
   .plus (.grp [[.grp [[.tok (.lit [',']) .none, .star (.grp [[.tok .blank .none]])]], .nt .term]]),
   .grp [[.grp [[.tok (.lit [',']) .none, .star (.grp [[.tok .blank .none]])]], .nt .term]],
   .nt .con_int_image,
   .grp [[.nt .con_negation, .nt .term], [.grp [[.tok (.lit ['(']) .none, .star (.grp [[.tok .blank .none]])]], .nt .con_negation, .grp [[.tok (.lit [',']) .none, .star (.grp [[.tok .blank .none]])]], .nt .term, .grp [[.tok (.lit [')']) .none, .star (.grp [[.tok .blank .none]])]]]],
   .nt .con_negation,
   .star (.grp [[.grp [[.tok (.lit [',']) .none, .star (.grp [[.tok .blank .none]])]], .nt .term]]),
   .plus (.grp [[.grp [[.tok (.lit [',']) .none, .star (.grp [[.tok .blank .none]])]], .nt .term]]),
   .grp [[.grp [[.tok (.lit [',']) .none, .star (.grp [[.tok .blank .none]])]], .nt .term]],
   .nt .con_ext_set,
   .star (.grp [[.grp [[.tok (.lit [',']) .none, .star (.grp [[.tok .blank .none]])]], .nt .term]]),
   .plus (.grp [[.grp [[.tok (.lit [',']) .none, .star (.grp [[.tok .blank .none]])]], .nt .term]]),
   .grp [[.grp [[.tok (.lit [',']) .none, .star (.grp [[.tok .blank .none]])]], .nt .term]],
   .nt .con_int_set, .grp [[.nt .int_set], [.nt .ext_set]], .nt .ext_set, .nt .int_set,
   .nt .negation, .nt .int_image, .nt .ext_image, .nt .single, .nt .multi, .nt .set,
   .nt .compound_term, .nt .interval, .nt .variable,
   .star (.grp [[.grp [[.tok (.lit [',']) .none, .star (.grp [[.tok .blank .none]])]], .nt .term]]),
   .plus (.grp [[.grp [[.tok (.lit [',']) .none, .star (.grp [[.tok .blank .none]])]], .nt .term]]),
   .grp [[.grp [[.tok (.lit [',']) .none, .star (.grp [[.tok .blank .none]])]], .nt .term]],
   .nt .word,
   .star (.grp [[.grp [[.tok (.lit [',']) .none, .star (.grp [[.tok .blank .none]])]], .nt .term]]),
   .plus (.grp [[.grp [[.tok (.lit [',']) .none, .star (.grp [[.tok .blank .none]])]], .nt .term]]),
   .grp [[.grp [[.tok (.lit [',']) .none, .star (.grp [[.tok .blank .none]])]], .nt .term]],
   .nt .op,
   .grp [[.grp [[.tok (.lit ['<']) .none, .star (.grp [[.tok .blank .none]])]], .nt .term, .nt .copula, .nt .term, .grp [[.tok (.lit ['>']) .none, .star (.grp [[.tok .blank .none]])]]], [.grp [[.tok (.lit ['(']) .none, .star (.grp [[.tok .blank .none]])]], .nt .term, .nt .copula, .nt .term, .grp [[.tok (.lit [')']) .none, .star (.grp [[.tok .blank .none]])]]]],
   .nt .copula, .nt .term, .opt (.grp [[.nt .tense]]), .grp [[.nt .tense]],
   .grp [[.nt .term_nonvar], [.nt .statement]], .opt (.grp [[.nt .desire]]), .grp [[.nt .desire]],
   .nt .desire, .opt (.grp [[.nt .tense]]), .grp [[.nt .tense]],
   .grp [[.nt .term_nonvar], [.nt .statement]], .opt (.grp [[.nt .tense]]), .grp [[.nt .tense]],
   .grp [[.nt .term_nonvar], [.nt .statement]], .opt (.grp [[.nt .truth]]), .grp [[.nt .truth]],
   .nt .truth, .opt (.grp [[.nt .tense]]), .grp [[.nt .tense]], .nt .tense,
   .grp [[.nt .term_nonvar], [.nt .statement]], .nt .statement, .nt .term_nonvar, .nt .sentence,
   .opt (.grp [[.nt .budget]]), .grp [[.nt .budget]], .nt .budget, .nt .task]

end Cnars.Parser
