import Verif.Parser.Tables

/-!
# Certificates for the parser tables

Generated by `tools/gen_certs.py`; checked by the kernel in `Checks.lean`, so nothing depends on how
they were found.
-/

namespace Cnars.Parser

/-- LR(0) items (production, position of the dot) with the dot not at the beginning, per state. -/
def kernTable : List (List (Nat × Nat)) := [
   [], [(208, 1), (210, 1)], [(269, 1)], [(206, 1)], [(3, 1)], [(225, 1)], [(196, 1)],
   [(4, 1), (13, 1), (19, 1), (28, 1)], [(5, 1), (14, 1), (20, 1), (29, 1), (66, 1)], [(6, 1)],
   [(15, 1)], [(21, 1)], [(30, 1)], [(230, 1)], [(222, 1)], [(43, 1), (64, 1)], [(229, 1)],
   [(260, 1)], [(79, 1)], [(85, 1)], [(91, 1)], [(259, 1)], [(257, 1)], [(244, 1)], [(227, 1)],
   [(228, 1)],
   [(35, 1), (37, 1), (92, 1), (94, 1), (100, 1), (106, 1), (107, 1), (111, 1), (115, 1), (122, 1), (127, 1)],
   [(68, 1)], [(34, 1)], [(69, 1)], [(266, 1)], [(196, 2)], [(212, 1)], [(6, 2)], [(213, 1)],
   [(15, 2)], [(214, 1)], [(21, 2)], [(215, 1)], [(30, 2)], [(43, 2)], [(79, 2)], [(226, 1)],
   [(183, 1)], [(181, 1)], [(182, 1)], [(85, 2)],
   [(35, 2), (107, 2), (128, 1), (139, 1), (143, 1), (147, 1), (151, 1), (155, 1), (159, 1), (163, 1)],
   [(37, 2), (67, 1)], [(91, 1), (92, 2)], [(94, 2)], [(100, 2)], [(106, 2), (129, 1)],
   [(111, 2)], [(115, 2)], [(122, 2)], [(127, 2)], [(247, 1)], [(248, 1)], [(249, 1)],
   [(250, 1)], [(251, 1)], [(252, 1)], [(253, 1)], [(254, 1)], [(255, 1)], [(245, 1)],
   [(246, 1)], [(34, 2)], [(217, 1)], [(263, 1)], [(196, 3)], [(197, 1)], [(6, 3)], [(216, 1)],
   [(219, 1)], [(220, 1)], [(221, 1)], [(184, 1)], [(21, 3)], [(43, 3)], [(224, 1)],
   [(81, 1), (83, 1)], [(79, 3)], [(80, 1)], [(87, 1), (89, 1)], [(85, 3)], [(86, 1)], [(35, 3)],
   [(232, 1)], [(233, 1)], [(234, 1)], [(235, 1)], [(236, 1)], [(237, 1)], [(238, 1)],
   [(239, 1)], [(240, 1)], [(241, 1)], [(242, 1)], [(243, 1)], [(107, 3), (109, 1)],
   [(139, 2), (141, 1)], [(143, 2), (145, 1)], [(147, 2), (149, 1)], [(151, 2), (153, 1)],
   [(155, 2), (157, 1)], [(159, 2), (161, 1)], [(163, 2), (165, 1)], [(108, 1)], [(140, 1)],
   [(144, 1)], [(148, 1)], [(152, 1)], [(156, 1)], [(160, 1)], [(164, 1)], [(39, 1), (41, 1)],
   [(37, 3)], [(38, 1)], [(92, 3)], [(94, 3)], [(100, 3)], [(223, 1)], [(111, 3)], [(115, 3)],
   [(122, 3)], [(127, 3)], [(34, 3)], [(267, 1)], [(197, 2)], [(261, 1)], [(189, 1)], [(184, 2)],
   [(45, 1), (47, 1)], [(43, 4)], [(44, 1)], [(258, 1)], [(256, 1)], [(35, 4)], [(92, 4)],
   [(94, 4)], [(100, 4)], [(111, 4)], [(115, 4)],
   [(123, 1), (139, 1), (143, 1), (147, 1), (151, 1), (155, 1), (159, 1), (163, 1)], [(122, 4)],
   [(130, 1), (139, 1), (143, 1), (147, 1), (151, 1), (155, 1), (159, 1), (163, 1)], [(127, 4)],
   [(34, 4)], [(198, 1)], [(262, 1)], [(189, 2)], [(218, 1)], [(96, 1), (98, 1)], [(94, 5)],
   [(95, 1)], [(102, 1), (104, 1)], [(100, 5)], [(101, 1)], [(111, 5), (113, 1)], [(112, 1)],
   [(117, 1), (119, 1)], [(115, 5)], [(116, 1)], [(122, 5)], [(231, 1)], [(268, 1)], [(189, 3)],
   [(190, 1)], [(125, 1), (139, 1), (143, 1), (147, 1), (151, 1), (155, 1), (159, 1), (163, 1)],
   [(122, 6)], [(264, 1)], [(190, 2)], [(191, 1)], [(265, 1)]]

/-- A bound on the number of syntax tree nodes per symbol, 2 standing for no bound. -/
def widthTable : List Nat := [
   0, 0, 0, 1, 0, 0, 1, 0, 0, 0, 0, 0, 0, 0, 0, 0, 0, 0, 0, 0, 0, 0, 0, 0, 0, 0, 0, 0, 0, 1, 1,
   1, 0, 0, 1, 1, 0, 0, 0, 0, 0, 0, 0, 0, 0, 0, 0, 0, 0, 0, 0, 0, 0, 0, 0, 0, 1, 1, 0, 1, 1, 1,
   1, 1, 1, 0, 1, 0, 0, 0, 0, 0, 0, 0, 0, 0, 0, 0, 0, 0, 0, 0, 0, 0, 0, 0, 0, 0, 0, 0, 0, 0, 0,
   0, 0, 0, 0, 0, 0, 0, 1, 1, 0, 0, 0, 0, 0, 0, 0, 0, 0, 1, 0, 0, 0, 0, 0, 0, 0, 0, 1, 1, 2, 2,
   1, 1, 2, 2, 1, 1, 2, 1, 2, 1, 2, 1, 2, 1, 2, 1, 2, 1, 2, 1, 1, 1, 1, 1, 1, 1, 1, 1, 1, 1, 1,
   1, 2, 2, 2, 1, 1, 2, 1, 1, 2, 1, 1, 2, 2, 1, 1, 2, 2, 1, 1, 2, 1, 2, 2, 1, 1, 2, 2, 1, 1, 2,
   2, 2, 1, 1, 1, 1, 1, 1, 1, 1, 1, 2, 2, 1, 1, 2, 2, 1, 1, 2, 1, 1, 1, 1, 1, 1, 1, 1, 1, 1, 1,
   1, 1, 1, 1, 1, 1, 1, 1, 1, 1, 1, 1, 1, 1, 1, 1, 1]

/-- Bounds for the size of trees without text, per symbol. -/
def emptyTable : List (Option Nat) := [
   some 1, none, none, none, none, none, none, none, none, none, none, none, none, none, none,
   none, none, none, none, none, none, none, none, none, none, none, none, none, none, none,
   none, none, none, none, none, none, none, none, none, none, none, none, none, none, none,
   none, none, none, none, none, none, none, none, none, none, none, none, none, none, none,
   none, none, none, none, none, none, none, none, none, none, none, none, none, none, none,
   none, none, none, none, none, none, none, none, none, none, none, none, none, none, none,
   none, none, none, none, none, none, none, none, none, none, none, none, none, none, none,
   none, none, none, none, none, none, none, none, none, none, none, none, some 1, none, none,
   none, none, some 1, none, some 1, none, some 1, none, some 1, none, none, none, none, none,
   none, none, none, none, none, none, none, none, none, none, none, none, none, none, none,
   none, none, none, none, none, none, none, none, some 1, none, none, none, none, none, none,
   none, none, none, some 1, none, none, none, some 1, none, none, none, none, none, some 1,
   none, none, none, some 1, none, none, none, none, none, none, none, none, none, none, none,
   none, none, none, none, some 1, none, none, none, some 1, none, none, none, none, none, none,
   some 1, none, none, some 1, none, none, some 1, none, none, some 1, none, none, some 1, none,
   none, some 1, none, none, none, none, none, none, some 1, none, none, none]

/-- Credits per symbol: a tree with text `w` has size at most `10 * w.length` minus the credit. -/
def creditTable : List Nat := [
   9, 9, 9, 9, 9, 9, 9, 9, 9, 9, 9, 9, 9, 9, 9, 9, 9, 9, 9, 9, 9, 9, 9, 9, 9, 9, 9, 9, 9, 9, 9,
   9, 9, 9, 9, 9, 9, 9, 9, 9, 9, 9, 9, 9, 9, 9, 9, 9, 9, 9, 9, 9, 9, 9, 9, 9, 9, 9, 9, 1, 7, 7,
   7, 7, 7, 7, 7, 7, 7, 7, 7, 7, 7, 7, 7, 7, 7, 7, 7, 7, 7, 7, 7, 7, 7, 7, 7, 7, 7, 7, 7, 7, 7,
   7, 7, 7, 7, 7, 7, 7, 7, 7, 7, 7, 7, 7, 7, 7, 7, 7, 7, 7, 7, 7, 7, 7, 7, 6, 7, 8, 3, 6, 11, 12,
   12, 13, 11, 12, 12, 13, 8, 9, 8, 9, 8, 9, 8, 9, 8, 9, 8, 9, 8, 9, 10, 10, 10, 10, 10, 10, 10,
   2, 2, 2, 2, 6, 28, 7, 8, 9, 6, 8, 9, 6, 8, 9, 9, 7, 8, 9, 6, 7, 8, 9, 6, 8, 6, 7, 8, 9, 6, 7,
   8, 9, 6, 13, 14, 14, 7, 28, 28, 23, 22, 12, 6, 13, 11, 7, 8, 9, 5, 7, 8, 9, 11, 25, 6, 3, 4,
   5, 3, 16, 17, 18, 4, 5, 3, 4, 5, 3, 17, 18, 19, 4, 5, 6, 3, 20, 4, 7, 17, 18, 19, 5]

/-- Number of symbols without text that can be pushed one after the other on a state. -/
def rankTable : List Nat := [
   2, 0, 1, 1, 0, 1, 0, 0, 0, 0, 0, 0, 0, 1, 1, 0, 1, 1, 0, 0, 0, 1, 1, 1, 1, 1, 0, 0, 0, 0, 1,
   1, 1, 2, 1, 1, 1, 2, 1, 1, 0, 1, 1, 0, 0, 0, 1, 0, 1, 0, 0, 0, 0, 0, 0, 0, 0, 1, 1, 1, 1, 1,
   1, 1, 1, 1, 1, 1, 0, 1, 1, 0, 0, 1, 1, 1, 1, 1, 0, 1, 1, 1, 0, 0, 0, 0, 0, 0, 0, 1, 1, 1, 1,
   1, 1, 1, 1, 1, 1, 1, 1, 0, 0, 0, 0, 0, 0, 0, 0, 0, 0, 0, 0, 0, 0, 0, 0, 0, 0, 0, 0, 0, 0, 1,
   0, 0, 0, 0, 0, 1, 1, 1, 0, 0, 0, 0, 0, 1, 1, 0, 0, 1, 1, 0, 1, 0, 0, 0, 0, 0, 0, 1, 1, 1, 0,
   0, 0, 0, 0, 0, 0, 0, 0, 0, 0, 0, 1, 1, 0, 0, 0, 0, 1, 1, 0, 1]

/-- Number of symbols without text that can be on the stack below a state. -/
def flatTable : List Nat := [
   0, 4, 1, 1, 2, 2, 1, 2, 2, 2, 2, 2, 2, 2, 2, 2, 2, 2, 2, 2, 2, 2, 2, 2, 2, 2, 2, 2, 2, 2, 1,
   1, 2, 2, 2, 2, 2, 2, 2, 2, 2, 2, 2, 2, 2, 2, 2, 2, 2, 2, 2, 2, 2, 2, 2, 2, 2, 2, 2, 2, 2, 2,
   2, 2, 2, 2, 2, 2, 2, 2, 3, 2, 1, 3, 2, 2, 2, 2, 2, 3, 2, 2, 2, 3, 2, 2, 3, 2, 2, 2, 2, 2, 2,
   2, 2, 2, 2, 2, 2, 2, 2, 2, 2, 2, 2, 2, 2, 2, 2, 2, 2, 2, 2, 2, 2, 2, 2, 2, 3, 2, 2, 2, 2, 3,
   2, 2, 2, 2, 2, 1, 1, 4, 3, 2, 2, 3, 2, 3, 3, 2, 2, 2, 2, 2, 2, 2, 2, 2, 2, 2, 1, 3, 3, 2, 2,
   3, 2, 2, 3, 2, 2, 2, 2, 3, 2, 2, 2, 1, 4, 3, 2, 2, 3, 3, 3, 3]

end Cnars.Parser
