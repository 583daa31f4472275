import Verif.Parser.Run
import Verif.Parser.Certs

/-!
# The tables of the Narsese parser pass the checks

Whole finite tables, evaluated by the kernel.
-/

namespace Cnars.Parser

/-- The tables of `Narsese/Parser/narsese.h`. -/
def narsese : Tables :=
  { actions := actionRows, gos := goRows, defProd := defProdTable, dfaSelect := dfaSelectTable
    dfas := dfaTable, symbols := symbolTable, prods := productionTable, rhs := rhsTable }

def narseseCert : Cert := { kern := kernTable, width := widthTable }

instance (T : Tables) (r A : Nat) : Decidable (GoOk T r A) := by unfold GoOk; infer_instance

instance (T : Tables) (C : Cert) (r p d : Nat) : Decidable (ItemOk T C r p d) := by
  unfold ItemOk; cases d <;> infer_instance

instance (T : Tables) (C : Cert) (r X i : Nat) : Decidable (EdgeOk T C r X i) := by
  unfold EdgeOk; infer_instance

instance widthOkDec (C : Cert) : ∀ (l : List Nat) (a b : Nat), Decidable (widthOk C l a b)
  | [], _, _ => isTrue trivial
  | X :: Xs, up, acc => by
    have := widthOkDec C Xs (if X < firstNT then 0 else C.w X)
        (acc + ((if X < firstNT then C.w X else 0) + up))
    unfold widthOk; infer_instance

instance (T : Tables) (m : Machine) : Decidable (MachineOk T m) := by
  have h : ∀ (n : Nat), Decidable (∃ info, T.symbols[n]? = some info ∧ info.greedy = true) := by
    intro n
    cases h : T.symbols[n]? with
    | none => exact isFalse (by simp)
    | some i => exact decidable_of_iff (i.greedy = true) (by simp)
  unfold MachineOk; infer_instance

theorem narsese_machines : ∀ m ∈ narsese.dfas, MachineOk narsese m := by
  decide +kernel

theorem narsese_lex : LexTablesOk narsese := by
  refine ⟨narsese_machines, ?_⟩
  have : ∀ x ∈ narsese.dfaSelect, ∀ k ∈ x, k < narsese.dfas.length := by decide +kernel
  intro k hk
  exact this _ hk k rfl

instance (T : Tables) (i : Nat) : Decidable (EmitFree T i) := by unfold EmitFree; infer_instance

instance (T : Tables) (C : Cert) (r X i : Nat) : Decidable (LastOk T C r X i) := by
  unfold LastOk; infer_instance

instance (T : Tables) (C : Cert) (r : Nat) (x : Nat × Nat × Nat) : Decidable (ActOk T C r x) := by
  unfold ActOk; infer_instance

instance (T : Tables) (C : Cert) (r : Nat) (x : Nat × Nat × Nat) : Decidable (GotoOk T C r x) := by
  unfold GotoOk; infer_instance

instance (T : Tables) (C : Cert) (p : Nat) : Decidable (ProdOk T C p) := by
  unfold ProdOk; infer_instance

theorem narsese_acts : ∀ r < narsese.actions.length, ∀ x ∈ (narsese.actions[r]?).getD [],
    ActOk narsese narseseCert r x := by
  decide +kernel

theorem narsese_gos : ∀ r < narsese.actions.length, ∀ x ∈ (narsese.gos[r]?).getD [],
    GotoOk narsese narseseCert r x := by
  decide +kernel

theorem narsese_defs : ∀ r < narsese.actions.length, ∀ p ∈ (narsese.defProd[r]?).getD none,
    ItemOk narsese narseseCert r p (rhsOf narsese p).length := by
  decide +kernel

theorem narsese_prods : ∀ p < narsese.prods.length, ProdOk narsese narseseCert p := by
  decide +kernel

theorem narsese_ok : TablesOk narsese narseseCert where
  lex := narsese_lex
  nact := by decide +kernel
  kern0 := by decide +kernel
  ngo := by decide +kernel
  ndef := by decide +kernel
  nsel := by decide +kernel
  terms := by decide +kernel
  syms := by decide +kernel
  acts := narsese_acts
  gos := narsese_gos
  defs := narsese_defs
  prods := narsese_prods
  symw := by decide +kernel

theorem narsese_eof : EofOk narsese [0, 120, 59] where
  zero := by decide
  goal := by decide
  prods := by decide +kernel
  term := by decide

/-- The cost certificate. -/
def narseseCost : Cost := { empty := emptyTable, credit := creditTable, rank := rankTable }

instance patDec (K : Cost) : ∀ (l : List Nat) (a b : Nat) (n : Bool), Decidable (K.pat l a b n)
  | [], _, _, _ => by unfold Cost.pat; infer_instance
  | X :: Xs, a, b, n => by
    have h1 := patDec K Xs a (b + K.r X) true
    unfold Cost.pat
    cases K.e X with
    | none => infer_instance
    | some v =>
      have h2 := patDec K Xs (a + v) b n
      infer_instance

instance (K : Cost) (T : Tables) (p : Nat) : Decidable (K.prodOk T p) := by
  unfold Cost.prodOk
  cases K.sumE (rhsOf T p) with
  | none => infer_instance
  | some v => cases K.e (lhsOf T p) <;> infer_instance

instance (K : Cost) (r : Nat) (x : Nat × Nat × Nat) : Decidable (K.rowOk r x) := by
  unfold Cost.rowOk; infer_instance

theorem narsese_cost : CostOk narsese narseseCost where
  eof := by decide +kernel
  leaf := by decide +kernel
  prods := by decide +kernel
  empties := by decide +kernel
  ranks := by decide +kernel
  rows := by decide +kernel

instance (T : Tables) (q k : Nat) : Decidable (Covered T q k) := by
  unfold Covered; infer_instance

theorem narsese_reject : RejectOk narsese := by
  unfold RejectOk; decide +kernel

theorem narsese_flat : FlatOk narsese narseseCost flatTable where
  bound := by decide +kernel
  rows := by decide +kernel
  start := by decide +kernel

end Cnars.Parser
