import Verif.Lemmas.OperKey
import Verif.Lemmas.OperAdd
import Verif.Model.AutoNuc
import Verif.Spec.OperV

/-! Comparison of programs with a potential and their definitions. -/
namespace Verif.Lemmas
open Verif Verif.Model Verif.Spec

/-- the number of operators in the three factors of a product -/
def wordsLen (W : Nat → List (GOp × Fin 4)) : Nat := (W 0).length + (W 1).length + (W 2).length

/-- the integrand with its components in terms of products of single words -/
def _root_.Verif.Model.Gen1e.flat (G : Gen1e) : GoutProg := flatP ![G.ng.i, G.ng.j, 0, 0] (2^G.gbits + 1) G.prog

theorem _root_.Verif.Model.Gen1e.flat_length (G : Gen1e) : G.flat.comps.length = G.prog.comps.length := flatP_length _ _ _

/-- The program computes what the definition says.  Nothing is integrated by parts; the number of operators is within what
the quadrature is exact for. -/
def matchesV (G : Gen1e) (D : Def1e) : Bool :=
  match runWords ![G.ng.i, G.ng.j, 0, 0] (2^G.gbits + 1) G.prog with
  | none => false
  | some ws =>
    decide (G.ng.k = 0 ∧ G.ng.l = 0 ∧ G.ng.rys = 0 ∧ G.num = D.num ∧ G.den = D.den ∧ G.den ≠ 0 ∧ G.nComp ≠ 0 ∧
      G.nComp = D.out.length ∧ G.prog.comps.length = G.nComp) && ws.all twoIdx &&
    ws.all (fun W => decide (wordsLen W ≤ G.ng.i + G.ng.j)) &&
    (G.flat.comps.all fun c => c.all fun t => decide (t.2.2 < ws.length) && t.2.1.all fun n => decide (n < 3)) &&
    (G.flat.comps.zip D.out).all fun x => sameSum (progSum ws x.1) (opRe x.2) && sameSum [] (opIm x.2)

end Verif.Lemmas
