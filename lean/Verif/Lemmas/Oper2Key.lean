import Verif.Lemmas.OperVKey
import Verif.Model.Auto2e
import Verif.Spec.Oper2

/-! Comparison of programs for two-electron integrals and their definitions. -/
namespace Verif.Lemmas
open Verif Verif.Model Verif.Spec

/-- what a product depends on, for each electron -/
def termKey2 (x : Term × Term) : Key × Key := (termKey x.1, termKey x.2)

/-- the key of a product of the program; factors 0, 1, 2 belong to electron 1, factors 3, 4, 5 to electron 2 -/
def progKey2 (geo : List Nat) (W : Nat → List (GOp × Fin 4)) : Key × Key :=
  (⟨geoCount ((geo.filter (· < 3)).map toFin3), dirs.map fun k => onIdx 0 (W k), dirs.map fun k => onIdx 1 (W k)⟩,
   ⟨geoCount ((geo.filter fun n => ¬ n < 3).map fun n => toFin3 (n-3)), dirs.map fun k => onIdx 2 (W k), dirs.map fun k => onIdx 3 (W k)⟩)

def progSum2 (ws : List (Nat → List (GOp × Fin 4))) (terms : List (Int × List Nat × Nat)) : List (Int × (Key × Key)) :=
  terms.map fun t => (t.1, progKey2 t.2.1 (ws.getD t.2.2 fun _ => []))

def opRe2 (P : Op2) : List (Int × (Key × Key)) := P.map fun x => (x.1.re*x.2.re - x.1.im*x.2.im, termKey2 x)
def opIm2 (P : Op2) : List (Int × (Key × Key)) := P.map fun x => (x.1.re*x.2.im + x.1.im*x.2.re, termKey2 x)

/-- equal sums: the same terms up to order, or by comparing the coefficients of all keys -/
def sameQ {κ : Type} [DecidableEq κ] (l m : List (Int × κ)) : Bool :=
  (l.filter fun x => x.1 ≠ 0).isPerm (m.filter fun x => x.1 ≠ 0) || sameSum l m

/-- a sum without terms -/
def zeroQ {κ : Type} [DecidableEq κ] (m : List (Int × κ)) : Bool := (m.all fun x => x.1 = 0) || sameSum [] m

/-- the integrand with its components in terms of products of single words -/
def _root_.Verif.Model.Gen2e.flat (G : Gen2e) : GoutProg := flatP ![G.ng.i, G.ng.j, G.ng.k, G.ng.l] (2^G.gbits + 1) G.prog

theorem _root_.Verif.Model.Gen2e.flat_length (G : Gen2e) : G.flat.comps.length = G.prog.comps.length := flatP_length _ _ _

/-- The program computes what the definition says. -/
def matches2e (G : Gen2e) (D : Def2e) : Bool :=
  match runWords ![G.ng.i, G.ng.j, G.ng.k, G.ng.l] (2^G.gbits + 1) G.prog with
  | none => false
  | some ws =>
    decide (G.ng.rys = 0 ∧ G.num = D.num ∧ G.den = D.den ∧ G.den ≠ 0 ∧ G.nComp ≠ 0 ∧
      G.nComp = D.out.length ∧ G.prog.comps.length = G.nComp) &&
    ws.all (fun W => decide (wordsLen W ≤ G.ng.i + G.ng.j + G.ng.k + G.ng.l)) &&
    (G.flat.comps.all fun c => c.all fun t => decide (t.2.2 < ws.length) && t.2.1.all fun n => decide (n < 6)) &&
    (G.flat.comps.zip D.out).all fun x => sameQ (progSum2 ws x.1) (opRe2 x.2) && zeroQ (opIm2 x.2)

end Verif.Lemmas
