import Verif.Lemmas.OperProg
import Verif.Spec.Oper
import Verif.Model.Auto1e

/-! Comparison of formal sums of operators. -/
namespace Verif.Lemmas
open Verif Verif.Model Verif.Spec

/-- What a term depends on: how often each component of `R_bra - R_ket` occurs and, for each direction, the operators on the
bra and on the ket.  Operators along different directions commute. -/
structure Key where
  geo : Nat × Nat × Nat
  bra : List (List El)
  ket : List (List El)
  deriving DecidableEq, Repr

/-- the operators along direction `k` -/
def along (k : Fin 3) (w : Word) : List El := (w.filter fun e => e.2 = k).map (·.1)

def dirs : List (Fin 3) := [0, 1, 2]

def geoCount (l : List (Fin 3)) : Nat × Nat × Nat := (l.count 0, l.count 1, l.count 2)

def termKey (t : Term) : Key := ⟨geoCount t.geo, dirs.map fun k => along k t.bra, dirs.map fun k => along k t.ket⟩

def elOf : GOp → El
  | .d => .d
  | .x0 => .r0
  | .xc => .rc
  | .own => .ro

/-- the operators of a word of the program on index `t`; the latest acts first -/
def onIdx (t : Fin 4) (w : List (GOp × Fin 4)) : List El := ((w.filter fun o => o.2 = t).map fun o => elOf o.1).reverse

def toFin3 (n : Nat) : Fin 3 := if n = 0 then 0 else if n = 1 then 1 else 2

/-- the key of a product with factors `R_bra - R_ket` -/
def progKey (geo : List Nat) (W : Nat → List (GOp × Fin 4)) : Key :=
  ⟨geoCount (geo.map toFin3), dirs.map fun k => onIdx 0 (W k), dirs.map fun k => onIdx 1 (W k)⟩

/-- total coefficient of a key -/
def total {κ : Type} [DecidableEq κ] (k : κ) (l : List (Int × κ)) : Int := ((l.filter fun x => x.2 = k).map (·.1)).sum

def sameSum {κ : Type} [DecidableEq κ] (l m : List (Int × κ)) : Bool := (l ++ m).all fun x => total x.2 l = total x.2 m

/-- no operator on other than the two indices -/
def twoIdx (W : Nat → List (GOp × Fin 4)) : Bool := dirs.all fun k => (W k).all fun o => o.2 = 0 ∨ o.2 = 1

def progSum (ws : List (Nat → List (GOp × Fin 4))) (terms : List (Int × List Nat × Nat)) : List (Int × Key) :=
  terms.map fun t => (t.1, progKey t.2.1 (ws.getD t.2.2 fun _ => []))

def opRe (P : Op) : List (Int × Key) := P.map fun t => (t.re, termKey t)
def opIm (P : Op) : List (Int × Key) := P.map fun t => (t.im, termKey t)

/-- integration by parts: derivatives acting last on the bra are moved to the ket -/
def byParts : List El → List El → Int × List El × List El
  | .d :: w, v => let x := byParts w (.d :: v); (-x.1, x.2)
  | w, v => (1, w, v)

def canonKey (x : Int × Key) : Int × Key :=
  let l := (x.2.bra.zip x.2.ket).map fun y => byParts y.1 y.2
  (x.1 * (l.map (·.1)).prod, ⟨x.2.geo, l.map (·.2.1), l.map (·.2.2)⟩)

/-- equal as integrals over all space -/
def sameInt (l m : List (Int × Key)) : Bool := sameSum (l.map canonKey) (m.map canonKey)

/-- the program computes what the definition says -/
def matches1e (G : Gen1e) (D : Def1e) : Bool :=
  match symRun ![G.ng.i, G.ng.j, 0, 0] (2^G.gbits + 1) G.prog with
  | none => false
  | some ws =>
    decide (G.ng.k = 0 ∧ G.ng.l = 0 ∧ G.ng.rys = 1 ∧ G.num = D.num ∧ G.den = D.den ∧ G.den ≠ 0 ∧ G.nComp ≠ 0 ∧
      G.nComp = D.out.length ∧ G.prog.comps.length = G.nComp) && ws.all twoIdx &&
    (G.prog.comps.all fun c => c.all fun t => decide (t.2.2 < ws.length) && t.2.1.all fun n => decide (n < 3)) &&
    (G.prog.comps.zip D.out).all fun x => sameInt (progSum ws x.1) (opRe x.2) && sameInt [] (opIm x.2)

end Verif.Lemmas
