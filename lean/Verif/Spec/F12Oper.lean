import Verif.Spec.Oper2

/-! The derivatives in the integrals over the Yukawa interaction and the Slater-type geminal. -/
namespace Verif.Spec

/-- partial derivatives of a function on space along the listed axes; the last one is taken first -/
noncomputable def partials (ks : List (Fin 3)) (f : Pt → ℝ) : Pt → ℝ :=
  ks.foldr (fun k f r => deriv (fun x => f (Function.update r k x)) (r k)) f

/-- the derivatives of the four functions in an integral -/
structure Derivs4 where
  i : List (Fin 3) := []
  j : List (Fin 3) := []
  k : List (Fin 3) := []
  l : List (Fin 3) := []

/-- the components: `(∇i j|kl)`, `(∇∇i j|kl)`, `(∇i ∇j|kl)`, `(∇i j|∇k l)`; the axis of the first derivative changes slowest -/
def f12Ops : List (String × Nat × (Nat → Derivs4)) := [
  ("int2e_ip1", 3, fun n => { i := [Fin.ofNat 3 n] }),
  ("int2e_ipip1", 9, fun n => { i := [Fin.ofNat 3 (n/3), Fin.ofNat 3 n] }),
  ("int2e_ipvip1", 9, fun n => { i := [Fin.ofNat 3 (n/3)], j := [Fin.ofNat 3 n] }),
  ("int2e_ip1ip2", 9, fun n => { i := [Fin.ofNat 3 (n/3)], k := [Fin.ofNat 3 n] })]

end Verif.Spec
