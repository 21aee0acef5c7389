import Verif.Model.G1e

/-!
The recursion coefficients of two-electron integrals and the expressions that occur in the unrolled kernels.
-/
namespace Verif.Model
open Verif Prog

variable {α : Type}

/-- Rys2eT, src/g2e.h:10-22: coefficients of the recursion for each root; `c00`, `c0p` also by direction -/
structure Rys2eT (α : Type) where
  b00 : Nat → α
  b10 : Nat → α
  b01 : Nat → α
  c00 : Nat → Nat → α
  c0p : Nat → Nat → α

/-- right hand sides of the assignments in src/g2e.c:695-4352; `rij c` is `envs->rirj[c]`, `rkl c` is
`envs->rkrl[c]` -/
inductive UExpr
  | num (n : Nat)
  | cp (c r : Nat)
  | c0 (c r : Nat)
  | b00 (r : Nat)
  | b10 (r : Nat)
  | b01 (r : Nat)
  | rij (c : Nat)
  | rkl (c : Nat)
  | g (n : Nat)
  | add (a b : UExpr)
  | mul (a b : UExpr)

section
variable [Field α]

/-- evaluation; `g[n]` is read from memory -/
def UExpr.eval (bc : Rys2eT α) (rij rkl : Nat → α) (g : Ptr) : UExpr → Prog α α
  | num n => pure (n : α)
  | cp c r => pure (bc.c0p c r)
  | c0 c r => pure (bc.c00 c r)
  | b00 r => pure (bc.b00 r)
  | b10 r => pure (bc.b10 r)
  | b01 r => pure (bc.b01 r)
  | .rij c => pure (rij c)
  | .rkl c => pure (rkl c)
  | .g n => ld (g + n)
  | add a b => do
    let x ← a.eval bc rij rkl g
    let y ← b.eval bc rij rkl g
    pure (x + y)
  | mul a b => do
    let x ← a.eval bc rij rkl g
    let y ← b.eval bc rij rkl g
    pure (x * y)

/-- a sequence of assignments `g[n] = e` -/
def runAssigns (bc : Rys2eT α) (rij rkl : Nat → α) (g : Ptr) : List (Nat × UExpr) → Prog α Unit
  | [] => pure ()
  | (n, e) :: l => do
    let x ← e.eval bc rij rkl g
    st (g + n) x
    runAssigns bc rij rkl g l

end
end Verif.Model
