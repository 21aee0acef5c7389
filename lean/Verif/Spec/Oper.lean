import Verif.Spec.Gauss
import Mathlib.Data.Complex.Basic
import Mathlib.Algebra.BigOperators.Fin

/-! Operators of one-electron integrals, as mathematics, and the integrals of the library written with them. -/
namespace Verif.Spec

abbrev Pt := Fin 3 → ℝ

/-- the elementary operators along one direction: derivative, coordinate, coordinate relative to the common origin,
coordinate relative to the centre of the function the operator is applied to -/
inductive El where
  | d | r0 | rc | ro
  deriving DecidableEq, Repr

/-- the operators on functions on space; `O` is the common origin, `A` the centre of the function -/
noncomputable def El.act (O A : Pt) (k : Fin 3) : El → (Pt → ℝ) → Pt → ℝ
  | .d, f => fun r => deriv (fun x => f (Function.update r k x)) (r k)
  | .r0, f => fun r => r k * f r
  | .rc, f => fun r => (r k - O k) * f r
  | .ro, f => fun r => (r k - A k) * f r

/-- the Laplacian: the sum of the second derivatives along the three axes -/
noncomputable def laplacian (f : Pt → ℝ) (r : Pt) : ℝ :=
  ∑ k, deriv (fun x => deriv (fun y => f (Function.update (Function.update r k x) k y)) x) (r k)

/-- a product of elementary operators; the last one acts first -/
abbrev Word := List (El × Fin 3)

noncomputable def Word.act (O A : Pt) (w : Word) (f : Pt → ℝ) : Pt → ℝ :=
  w.foldr (fun e f => e.1.act O A e.2 f) f

/-- `(re + i im) · ∏ (R_bra - R_ket)_k · ⟨ bra f | ket g ⟩` -/
structure Term where
  re : Int
  im : Int
  geo : List (Fin 3)
  bra : Word
  ket : Word
  deriving DecidableEq, Repr

/-- a sum of such terms -/
abbrev Op := List Term

/-- the value of a term for `f` centred at `A` and `g` centred at `B` -/
noncomputable def Term.val (O A B : Pt) (f g : Pt → ℝ) (t : Term) : ℂ :=
  ((t.re : ℂ) + Complex.I * (t.im : ℂ)) *
    (((t.geo.map fun k => A k - B k).prod * braket (Word.act O A t.bra f) (Word.act O B t.ket g) : ℝ) : ℂ)

noncomputable def Op.val (O A B : Pt) (f g : Pt → ℝ) (P : Op) : ℂ := (P.map (Term.val O A B f g)).sum

/-! ### Algebra -/

/-- product: operators of the bra on the bra, of the ket on the ket -/
def Term.mul (s t : Term) : Term :=
  ⟨s.re*t.re - s.im*t.im, s.re*t.im + s.im*t.re, s.geo ++ t.geo, s.bra ++ t.bra, s.ket ++ t.ket⟩

def Op.mul (P Q : Op) : Op := P.flatMap fun s => Q.map fun t => s.mul t
def Op.cst (re im : Int) : Op := [⟨re, im, [], [], []⟩]
/-- an operator, written on the ket -/
def Op.el (e : El) (k : Fin 3) : Op := [⟨1, 0, [], [], [(e, k)]⟩]
/-- `⟨P f| = ⟨f| P†`: an operator moved from the ket to the bra; coefficients are conjugated -/
def Op.dag (P : Op) : Op := P.map fun t => ⟨t.re, -t.im, t.geo, t.ket, t.bra⟩

/-- `one + x σ_x + y σ_y + z σ_z` with the Pauli matrices -/
structure Quat where
  one : Op
  x : Op
  y : Op
  z : Op

/-- `σ_a σ_b = δ_ab + i ε_abc σ_c` -/
def Quat.mul (p q : Quat) : Quat :=
  let i := Op.cst 0 1
  let n := Op.cst 0 (-1)
  { one := p.one.mul q.one ++ p.x.mul q.x ++ p.y.mul q.y ++ p.z.mul q.z
    x := p.one.mul q.x ++ p.x.mul q.one ++ i.mul (p.y.mul q.z) ++ n.mul (p.z.mul q.y)
    y := p.one.mul q.y ++ p.y.mul q.one ++ i.mul (p.z.mul q.x) ++ n.mul (p.x.mul q.z)
    z := p.one.mul q.z ++ p.z.mul q.one ++ i.mul (p.x.mul q.y) ++ n.mul (p.y.mul q.x) }

def Quat.add (p q : Quat) : Quat := ⟨p.one ++ q.one, p.x ++ q.x, p.y ++ q.y, p.z ++ q.z⟩
/-- without spin -/
def Quat.sf (P : Op) : Quat := ⟨P, [], [], []⟩
def Quat.cst (re im : Int) : Quat := .sf (.cst re im)
def Quat.dag (q : Quat) : Quat := ⟨q.one.dag, q.x.dag, q.y.dag, q.z.dag⟩

instance : Mul Quat := ⟨Quat.mul⟩
instance : Add Quat := ⟨Quat.add⟩
instance : OfNat Quat 1 := ⟨.cst 1 0⟩

abbrev Vec := Fin 3 → Quat

/-- `-i∇` -/
def p : Vec := fun k => .cst 0 (-1) * .sf (.el .d k)
def nabla : Vec := fun k => .sf (.el .d k)
/-- position relative to the common origin -/
def rc : Vec := fun k => .sf (.el .rc k)
/-- position relative to the centre of the function -/
def r : Vec := fun k => .sf (.el .ro k)
/-- the Pauli matrices -/
def sigma : Vec := ![⟨[], .cst 1 0, [], []⟩, ⟨[], [], .cst 1 0, []⟩, ⟨[], [], [], .cst 1 0⟩]
/-- `i (R_bra - R_ket) × r`: twice the derivative of the London phase of the pair with respect to the field.  It multiplies the
product of both functions and is written on the ket. -/
def g : Vec := fun k =>
  .sf ([⟨0, 1, [k+1], [], [(.r0, k+2)]⟩, ⟨0, -1, [k+2], [], [(.r0, k+1)]⟩])
/-- the same written in the bra, where it gets conjugated: `⟨g f|` stands for the product of `g` with `⟨f|` -/
def gBra : Vec := fun k =>
  .sf ([⟨0, -1, [k+1], [], [(.r0, k+2)]⟩, ⟨0, 1, [k+2], [], [(.r0, k+1)]⟩])

def dot (u v : Vec) : Quat := u 0 * v 0 + (u 1 * v 1 + u 2 * v 2)
def cross (u v : Vec) : Vec := fun k => u (k+1) * v (k+2) + .cst (-1) 0 * (u (k+2) * v (k+1))

/-- the components of a vector -/
def comps (v : Vec) : List Quat := [v 0, v 1, v 2]
/-- tensor product, the components of the first factor slowest -/
def tens (u v : List Quat) : List Quat := u.flatMap fun a => v.map fun b => a * b

/-- An integral `fac · ⟨bra f | ket g⟩`.  With spin, a component `q = 1·q₀ + σ·q` is returned as the four numbers
`o` such that `q = phase · (o₃ + i (o₀ σ_x + o₁ σ_y + o₂ σ_z))`; without, as `o` with `q = phase · o`. -/
structure Def1e where
  num : Int := 1
  den : Nat := 1
  /-- the phase is `i` instead of 1 -/
  imag : Bool := false
  spin : Bool := false
  bra : List Quat := [1]
  ket : List Quat := [1]

/-- the operators of the numbers returned, in the order of the output -/
def Def1e.out (D : Def1e) : List Op :=
  (tens (D.bra.map Quat.dag) D.ket).flatMap fun q =>
    let q := if D.imag then .cst 0 (-1) * q else q
    if D.spin then [Op.mul (.cst 0 (-1)) q.x, Op.mul (.cst 0 (-1)) q.y, Op.mul (.cst 0 (-1)) q.z, q.one] else [q.one]

/-! ### The integrals evaluated from overlaps (compare scripts/auto_intor.cl) -/

def I : Quat := .cst 0 1
private def z (e : El) : Quat := .sf (.el e 2)

def kin : Def1e := { den := 2, ket := [dot p p] }
def giao_irjxp : Def1e := { ket := tens [I] (comps (cross r p)) }
def cg_irxp : Def1e := { ket := tens [I] (comps (cross rc p)) }
def igkin : Def1e := { den := 4, bra := comps gBra, ket := [I * dot p p] }
def igovlp : Def1e := { den := 2, bra := comps gBra, ket := [I] }
def int_z : Def1e := { ket := [z .rc] }
def int_zz : Def1e := { ket := [z .rc * z .rc] }
def int_r : Def1e := { ket := comps rc }
def r2 : Def1e := { ket := [dot rc rc] }
def r4 : Def1e := { ket := [dot rc rc * dot rc rc] }
def rr : Def1e := { ket := tens (comps rc) (comps rc) }
def rrr : Def1e := { ket := tens (tens (comps rc) (comps rc)) (comps rc) }
def rrrr : Def1e := { ket := tens (tens (tens (comps rc) (comps rc)) (comps rc)) (comps rc) }
def z_origj : Def1e := { ket := [z .ro] }
def zz_origj : Def1e := { ket := [z .ro * z .ro] }
def r_origj : Def1e := { ket := comps r }
def rr_origj : Def1e := { ket := tens (comps r) (comps r) }
def r2_origj : Def1e := { ket := [dot r r] }
def r4_origj : Def1e := { ket := [dot r r * dot r r] }
def p4 : Def1e := { bra := [dot p p], ket := [dot p p] }
def irp : Def1e := { ket := tens (comps rc) (comps nabla) }
def irrp : Def1e := { ket := tens (tens (comps rc) (comps rc)) (comps nabla) }
def irpr : Def1e := { ket := tens (tens (comps rc) (comps nabla)) (comps rc) }
def ggovlp : Def1e := { den := 4, ket := tens (comps g) (comps g) }
def ggkin : Def1e := { den := 8, ket := tens (tens (comps g) (comps g)) [dot p p] }
def grjxp : Def1e := { den := 2, ket := tens (comps g) (comps (cross r p)) }
def int_sigma : Def1e := { spin := true, ket := comps sigma, imag := true }
def sp : Quat := dot sigma p
def sr : Quat := dot sigma r
def spsigmasp : Def1e := { spin := true, imag := true, bra := [sp], ket := tens (comps sigma) [sp] }
def srsr : Def1e := { spin := true, bra := [sr], ket := [sr] }
def int_sr : Def1e := { spin := true, imag := true, bra := [sr] }
def srsp : Def1e := { spin := true, imag := true, bra := [sr], ket := [sp] }
/-- the spin-free part; the components with `σ` vanish after integration by parts -/
def spsp : Def1e := { bra := [sp], ket := [sp] }
def int_sp : Def1e := { spin := true, bra := [sp] }
def sprsp : Def1e := { spin := true, bra := [sp], ket := tens (comps rc) [sp] }
def govlp : Def1e := { den := 2, imag := true, bra := comps gBra }
def cg_sa10sp : Def1e := { den := 2, spin := true, imag := true, bra := comps (cross rc sigma), ket := [sp] }
def giao_sa10sp : Def1e := { den := 2, spin := true, imag := true, bra := comps (cross r sigma), ket := [sp] }
def spgsp : Def1e := { den := 2, spin := true, imag := true, bra := tens (comps gBra) [sp], ket := [sp] }
def spspsp : Def1e := { spin := true, bra := [sp], ket := [sp * sp] }
def ipovlp : Def1e := { bra := comps nabla }
def ovlpip : Def1e := { ket := comps nabla }
def ipkin : Def1e := { den := 2, bra := comps nabla, ket := [dot p p] }
def kinip : Def1e := { den := 2, ket := tens [dot p p] (comps nabla) }
def ipipovlp : Def1e := { bra := tens (comps nabla) (comps nabla) }
def ipovlpip : Def1e := { bra := comps nabla, ket := comps nabla }
def ipipkin : Def1e := { den := 2, bra := tens (comps nabla) (comps nabla), ket := [dot p p] }
def ipkinip : Def1e := { den := 2, bra := comps nabla, ket := tens [dot p p] (comps nabla) }
def ipipr : Def1e := { bra := tens (comps nabla) (comps nabla), ket := comps rc }
def iprip : Def1e := { bra := comps nabla, ket := tens (comps rc) (comps nabla) }
def r2_origi : Def1e := { bra := [dot r r] }
def r4_origi : Def1e := { bra := [dot r r * dot r r] }
def r2_origi_ip2 : Def1e := { bra := [dot r r], ket := comps nabla }
def r4_origi_ip2 : Def1e := { bra := [dot r r * dot r r], ket := comps nabla }

/-- the catalogue -/
def defs1e : List (String × Def1e) := [
  ("int1e_spspsp", spspsp), ("int1e_ipovlp", ipovlp), ("int1e_ovlpip", ovlpip), ("int1e_ipkin", ipkin),
  ("int1e_kinip", kinip), ("int1e_ipipovlp", ipipovlp), ("int1e_ipovlpip", ipovlpip), ("int1e_ipipkin", ipipkin),
  ("int1e_ipkinip", ipkinip), ("int1e_ipipr", ipipr), ("int1e_iprip", iprip), ("int1e_kin", kin),
  ("int1e_giao_irjxp", giao_irjxp), ("int1e_cg_irxp", cg_irxp), ("int1e_igkin", igkin), ("int1e_igovlp", igovlp),
  ("int1e_z", int_z), ("int1e_zz", int_zz), ("int1e_r", int_r), ("int1e_r2", r2), ("int1e_r4", r4), ("int1e_rr", rr),
  ("int1e_rrr", rrr), ("int1e_rrrr", rrrr), ("int1e_z_origj", z_origj), ("int1e_zz_origj", zz_origj),
  ("int1e_r_origj", r_origj), ("int1e_rr_origj", rr_origj), ("int1e_r2_origj", r2_origj), ("int1e_r4_origj", r4_origj),
  ("int1e_p4", p4), ("int1e_irp", irp), ("int1e_irrp", irrp), ("int1e_irpr", irpr), ("int1e_ggovlp", ggovlp),
  ("int1e_ggkin", ggkin), ("int1e_grjxp", grjxp), ("int1e_sigma", int_sigma), ("int1e_spsigmasp", spsigmasp),
  ("int1e_srsr", srsr), ("int1e_sr", int_sr), ("int1e_srsp", srsp), ("int1e_spsp", spsp), ("int1e_sp", int_sp),
  ("int1e_sprsp", sprsp), ("int1e_govlp", govlp), ("int1e_cg_sa10sp", cg_sa10sp), ("int1e_giao_sa10sp", giao_sa10sp),
  ("int1e_spgsp", spgsp), ("int1e_r2_origi", r2_origi), ("int1e_r4_origi", r4_origi), ("int1e_r2_origi_ip2", r2_origi_ip2),
  ("int1e_r4_origi_ip2", r4_origi_ip2)]

end Verif.Spec
