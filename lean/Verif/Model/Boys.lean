import Verif.Core.Prog
import Mathlib.Algebra.Field.Defs
import Mathlib.Data.Rat.Cast.Defs
import Mathlib.Order.Defs.LinearOrder

/-
Auxiliary (Boys) functions, src/fmt.c.  The long double and quad precision versions
(lgamma_inc_like, fmt_lerfc_like, qgamma_inc_like, fmt_qerfc_like) have the same text.

Reading TURNOVER_POINT beyond its 40 elements is a failure.  `eps` is SML_FLOAT64 (:20).  Loops that end on a floating point
condition take fuel; running out of fuel is a failure.
-/
namespace Verif.Model
open Verif Prog

/-- the C library functions used -/
structure BoysLib (α : Type) where
  exp : α → α
  sqrt : α → α
  erf : α → α
  erfc : α → α
  /-- SQRTPIE4, src/fmt.c:23 -/
  sqrtpie4 : α

variable {α : Type} [Field α] [LinearOrder α]

/-- the loop of src/fmt.c:195-198 -/
def gammaSeries (t tol : α) : Nat → α → α → α → Prog α α
  | 0, _, _, _ => fail
  | n+1, bi, x, s => if x > tol then gammaSeries t tol n (bi+1) (x*(t/bi)) (s + x*(t/bi)) else pure s

/-- fmt1_gamma_inc_like, src/fmt.c:186-204.  The loop `for (i = m; i > 0; i--)` runs over
`k = m - i`; its state is `b`. -/
def fmt1GammaInc (L : BoysLib α) (eps : α) (fuel : Nat) (f : Ptr) (t : α) (m : Nat) : Prog α Unit := do
  let b : α := m + 1/2
  let e := 1/2 * L.exp (-t)
  let tol := eps * e
  let s ← gammaSeries t tol fuel (b + 1) e e
  st (f + m) (s / b)
  let _ ← forS m b fun k b => do
    let i := m - k
    let b := b - 1
    let x ← ld (f + i)
    st (f + (i-1)) ((e + t * x) / b)
    pure b
  pure ()

/-- TURNOVER_POINT, src/fmt.c:42-83, digit for digit -/
def turnoverTable : List ℚ := [
  0, 0, 866025403784/10^12, 1295010032056/10^12,
  1705493613097/10^12, 2106432965305/10^12, 2501471934009/10^12, 2892473348218/10^12,
  3280525047072/10^12, 3666320693281/10^12, 405033123037/10^11, 4432891808508/10^12,
  4814249856864/10^12, 5194593501454/10^12, 5574069276051/10^12, 5952793645111/10^12,
  6330860773135/10^12, 6708347923415/10^12, 708531930745/10^11, 7461828891625/10^12,
  7837922483937/10^12, 8213639312398/10^12, 8589013237349/10^12, 8964073695432/10^12,
  9338846443746/10^12, 9713354153046/10^12, 1008761688545/10^11, 1046165248270/10^11,
  1083547688448/10^11, 1120910439128/10^11, 1158254788331/10^11, 1195581900374/10^11,
  1232892831326/10^11, 1270188542111/10^11, 1307469909673/10^11, 1344737736550/10^11,
  1381992759110/10^11, 1419235654675/10^11, 1456467047710/10^11, 1493687515212/10^11]

/-- the access TURNOVER_POINT[m], src/fmt.c:214, :363 -/
def turnover (m : Nat) : Prog α α :=
  match turnoverTable[m]? with
  | some q => pure (q : α)
  | none => fail

/-- gamma_inc_like, src/fmt.c:206-226 -/
def gammaIncLike (L : BoysLib α) (eps : α) (fuel : Nat) (f : Ptr) (t : α) (m : Nat) :
    Prog α Unit :=
  if t = 0 then do
    st f 1
    forN m fun k => st (f + (k+1)) (1 / (2*((k : α)+1)+1))
  else do
    let tm ← turnover m
    if t < tm then fmt1GammaInc L eps fuel f t m
    else do
      let tt := L.sqrt t
      st f (L.sqrtpie4 / tt * L.erf tt)
      let e := L.exp (-t)
      let b := 1/2 / t
      forN m fun k => do
        let x ← ld (f + k)
        st (f + (k+1)) (b * ((2*((k : α)+1)-1) * x - e))

/-- fabs -/
def fabs (x : α) : α := if x < 0 then -x else x

/-- `_pow`, src/fmt.c:270-281: `i` runs through the powers of two up to the exponent; `fuel`
bounds the number of bits -/
def powLoop (exponent : Nat) : Nat → Nat → α → α → α
  | 0, _, _, r => r
  | n+1, i, base, r =>
    if i ≤ exponent then powLoop exponent n (i*2) (base*base) (if i &&& exponent ≠ 0 then r*base else r)
    else r

def pow (base : α) (exponent : Nat) : α := powLoop exponent (exponent+1) 1 base 1

/-- the loop of src/fmt.c:325-330 -/
def erfcSeries (t lower2 tol x : α) : Nat → α → α → α → α → α → Prog α α
  | 0, _, _, _, _, _ => fail
  | n+1, bi, div, x1, delta, s =>
    if fabs delta > tol then
      let div := div * (t/bi)
      let x1 := x1 * lower2
      let delta := (x - x1) * div
      erfcSeries t lower2 tol x n (bi+1) div x1 delta (s + delta)
    else pure s

/-- fmt1_erfc_like, src/fmt.c:310-339 -/
def fmt1Erfc (L : BoysLib α) (eps : α) (fuel : Nat) (f : Ptr) (t lower : α) (m : Nat) : Prog α Unit := do
  let lower2 := lower * lower
  let b : α := m + 1/2
  let e := 1/2 * L.exp (-t)
  let e1 := 1/2 * L.exp (-t * lower2) * lower
  let e1 := e1 * pow lower2 m
  let s := e - e1
  let tol := eps * fabs s
  let s ← erfcSeries t lower2 tol e fuel (b + 1) 1 e1 s s
  let val := s / b
  st (f + m) val
  let _ ← forS m (b, e1, val) fun k (b, e1, val) => do
    let i := m - k
    let b := b - 1
    let e1 := e1 / lower2
    let val := (e - e1 + t * val) / b
    st (f + (i-1)) val
    pure (b, e1, val)
  pure ()

/-- fmt_erfc_like, src/fmt.c:340-379; ERFC_bound = 200 -/
def fmtErfcLike (L : BoysLib α) (eps : α) (fuel : Nat) (f : Ptr) (t lower : α) (m : Nat) :
    Prog α Unit :=
  if lower = 0 then gammaIncLike L eps fuel f t m else do
  let lower2 := lower * lower
  if t * lower2 > 200 then forN (m+1) fun i => st (f + i) 0
  else if t = 0 then do
    let e1 := lower
    st f (1 - e1)
    let _ ← forS m e1 fun k e1 => do
      let e1 := e1 * lower2
      st (f + (k+1)) ((1 - e1) / (2*((k : α)+1)+1))
      pure e1
    pure ()
  else do
    let tm ← turnover m
    if t < tm then fmt1Erfc L eps fuel f t lower m
    else do
      let tt := L.sqrt t
      let val := L.sqrtpie4 / tt * (L.erfc (lower * tt) - L.erfc tt)
      st f val
      let e := L.exp (-t)
      let e1 := L.exp (-t * lower2) * lower
      let b := 1/2 / t
      let _ ← forS m (val, e1) fun i (val, e1) => do
        let val := b * ((2*(i : α)+1) * val - e + e1)
        let e1 := e1 * lower2
        st (f + (i+1)) val
        pure (val, e1)
      pure ()

end Verif.Model
