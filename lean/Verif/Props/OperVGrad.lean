import Verif.Props.OperV
import Verif.Lemmas.PotGrad

/-!
C50 — the integrals with the gradient of the potential: what their definitions call `nabla-rinv` is the derivative with respect to
the position of the charge, and int1e_drinv returns the derivatives of int1e_rinv with respect to env[PTR_RINV_ORIG].
-/
namespace Verif.Props
open Verif Verif.Model Verif.Prog Verif.Lemmas Verif.Spec MeasureTheory Polynomial

theorem potential_src (ζ : ℝ) (c : Pt) : potential ζ c = srcPotential (NucCall.rinv ζ fun k => if h : k < 3 then c ⟨k, h⟩ else 0).srcs := by
  rw [srcPotential_pot]
  show _ = potential ζ fun k : Fin 3 => if h : (k : Nat) < 3 then c ⟨k, h⟩ else 0
  congr 1
  funext k
  rw [dif_pos k.2]

/-- **C50** for every sum of operators `P`: putting the gradient of the potential along axis `k` in place of the potential (`Op.grad`)
gives the derivative of the integral with respect to coordinate `k` of the charge. -/
theorem C50_gradient (O A B C : Pt) (ζ : ℝ) {ni nj : ℕ} {ai ci aj cj : ℕ → ℝ} {n m : Fin 3 → ℕ} {ic jc : ℕ}
    (h : ∀ ip jp, ip < ni → jp < nj → 0 < ai ip + aj jp) (k : Fin 3) (P : Op) :
    HasDerivAt (fun x => Op.valV (potential ζ (Function.update C k x)) O A B (cgto ni ai ci A ic n) (cgto nj aj cj B jc m) P)
      (Op.valV (potential ζ C) O A B (cgto ni ai ci A ic n) (cgto nj aj cj B jc m) (Op.grad k P)) (C k) := by
  have h0 : HasDerivAt (fun t => Op.valV (potential ζ (moved k t C)) O A B (cgto ni ai ci A ic n) (cgto nj aj cj B jc m) P)
      (Op.valV (potential ζ C) O A B (cgto ni ai ci A ic n) (cgto nj aj cj B jc m) (Op.grad k P)) (C k - C k) := by
    rw [sub_self]
    simp only [potential_src, op_valV_cgto _ _ h]
    simp only [← potential_src]
    refine HasDerivAt.fun_sum fun jp hj => HasDerivAt.fun_sum fun ip hi => HasDerivAt.const_mul _ (HasDerivAt.const_mul _ ?_)
    exact op_grad O A B C ζ _ _ n m (h ip jp (Finset.mem_range.1 hi) (Finset.mem_range.1 hj)) k P
  refine (h0.comp_sub_const (C k) (C k)).congr_of_eventuallyEq (Filter.Eventually.of_forall fun x => ?_)
  dsimp only
  unfold moved
  rw [add_sub_cancel]

theorem drinv_out : PotDefs.drinv.out = [Op.grad 0 [⟨1, 0, [], [], []⟩], Op.grad 1 [⟨1, 0, [], [], []⟩], Op.grad 2 [⟨1, 0, [], [], []⟩]] := by
  decide +kernel

theorem drinv_mem : ("int1e_drinv", false, AutoNuc.int1e_drinv) ∈ AutoNuc.allV ∧ ("int1e_drinv", false, PotDefs.drinv) ∈ defsV := by
  constructor
  · unfold AutoNuc.allV
    iterate 36 apply List.mem_cons_of_mem
    exact List.mem_cons_self
  · unfold defsV
    iterate 36 apply List.mem_cons_of_mem
    exact List.mem_cons_self

theorem valV_one (V : Pt → ℝ) (O A B : Pt) (f g : Pt → ℝ) : Op.valV V O A B f g [⟨1, 0, [], [], []⟩] = ((braketV V f g : ℝ) : ℂ) := by
  unfold Op.valV Term.valV
  simp [Word.act]

/-- **C50** int1e_drinv: component `k` of every element is the derivative, with respect to coordinate `k` of the origin
env[PTR_RINV_ORIG], of the element int1e_rinv returns: the normalisation of s and p shells times `⟨f| 1/|r-c| |g⟩` (or with the
potential of a Gaussian charge). -/
theorem C50_drinv {L : MathLib ℝ} {s : Call ℝ} {mi mj : Nat → ℝ} {h : Heap ℝ} {fpd buf size : Nat}
    {fl loc counts out : Ptr} {dims : Option Ptr} {nd : Nat → Nat} {O : Nat → ℝ} {R : Rys ℝ} {z : ℝ} {c : Nat → ℝ}
    {atoms : List (Atom ℝ)}
    (hL : L.exp = Real.exp) (hi : MaxCoeff s.si mi) (hj : MaxCoeff s.sj mj)
    (hpos : ∀ ip jp, ip < s.si.nprim → jp < s.sj.nprim → 0 < s.si.a ip + s.sj.a jp)
    (hkept : ∀ ip jp, ip < s.si.nprim → jp < s.sj.nprim →
      Kept L s mi mj (s.si.l + AutoNuc.int1e_drinv.ng.i + (s.sj.l + AutoNuc.int1e_drinv.ng.j)) ip jp)
    (hR : RysOK R ((s.si.l + AutoNuc.int1e_drinv.ng.i + (s.sj.l + AutoNuc.int1e_drinv.ng.j))/2 + 1))
    (hli : s.si.l ≤ 15) (hlj : s.sj.l ≤ 15)
    (hs : Sizes 2 (two (ncart s.si.l) (ncart s.sj.l)) (two s.si.nctr s.sj.nctr) nd)
    (M : CallMem h fpd buf size fl loc counts) (hsize : cacheSize1e (AutoNuc.int1e_drinv.intV R (.ofType false z c atoms) O) s ≤ size)
    (A : OutArg h nd (fun t => two (ncart s.si.l) (ncart s.sj.l) t * two s.si.nctr s.sj.nctr t) 3 out dims
      buf fl loc counts) :
    ∃ has h', run (drv1e (AutoNuc.int1e_drinv.intV R (.ofType false z c atoms) O) s realK L fpd (fun _ _ => pure)
        (two (ncart s.si.l) (ncart s.sj.l)) out dims buf 0 fl loc counts) h = some (has, h') ∧
      ∀ (k : Fin 3) ic jc i j, ic < s.si.nctr → jc < s.sj.nctr → i < ncart s.si.l → j < ncart s.sj.l →
        ∃ v : ℝ, h'.D (out + outAt nd k (ic*ncart s.si.l+i) (jc*ncart s.sj.l+j) 0 0) = .val v ∧
          HasDerivAt (fun x => spNorm s.si.l * spNorm s.sj.l *
            braketV (potential z (Function.update (fun k : Fin 3 => c k) k x))
              (cgto s.si.nprim s.si.a s.si.c (centre s.si) ic (powers s.si.l i))
              (cgto s.sj.nprim s.sj.a s.sj.c (centre s.sj) jc (powers s.sj.l j))) v (c k) := by
  have hlen : PotDefs.drinv.out.length = 3 := by rw [drinv_out]; rfl
  rw [← hlen] at A
  obtain ⟨has, h', hr, hv⟩ := C50_potential_exact drinv_mem.1 drinv_mem.2 (O := O) (atoms := atoms) hL hi hj hpos hkept
    (fun hb => by cases hb) hR hli hlj hs M hsize A
  refine ⟨has, h', hr, fun k ic jc i j h1 h2 h3 h4 => ?_⟩
  have hk : (k : Nat) < PotDefs.drinv.out.length := by rw [hlen]; exact k.2
  obtain ⟨v, e1, e2⟩ := hv k ic jc i j hk h1 h2 h3 h4
  refine ⟨v, e1, ?_⟩
  have hget : PotDefs.drinv.out[(k : Nat)]'hk = Op.grad k [⟨1, 0, [], [], []⟩] := by
    have : PotDefs.drinv.out.getD k [] = Op.grad k [⟨1, 0, [], [], []⟩] := by
      rw [drinv_out]
      fin_cases k <;> rfl
    rw [List.getD_eq_getElem?_getD, List.getElem?_eq_getElem hk] at this
    exact this
  rw [hget] at e2
  have hd := C50_gradient (fun k => O k) (centre s.si) (centre s.sj) (fun k => c k) z (ci := s.si.c) (cj := s.sj.c)
    (n := powers s.si.l i) (m := powers s.sj.l j) (ic := ic) (jc := jc) hpos k [⟨1, 0, [], [], []⟩]
  simp only [valV_one] at hd
  have hd2 := hd.const_mul (((PotDefs.drinv.num : ℂ) / (PotDefs.drinv.den : ℂ)) * ((spNorm s.si.l * spNorm s.sj.l : ℝ) : ℂ))
  have e3 : (v : ℂ) = ((PotDefs.drinv.num : ℂ) / (PotDefs.drinv.den : ℂ)) * ((spNorm s.si.l * spNorm s.sj.l : ℝ) : ℂ) *
    Op.valV (potential z fun k => c k) (fun k => O k) (centre s.si) (centre s.sj)
              (cgto s.si.nprim s.si.a s.si.c (centre s.si) ic (powers s.si.l i))
              (cgto s.sj.nprim s.sj.a s.sj.c (centre s.sj) jc (powers s.sj.l j)) (Op.grad k [⟨1, 0, [], [], []⟩]) := e2
  rw [← e3] at hd2
  have hd3 := Complex.reCLM.hasFDerivAt.comp_hasDerivAt (c k) hd2
  have en : PotDefs.drinv.num = 1 := rfl
  have ed : PotDefs.drinv.den = 1 := rfl
  refine hd3.congr_of_eventuallyEq (Filter.Eventually.of_forall fun x => ?_)
  simp [en, ed, ← Complex.ofReal_mul, -Complex.ofReal_mul]

namespace OperVGradDemo
open OvlpDemo

/-- a p shell and a d shell, charge at (1, 0, 0): the element stored for `∂/∂c_y` -/
example : ∃ R : Rys ℝ, ∃ has h' v, run (drv1e (AutoNuc.int1e_drinv.intV R (.ofType false 0 (fun k => if k = 0 then 1 else 0) NucDemo.atoms)
      fun _ => 0) call realK lib 2 (fun _ _ => pure) (two (ncart 1) (ncart 2)) ⟨5, 0⟩ none 0 0 ⟨1, 0⟩ ⟨2, 0⟩ ⟨3, 0⟩) blank = some (has, h') ∧
    h'.D ((⟨5, 0⟩ : Ptr) + outAt (two 6 12) 1 (1*3+1) (0*6+2) 0 0) = .val v ∧
    HasDerivAt (fun x => spNorm 1 * spNorm 2 * braketV (potential 0 (Function.update (fun k : Fin 3 => if (k : Nat) = 0 then 1 else 0) 1 x))
        (cgto 2 (fun _ => 1) (fun _ => 1) (fun _ => 0) 1 (powers 1 1))
        (cgto 2 (fun _ => 1) (fun _ => 1) (fun _ => 0) 0 (powers 2 2))) v 0 := by
  obtain ⟨R, hR⟩ := NucDemo.rys
  obtain ⟨has, h', h1, h2⟩ := C50_drinv (L := lib) (s := call) (O := fun _ => 0) (R := R) (z := 0)
    (c := fun k => if k = 0 then 1 else 0)
    (atoms := NucDemo.atoms) (h := blank) (out := ⟨5, 0⟩) (dims := none) (nd := two 6 12) rfl maxc.1 maxc.2
    (fun _ _ _ _ => by show (0:ℝ) < 1 + 1; norm_num) (fun ip jp _ _ => OperDemo.kept' _ ip jp (by decide))
    (hR _) (by decide) (by decide) sizes
    (mem _) (le_refl _) ⟨outArg.h_dims, outArg.h_dims2, outArg.h_dbuf, fun m _ => by simp [blank], by decide⟩
  obtain ⟨v, e1, e2⟩ := h2 1 1 0 1 2 (by decide) (by decide) (by decide) (by decide)
  exact ⟨R, has, h', v, h1, e1, e2⟩

end OperVGradDemo

end Verif.Props
