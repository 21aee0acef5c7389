import Verif.Lemmas.SpinorFnV
import Verif.Props.GridsSpinor
import Verif.Props.OperV

/-!
C30 for spinor output of the nuclear attraction; C50 for spherical and spinor output of the generated integrals with a potential.
-/
namespace Verif.Props
open Verif Verif.Model Verif.Prog Verif.Lemmas Verif.Spec MeasureTheory

/-- **C30** int1e_nuc_spinor, no primitive pair screened: exactly the matrix element of the attraction between the two-component
functions. -/
theorem C30_nuc_spinor {L : MathLib ℝ} {s : Call ℝ} {mi mj : Nat → ℝ} {R : Rys ℝ} {atoms : List (Atom ℝ)} {ki kj : Int}
    (B : SpMem (nucInt R (.nuc atoms)) s 1 ki kj) (hL : L.exp = Real.exp)
    (hi : MaxCoeff s.si mi) (hj : MaxCoeff s.sj mj)
    (hpos : ∀ ip jp, ip < s.si.nprim → jp < s.sj.nprim → 0 < s.si.a ip + s.sj.a jp)
    (hkept : ∀ ip jp, ip < s.si.nprim → jp < s.sj.nprim → Kept L s mi mj (s.si.l + s.sj.l) ip jp)
    (hA : atoms ≠ []) (hR : RysOK R ((s.si.l + s.sj.l)/2 + 1))
    (hli : s.si.l < 13) (hlj : s.sj.l < 13) :
    ∃ has h', SpEnds B ⟨false, false⟩ 1 realK L has h' ∧
      ∀ ic jc i j, ic < s.si.nctr → jc < s.sj.nctr → i < lenSpinorC2S ki s.si.l → j < lenSpinorC2S kj s.sj.l →
        ∃ z : Cx ℝ, B.Elem h' 0 ic i jc j z ∧
          z.toC = ∫ r, ∑ σ : Bool, star (jgto s.si ki ic i σ r) * (attraction atoms r : ℂ) * jgto s.sj kj jc j σ r := by
  have n1 : 0 < s.si.nctr := B.hs.nctr_pos 0 (by omega)
  have n2 : 0 < s.sj.nctr := B.hs.nctr_pos 1 (by omega)
  have hN : (NucCall.nuc atoms).srcs ≠ [] := fun h => hA (List.map_eq_nil_iff.1 h)
  let A := blankMem (nucInt R (.nuc atoms)) s n1 n2
  obtain ⟨ra, ha, rb, hb, eA, eB, x, vA, vB⟩ := C49_one_electron (kd := ⟨false, false⟩) A B rfl (nuc_eval (L := L) hpos hN hR) (le_refl 1)
    hli hlj
  obtain ⟨rc, hc, eC, vC⟩ := C30_nuc_exact hL hi hj hpos hkept hA hR (by omega) (by omega) A.hs A.M A.hsize A.O
  have hAC : ha = hc := by
    have e : some (ra, ha) = some (rc, hc) := eA.symm.trans eC
    simp only [Option.some.injEq, Prod.mk.injEq] at e
    exact e.2
  refine ⟨rb, hb, eB, fun ic jc i j h1 h2 h3 h4 => ⟨_, vB 0 ic jc i j Nat.zero_lt_one h1 h2 h3 h4, ?_⟩⟩
  refine spinor2_braketV (x := fun c a b => x (0*1+c) ic a jc b) (fun ip jp n m hip hjp => by
    rw [← srcPotential_nuc]
    exact (integrable_gto_src (hpos ip jp hip hjp) _ _ _ _ _).1) fun a b g1 g2 => ?_
  have c1 := vA 0 ic jc a b Nat.zero_lt_one h1 h2 g1 g2
  have c2 := vC ic jc a b h1 h2 g1 g2
  rw [← hAC] at c2
  exact Cell.val.inj (c1.symm.trans c2)

/-- **C50**, spherical output, no primitive pair screened. -/
theorem C50_potential_spherical {name : String} {b b' : Bool} {G : Gen1e} {D : Def1e} (hG : (name, b, G) ∈ AutoNuc.allV) (hD : (name, b', D) ∈ defsV)
    {L : MathLib ℝ} {s : Call ℝ} {mi mj : Nat → ℝ} {O : Nat → ℝ} {R : Rys ℝ} {zeta : ℝ} {cen : Nat → ℝ} {atoms : List (Atom ℝ)} (B : SphMem (G.intV R (.ofType b zeta cen atoms) O) s) (hL : L.exp = Real.exp)
    (hi : MaxCoeff s.si mi) (hj : MaxCoeff s.sj mj)
    (hpos : ∀ ip jp, ip < s.si.nprim → jp < s.sj.nprim → 0 < s.si.a ip + s.sj.a jp)
    (hkept : ∀ ip jp, ip < s.si.nprim → jp < s.sj.nprim →
      Kept L s mi mj (s.si.l + G.ng.i + (s.sj.l + G.ng.j)) ip jp)
    (hN : b = true → atoms ≠ []) (hR : RysOK R ((s.si.l + G.ng.i + (s.sj.l + G.ng.j))/2 + 1))
    (hli : s.si.l ≤ 15) (hlj : s.sj.l ≤ 15) :
    ∃ has h', SphEnds B realK L has h' ∧
      ∀ comp ic jc i j (hc : comp < D.out.length), ic < s.si.nctr → jc < s.sj.nctr → i < s.si.l*2+1 → j < s.sj.l*2+1 →
        ∃ v : ℝ, B.elem h' comp ic i jc j = .val v ∧
          (v : ℂ) = ((D.num : ℂ) / (D.den : ℂ)) * ∑ a ∈ Finset.range (ncart s.si.l), ∑ b ∈ Finset.range (ncart s.sj.l),
            ((spNorm s.si.l * c2sCoef s.si.l i a : ℝ) : ℂ) * ((spNorm s.sj.l * c2sCoef s.sj.l j b : ℝ) : ℂ) *
            Op.valV (potV b' zeta (fun k => cen k) atoms) (fun k => O k) (centre s.si) (centre s.sj)
              (cgto s.si.nprim s.si.a s.si.c (centre s.si) ic (powers s.si.l a))
              (cgto s.sj.nprim s.sj.a s.sj.c (centre s.sj) jc (powers s.sj.l b)) D.out[comp] := by
  have n1 : 0 < s.si.nctr := B.hs.nctr_pos 0 (by omega)
  have n2 : 0 < s.sj.nctr := B.hs.nctr_pos 1 (by omega)
  obtain ⟨ws, hOK, hnum, hden, hd0, hnc, hcomp⟩ := matchesV_unfold (matchesV_of hG hD).2
  have hN' : (NucCall.ofType b zeta cen atoms).srcs ≠ [] := by
    cases b with
    | false => exact List.cons_ne_nil _ _
    | true => exact fun h => hN rfl (List.map_eq_nil_iff.1 h)
  let A := blankMem (G.intV R (.ofType b zeta cen atoms) O) s n1 n2
  have AO := A.O
  have hnc' : (G.intV R (.ofType b zeta cen atoms) O).nComp = D.out.length := hnc
  rw [hnc'] at AO
  obtain ⟨ra, ha, rb, hb, eA, eB, x, vA, vB⟩ := C19_one_electron A B (gen_evalV hOK (L := L) hpos hN' hR)
    (Nat.pos_of_ne_zero hOK.pos) hli hlj
  obtain ⟨rc, hc, eC, vC⟩ := C50_potential_exact hG hD (O := O) hL hi hj hpos hkept hN hR hli hlj A.hs A.M A.hsize AO
  have hAC : ha = hc := by
    have e : some (ra, ha) = some (rc, hc) := eA.symm.trans eC
    simp only [Option.some.injEq, Prod.mk.injEq] at e
    exact e.2
  refine ⟨rb, hb, eB, fun comp ic jc i j hc' h1 h2 h3 h4 => ⟨_, vB comp ic jc i j (by rw [hnc']; exact hc') h1 h2 h3 h4, ?_⟩⟩
  push_cast
  rw [Finset.mul_sum]
  refine Finset.sum_congr rfl fun a ha' => ?_
  rw [Finset.mul_sum]
  refine Finset.sum_congr rfl fun b hb' => ?_
  have c1 := vA comp ic jc a b (by rw [hnc']; exact hc') h1 h2 (Finset.mem_range.1 ha') (Finset.mem_range.1 hb')
  obtain ⟨v, c2, c3⟩ := vC comp ic jc a b hc' h1 h2 (Finset.mem_range.1 ha') (Finset.mem_range.1 hb')
  rw [← hAC] at c2
  have := Cell.val.inj (c1.symm.trans c2)
  rw [this, c3]
  push_cast
  ring

/-- The wrappers int1e_*_spinor select the output function that belongs to the operator. -/
theorem spinor_kindsV : (Auto.spinorV.all fun x => AutoNuc.allV.all fun y => defsV.all fun d =>
    !(decide (x.1 = y.1) && decide (x.1 = d.1)) || (decide (x.2.1.si = d.2.2.spin) && decide (x.2.1.ph = d.2.2.imag) &&
      decide (x.2.2.1 = if d.2.2.spin then 4 else 1) && decide (x.2.2.2 = d.2.2.ops.length) && decide (0 < d.2.2.ops.length) &&
      decide (y.2.2.nComp = x.2.2.1 * x.2.2.2))) = true := by decide +kernel

/-- **C50** every integral of the catalogue has a spinor variant -/
theorem C50_spinor_catalogue : Auto.spinorV.map (·.1) = defsV.map (·.1) := by decide +kernel

/-- **C50**, spinor output, no primitive pair screened: the integrals over two-component functions of the operator in the definition. -/
theorem C50_potential_spinor {name : String} {b b' : Bool} {G : Gen1e} {D : Def1e} {kd : SpKind} {e1 nT : Nat} (hG : (name, b, G) ∈ AutoNuc.allV)
    (hD : (name, b', D) ∈ defsV) (hS : (name, kd, e1, nT) ∈ Auto.spinorV)
    {L : MathLib ℝ} {s : Call ℝ} {mi mj : Nat → ℝ} {O : Nat → ℝ} {R : Rys ℝ} {zeta : ℝ} {cen : Nat → ℝ} {atoms : List (Atom ℝ)} {ki kj : Int} (B : SpMem (G.intV R (.ofType b zeta cen atoms) O) s nT ki kj) (hL : L.exp = Real.exp)
    (hi : MaxCoeff s.si mi) (hj : MaxCoeff s.sj mj)
    (hpos : ∀ ip jp, ip < s.si.nprim → jp < s.sj.nprim → 0 < s.si.a ip + s.sj.a jp)
    (hkept : ∀ ip jp, ip < s.si.nprim → jp < s.sj.nprim →
      Kept L s mi mj (s.si.l + G.ng.i + (s.sj.l + G.ng.j)) ip jp)
    (hN : b = true → atoms ≠ []) (hR : RysOK R ((s.si.l + G.ng.i + (s.sj.l + G.ng.j))/2 + 1))
    (hli : s.si.l < 13) (hlj : s.sj.l < 13) :
    ∃ has h', SpEnds B kd e1 realK L has h' ∧ D.ops.length = nT ∧
      ∀ n ic jc i j (hn : n < D.ops.length), ic < s.si.nctr → jc < s.sj.nctr → i < lenSpinorC2S ki s.si.l → j < lenSpinorC2S kj s.sj.l →
        ∃ z : Cx ℝ, B.Elem h' n ic i jc j z ∧
          z.toC = ((D.num : ℂ) / (D.den : ℂ)) * ∑ a ∈ Finset.range (ncart s.si.l), ∑ b ∈ Finset.range (ncart s.sj.l),
            ∑ σ : Bool, ∑ τ : Bool, star ((spNorm s.si.l : ℂ) * (cjCoef ki s.si.l i σ a).toC) *
            Quat.matV (potV b' zeta (fun k => cen k) atoms) (fun k => O k) (centre s.si) (centre s.sj)
              (cgto s.si.nprim s.si.a s.si.c (centre s.si) ic (powers s.si.l a))
              (cgto s.sj.nprim s.sj.a s.sj.c (centre s.sj) jc (powers s.sj.l b)) D.ops[n] σ τ *
            ((spNorm s.sj.l : ℂ) * (cjCoef kj s.sj.l j τ b).toC) := by
  have hc := List.all_eq_true.1 (List.all_eq_true.1 (List.all_eq_true.1 spinor_kindsV _ hS) _ hG) _ hD
  simp only [decide_true, Bool.and_self, Bool.not_true, Bool.false_or, Bool.and_eq_true, decide_eq_true_eq] at hc
  obtain ⟨⟨⟨⟨⟨k1, k2⟩, k3⟩, k4⟩, k5⟩, k6⟩ := hc
  have n1 : 0 < s.si.nctr := B.hs.nctr_pos 0 (by omega)
  have n2 : 0 < s.sj.nctr := B.hs.nctr_pos 1 (by omega)
  obtain ⟨ws, hOK, hnum, hden, hd0, hnc, hcomp⟩ := matchesV_unfold (matchesV_of hG hD).2
  have hN' : (NucCall.ofType b zeta cen atoms).srcs ≠ [] := by
    cases b with
    | false => exact List.cons_ne_nil _ _
    | true => exact fun h => hN rfl (List.map_eq_nil_iff.1 h)
  let A := blankMem (G.intV R (.ofType b zeta cen atoms) O) s n1 n2
  have AO := A.O
  have hnc' : (G.intV R (.ofType b zeta cen atoms) O).nComp = D.out.length := hnc
  rw [hnc'] at AO
  have hn0 : (G.intV R (.ofType b zeta cen atoms) O).nComp = (if kd.si then 4 else 1) * nT := by
    rw [k1, ← k3]; exact k6
  obtain ⟨ra, ha, rb, hb, eA, eB, x, vA, vB⟩ := C49_one_electron A B hn0 (gen_evalV hOK (L := L) hpos hN' hR) (by omega) hli hlj
  obtain ⟨rc, hc, eC, vC⟩ := C50_potential_exact hG hD (O := O) hL hi hj hpos hkept hN hR (by omega) (by omega) A.hs A.M A.hsize AO
  have hAC : ha = hc := by
    have e : some (ra, ha) = some (rc, hc) := eA.symm.trans eC
    simp only [Option.some.injEq, Prod.mk.injEq] at e
    exact e.2
  refine ⟨rb, hb, by rw [k3, ← k1]; exact eB, k4.symm, fun n ic jc i j hn h1 h2 h3 h4 => ⟨_, vB n ic jc i j (by omega) h1 h2 h3 h4, ?_⟩⟩
  rw [toC_spinor2, Finset.mul_sum]
  refine Finset.sum_congr rfl fun a ha' => ?_
  rw [Finset.mul_sum]
  refine Finset.sum_congr rfl fun b hb' => ?_
  have key := spinMat_outV D (potV b' zeta (fun k => cen k) atoms) (fun k => O k) (centre s.si) (centre s.sj)
    (cgto s.si.nprim s.si.a s.si.c (centre s.si) ic (powers s.si.l a))
    (cgto s.sj.nprim s.sj.a s.sj.c (centre s.sj) jc (powers s.sj.l b)) n hn
    (fun c => x (n * (if kd.si then 4 else 1) + c) ic a jc b) (((D.num : ℂ) / (D.den : ℂ)) * ((spNorm s.si.l * spNorm s.sj.l : ℝ) : ℂ))
    (fun c hc => by
      have hlt := out_index D hn hc
      have c1 := vA (n * (if D.spin then 4 else 1) + c) ic jc a b (by rw [hnc']; exact hlt) h1 h2 (Finset.mem_range.1 ha')
        (Finset.mem_range.1 hb')
      obtain ⟨v, c2, c3⟩ := vC (n * (if D.spin then 4 else 1) + c) ic jc a b hlt h1 h2 (Finset.mem_range.1 ha') (Finset.mem_range.1 hb')
      rw [← hAC] at c2
      have := Cell.val.inj (c1.symm.trans c2)
      rw [k1, this, c3])
  rw [k1, k2, Finset.mul_sum]
  refine Finset.sum_congr rfl fun σ _ => ?_
  rw [Finset.mul_sum]
  refine Finset.sum_congr rfl fun τ _ => ?_
  rw [k1] at key
  rw [key]
  simp only [star_mul, Complex.star_def, Complex.conj_ofReal]
  push_cast
  ring

/-! ### The hypotheses can be met -/
namespace SpinorNucDemo
open OvlpDemo SpinorDemo

/-- three nuclei of different kinds; the second contraction of the fourth p function with the first contraction of the last d function
of j = 5/2 -/
example : ∃ R : Rys ℝ, ∃ has h', SpEnds (spMem (nucInt R (.nuc NucDemo.atoms)) call 1 0 (-3) (by decide) (by decide) (by decide)
    (by decide)) ⟨false, false⟩ 1 realK lib has h' ∧ ∃ z : Cx ℝ,
    (spMem (nucInt R (.nuc NucDemo.atoms)) call 1 0 (-3) (by decide) (by decide) (by decide) (by decide)).Elem h' 0 1 3 0 5 z ∧
    z.toC = ∫ r, ∑ σ : Bool, star (jgto call.si 0 1 3 σ r) * (attraction NucDemo.atoms r : ℂ) * jgto call.sj (-3) 0 5 σ r := by
  obtain ⟨R, hR⟩ := NucDemo.rys
  obtain ⟨has, h', h1, h2⟩ := C30_nuc_spinor (R := R) (atoms := NucDemo.atoms) (L := lib) (spMem _ call 1 0 (-3) (by decide) (by decide)
    (by decide) (by decide)) rfl maxc.1 maxc.2 (fun _ _ _ _ => by show (0:ℝ) < 1 + 1; norm_num) (fun ip jp _ _ => kept ip jp)
    (by unfold NucDemo.atoms; simp) (hR _) (by decide) (by decide)
  exact ⟨R, has, h', h1, h2 1 0 3 5 (by decide) (by decide) (by decide) (by decide)⟩

/-- int1e_spnucsp_spinor: `⟨σ·p f|V|σ·p g⟩` -/
example : ∃ R : Rys ℝ, ∃ has h', SpEnds (spMem (AutoNuc.int1e_spnucsp.intV R (.ofType true 0 (fun _ => 0) NucDemo.atoms) fun _ => 0) call
    1 0 (-3) (by decide) (by decide) (by decide) (by decide)) ⟨true, false⟩ 4 realK lib has h' := by
  obtain ⟨R, hR⟩ := NucDemo.rys
  have hG : ("int1e_spnucsp", true, AutoNuc.int1e_spnucsp) ∈ AutoNuc.allV := by unfold AutoNuc.allV; simp
  have hD : ("int1e_spnucsp", true, PotDefs.spvsp) ∈ defsV := by unfold defsV; simp
  have hS : ("int1e_spnucsp", (⟨true, false⟩ : SpKind), 4, 1) ∈ Auto.spinorV := by unfold Auto.spinorV; simp
  obtain ⟨has, h', h1, _⟩ := C50_potential_spinor hG hD hS (L := lib) (s := call) (O := fun _ => 0) (R := R) (zeta := 0)
    (cen := fun _ => 0) (atoms := NucDemo.atoms) (spMem _ call 1 0 (-3) (by decide) (by decide) (by decide) (by decide)) rfl maxc.1 maxc.2
    (fun _ _ _ _ => by show (0:ℝ) < 1 + 1; norm_num) (fun ip jp _ _ => OperDemo.kept' _ ip jp (by decide))
    (fun _ => by unfold NucDemo.atoms; simp) (hR _) (by decide) (by decide)
  exact ⟨R, has, h', h1⟩

end SpinorNucDemo

end Verif.Props
