import Verif.Lemmas.OperGridsVal
import Verif.Lemmas.SpinorFnV
import Verif.Spec.OperGrids
import Verif.Props.GridsSpinor
import Verif.Props.OperV

/-!
C55 — the generated integrals on a list of points are, at every point, the integrals of the operators they are named after with the
potential of the charge at that point; C16, C17, C18, C19, C31 and C49 for these integrals.
-/
namespace Verif.Props
open Verif Verif.Model Verif.Prog Verif.Lemmas Verif.Spec MeasureTheory

/-! ### The catalogue -/

/-- what is checked for one program against its definition -/
def matchesG (G : Gen1e) (D : Def1e) : Bool :=
  matchesV G D && decide (D.num = 1 ∧ D.den = 1) && G.prog.steps.all stepG && G.prog.more.isEmpty

set_option maxRecDepth 100000 in
theorem all_matchG : ((AutoGrids.all.zip defsG).all fun x => decide (x.1.1 = x.2.1) && matchesG x.1.2 x.2.2) = true := by
  decide +kernel

theorem all_namesG : AutoGrids.all.map (·.1) = defsG.map (·.1) := by decide +kernel

theorem names_nodupG : (defsG.map (·.1)).Nodup := by decide +kernel

theorem matchesG_of {name : String} {G : Gen1e} {D : Def1e} (hG : (name, G) ∈ AutoGrids.all) (hD : (name, D) ∈ defsG) :
    matchesG G D = true := by
  obtain ⟨i, hi, ei⟩ := List.mem_iff_getElem.1 hG
  obtain ⟨j, hj, ej⟩ := List.mem_iff_getElem.1 hD
  have hlen : AutoGrids.all.length = defsG.length := by
    have := congrArg List.length all_namesG; simpa using this
  have e1 : (defsG.map (·.1))[i]'(by simp; omega) = name := by
    have : (AutoGrids.all.map (·.1))[i]'(by simp; omega) = name := by rw [List.getElem_map, ei]
    rw [← this]
    exact (List.getElem_of_eq all_namesG _).symm
  have e2 : (defsG.map (·.1))[j]'(by simp; omega) = name := by rw [List.getElem_map, ej]
  have hij : i = j := (List.Nodup.getElem_inj_iff names_nodupG).1 (e1.trans e2.symm)
  subst hij
  have hz : (AutoGrids.all.zip defsG)[i]'(by rw [List.length_zip]; omega) = ((name, G), (name, D)) := by
    rw [List.getElem_zip, ei, ej]
  have := List.all_eq_true.1 all_matchG _ (List.getElem_mem (by rw [List.length_zip]; omega : i < (AutoGrids.all.zip defsG).length))
  rw [hz] at this
  simpa using this

/-- what `matchesG` checks -/
theorem matchesG_unfold {G : Gen1e} {D : Def1e} (h : matchesG G D = true) :
    ∃ ws, Gen1e.OKG G ws ∧ D.num = 1 ∧ D.den = 1 ∧ G.nComp = D.out.length ∧
      ∀ k, k < G.nComp → sameSum (progSum ws (G.flat.comps.getD k [])) (opRe (D.out.getD k [])) = true ∧
        sameSum [] (opIm (D.out.getD k [])) = true := by
  unfold matchesG at h
  rw [Bool.and_eq_true, Bool.and_eq_true, Bool.and_eq_true, decide_eq_true_eq] at h
  obtain ⟨⟨⟨h1, h2⟩, h3⟩, h4⟩ := h
  obtain ⟨ws, hOK, _, _, _, hnc, hc⟩ := matchesV_unfold h1
  exact ⟨ws, ⟨hOK, h3, List.isEmpty_iff.1 h4⟩, h2.1, h2.2, hnc, hc⟩

theorem okG_of {name : String} {G : Gen1e} (hG : (name, G) ∈ AutoGrids.all) : ∃ ws, Gen1e.OKG G ws := by
  have h : name ∈ defsG.map (·.1) := by rw [← all_namesG]; exact List.mem_map_of_mem hG
  obtain ⟨⟨n', D⟩, hD, rfl⟩ := List.mem_map.1 h
  obtain ⟨ws, h, _⟩ := matchesG_unfold (matchesG_of hG hD)
  exact ⟨ws, h⟩

/-- **C55** Every generated integral on points has a definition: the catalogues have the same names, each name once. -/
theorem C55_catalogue : AutoGrids.all.map (·.1) = defsG.map (·.1) ∧ (defsG.map (·.1)).Nodup := ⟨all_namesG, names_nodupG⟩

/-! ### Memory, dims, one function of the coordinates -/
section
variable {α : Type} [Field α] [LinearOrder α] {R : Rys2 α} {K : Consts α} {L : MathLib α} {s : CallG α}

/-- **C16**, generated integrals on points: with a cache of (at least) the queried size the calls complete without undefined
behaviour, whatever the cache and the output array contain, for any root finder. -/
theorem C16_grids_operators {name : String} {G : Gen1e} (hG : (name, G) ∈ AutoGrids.all) (hli : s.si.l ≤ 15) (hlj : s.sj.l ≤ 15) :
    (∀ A : CartMemG G.intG s, ∃ has h', CartEndsG A R K L has h') ∧ (∀ B : SphMemG G.intG s, ∃ has h', SphEndsG B R K L has h') := by
  obtain ⟨ws, h⟩ := okG_of hG
  have hn : 1 ≤ (G.intG : IntG α).nComp := Nat.pos_of_ne_zero h.pos
  exact ⟨fun A => C16_grids_cart A (evalG_gen h R K L s) hn hli hlj, fun B => C16_grids_sph B (evalG_gen h R K L s) hn hli hlj⟩

/-- **C18**, generated integrals on points: when 0 is returned the block is zero; in any case every element of the block is
overwritten, no double outside the block and the cache changes, and the new contents do not depend on the contents of memory. -/
theorem C18_grids_operators {name : String} {G : Gen1e} (hG : (name, G) ∈ AutoGrids.all) (A : CartMemG G.intG s) (hli : s.si.l ≤ 15)
    (hlj : s.sj.l ≤ 15) :
    ∃ v : Nat → α, ∀ A' : CartMemG G.intG s, A'.nd = A.nd →
      ∃ has h', CartEndsG A' R K L has h' ∧
        (∀ m, A.InBlock m → h'.D (A'.out + m) = .val (v m)) ∧
        (has = false → ∀ m, A.InBlock m → v m = 0) ∧
        (∀ q, q.buf ≠ A'.buf → (∀ m, A.InBlock m → q ≠ A'.out + m) → h'.D q = A'.h.D q) := by
  obtain ⟨ws, h⟩ := okG_of hG
  exact C18_grids_cart A (evalG_gen h R K L s) (Nat.pos_of_ne_zero h.pos) hli hlj

/-- **C17**, generated integrals on points: the caller's dims move the numbers but do not change them. -/
theorem C17_grids_operators {name : String} {G : Gen1e} (hG : (name, G) ∈ AutoGrids.all) (A B : CartMemG G.intG s)
    (hli : s.si.l ≤ 15) (hlj : s.sj.l ≤ 15) :
    ∃ has ha hb, CartEndsG A R K L has ha ∧ CartEndsG B R K L has hb ∧
      ∀ n g ic jc i j, n < G.nComp → g < s.ngrids → ic < s.si.nctr → jc < s.sj.nctr → i < ncart s.si.l → j < ncart s.sj.l →
        ∃ x, A.elem ha n g ic i jc j = .val x ∧ B.elem hb n g ic i jc j = .val x := by
  obtain ⟨ws, h⟩ := okG_of hG
  exact C17_grids_cart A B (evalG_gen h R K L s) (Nat.pos_of_ne_zero h.pos) hli hlj

/-- **C19**, generated integrals on points: at every point the spherical integrals are the Cartesian ones transformed by the table. -/
theorem C19_grids_operators {name : String} {G : Gen1e} (hG : (name, G) ∈ AutoGrids.all) (A : CartMemG G.intG s) (B : SphMemG G.intG s)
    (hli : s.si.l ≤ 15) (hlj : s.sj.l ≤ 15) :
    ∃ ra ha rb hb, CartEndsG A R K L ra ha ∧ SphEndsG B R K L rb hb ∧
      ∃ x : Nat → Nat → Nat → Nat → Nat → Nat → α,
        (∀ n g ic jc a b, n < G.nComp → g < s.ngrids → ic < s.si.nctr → jc < s.sj.nctr → a < ncart s.si.l → b < ncart s.sj.l →
          A.elem ha n g ic a jc b = .val (x n g ic a jc b)) ∧
        (∀ n g ic jc i j, n < G.nComp → g < s.ngrids → ic < s.si.nctr → jc < s.sj.nctr → i < s.si.l*2+1 → j < s.sj.l*2+1 →
          B.elem hb n g ic i jc j = .val (∑ a ∈ Finset.range (ncart s.si.l), ∑ b ∈ Finset.range (ncart s.sj.l),
            c2sCoef s.si.l i a * c2sCoef s.sj.l j b * x n g ic a jc b)) := by
  obtain ⟨ws, h⟩ := okG_of hG
  exact C19_grids A B (evalG_gen h R K L s) (Nat.pos_of_ne_zero h.pos) hli hlj

/-- The wrappers int1e_grids_*_spinor select the output function that belongs to the operator. -/
theorem spinor_kindsG : (AutoGrids.spinor.all fun x => AutoGrids.all.all fun y => defsG.all fun d =>
    !(decide (x.1 = y.1) && decide (x.1 = d.1)) || (decide (x.2.1.si = d.2.spin) && decide (x.2.1.ph = d.2.imag) &&
      decide (x.2.2.1 = if d.2.spin then 4 else 1) && decide (x.2.2.2 = d.2.ops.length) && decide (0 < d.2.ops.length) &&
      decide (y.2.nComp = x.2.2.1 * x.2.2.2))) = true := by decide +kernel

/-- the components of a wrapper -/
theorem spinor_sizesG : (AutoGrids.spinor.all fun x => AutoGrids.all.all fun y => !decide (x.1 = y.1) ||
    (decide (x.2.2.1 = if x.2.1.si then 4 else 1) && decide (0 < x.2.2.2) && decide (y.2.nComp = x.2.2.1 * x.2.2.2))) = true := by
  decide +kernel

/-- **C55** every generated integral on points has a spinor variant -/
theorem C55_spinor_catalogue : AutoGrids.spinor.map (·.1) = defsG.map (·.1) := by decide +kernel

/-- **C16, C18**, generated integrals on points with spinor output: the call completes; every element of the block is overwritten, no
double outside the block and the cache changes, and the new contents do not depend on the contents of memory. -/
theorem C18_grids_operators_spinor {name : String} {G : Gen1e} {kd : SpKind} {e1 nT : Nat} {ki kj : Int}
    (hG : (name, G) ∈ AutoGrids.all) (hS : (name, kd, e1, nT) ∈ AutoGrids.spinor) (B : SpMemG (G.intG : IntG α) s nT ki kj)
    (hli : s.si.l < 13) (hlj : s.sj.l < 13) :
    ∃ v : Nat → α, ∀ B' : SpMemG (G.intG : IntG α) s nT ki kj, B'.nd = B.nd →
      ∃ has h', SpEndsG B' kd e1 R K L has h' ∧
        (∀ m, B.In (m/2) → h'.D (B'.out + m) = .val (v m)) ∧
        (has = false → ∀ m, B.In (m/2) → v m = 0) ∧
        (∀ q, q.buf ≠ B'.buf → (∀ m, B.In (m/2) → q ≠ B'.out + m) → h'.D q = B'.h.D q) := by
  obtain ⟨ws, h⟩ := okG_of hG
  have hc := List.all_eq_true.1 (List.all_eq_true.1 spinor_sizesG _ hS) _ hG
  simp only [decide_true, Bool.not_true, Bool.false_or, Bool.and_eq_true, decide_eq_true_eq] at hc
  obtain ⟨⟨k1, k2⟩, k3⟩ := hc
  rw [k1]
  exact C18_grids_spinor B (by rw [← k1]; exact k3) (evalG_gen h R K L s) k2 hli hlj

theorem gridGenW_congr {G : Gen1e} {ws : List (Nat → List (GOp × Fin 4))} (hG : Gen1e.OKG G ws) (e : EnvG) (d : G1 α) (A : GridArgs α)
    {r r' : Nat → α} (h : ∀ c, c < 3 → r c = r' c) (M : Nat) : gridGenW G ws R K e d A r M = gridGenW G ws R K e d A r' M := by
  unfold gridGenW
  refine Finset.sum_congr rfl fun i _ => ?_
  refine (goutVal_scale (k := 1) (v' := gridTab R K e d A r') (r' := i) hG.two (fun c => ⟨rfl, rfl⟩) (fun c m hc _ _ => ?_)).trans (one_mul _)
  unfold gridTab gridM gridE gridUW1 gridRR
  rw [h c hc, h 0 (by omega), h 1 (by omega), h 2 (by omega)]
  split_ifs <;> ring

/-- **C31**, generated integrals on points: there is one function of the coordinates of a point, `F`, such that for every list of
points, of any length, the elements for point `g` of the list are `F` of the coordinates of point `g`.  The place of the point in the
list, the other points, the number of points (and with it the cut of the list in blocks) and memory do not matter. -/
theorem C31_grids_operators {name : String} {G : Gen1e} (hG : (name, G) ∈ AutoGrids.all) (R : Rys2 α) (K : Consts α) (L : MathLib α)
    (s : CallG α) (hli : s.si.l ≤ 15) (hlj : s.sj.l ≤ 15) :
    ∃ F : (Fin 3 → α) → Nat → Nat → Nat → Nat → Nat → α, ∀ n p, ∀ A : CartMemG G.intG (onPoints s n p),
      ∃ has h', CartEndsG A R K L has h' ∧
        ∀ comp g ic jc i j, comp < G.nComp → g < n → ic < s.si.nctr → jc < s.sj.nctr → i < ncart s.si.l → j < ncart s.sj.l →
          A.elem h' comp g ic i jc j = .val (F (fun c => p g c) comp ic i jc j) := by
  obtain ⟨ws, h⟩ := okG_of hG
  refine ⟨fun r comp ic i jc j => gridVal K L G.intG s (fun ip jp => gridGenW G ws R K (s.envG G.intG) (s.g1G G.intG L ip jp)
    (s.gridArgs G.intG L ip jp)) (fun c => if h : c < 3 then r ⟨c, h⟩ else 0) comp ic jc (j*ncart s.si.l+i), fun n p A => ?_⟩
  obtain ⟨has, h', hr, hv, _⟩ := drvGrids_cart (sh := A.sh) A.M A.hsize A.O (evalG_gen h R K L (onPoints s n p)) A.hic A.hjc
    (Nat.pos_of_ne_zero h.pos) hli hlj
  refine ⟨has, h', hr, fun comp g ic jc i j a0 a1 a2 a3 a4 a5 => ?_⟩
  refine (hv comp g ic jc i j a0 a1 a2 a3 a4 a5).trans ?_
  refine congrArg Cell.val ?_
  show gridVal K L G.intG s (fun ip jp => gridGenW G ws R K (s.envG G.intG) (s.g1G G.intG L ip jp)
    (s.gridArgs G.intG L ip jp)) (p g) comp ic jc (j*ncart s.si.l+i) = _
  unfold gridVal contract2
  congr 1
  refine Finset.sum_congr rfl fun jp _ => Finset.sum_congr rfl fun ip _ => ?_
  dsimp only
  rw [gridGenW_congr h _ _ _ (r := p g) (r' := fun c => if h : c < 3 then p g c else 0) (fun c hc => by rw [dif_pos hc])]
end

/-! ### Values -/

/-- the point `r` is not screened for this primitive pair, an integral with angular momenta that sum to `lij` -/
def PointInL (L : MathLib ℝ) (s : CallG ℝ) (mi mj : Nat → ℝ) (lij ip jp : Nat) (r : Fin 3 → ℝ) : Prop :=
  0 ≤ s.omega ∨ jointExp (s.si.a ip + s.sj.a jp) s.omega s.zeta *
    ∑ k, (r k - (s.si.a ip * centre s.si k + s.sj.a jp * centre s.sj k)/(s.si.a ip + s.sj.a jp))^2 ≤
    min (setijCutoff s.envCut - est L s.si s.sj mi mj (rr2 s.si.r s.sj.r) s.omega lij ip jp) 40

/-- angular momenta of the two shells with the increments of the integral -/
def lijG (G : Gen1e) (s : CallG ℝ) : Nat := s.si.l + G.ng.i + (s.sj.l + G.ng.j)

/-- the root finders return the roots and weights of Rys quadrature for the number of roots this call needs -/
def RootsOKGen (R : Rys2 ℝ) (G : Gen1e) (s : CallG ℝ) : Prop := Rys2OK R (s.envG (G.intG : IntG ℝ)).nrys_roots

theorem gridVal_gen {G : Gen1e} {ws : List (Nat → List (GOp × Fin 4))} {D : Def1e} (hG : Gen1e.OKG G ws)
    {L : MathLib ℝ} {s : CallG ℝ} {R : Rys2 ℝ} {mi mj : Nat → ℝ} {comp : Nat} (hL : L.exp = Real.exp)
    (hi : MaxCoeff s.si mi) (hj : MaxCoeff s.sj mj)
    (hpos : ∀ ip jp, ip < s.si.nprim → jp < s.sj.nprim → 0 < s.si.a ip + s.sj.a jp)
    (hz : 0 ≤ s.zeta) (hR : RootsOKGen R G s)
    (hm : sameSum (progSum ws (G.flat.comps.getD comp [])) (opRe (D.out.getD comp [])) = true)
    (hm' : sameSum [] (opIm (D.out.getD comp [])) = true) (hc : comp < G.nComp)
    {ic jc i j : Nat} (h3 : i < ncart s.si.l) (h4 : j < ncart s.sj.l) (g : Nat) :
    ((gridVal realK L G.intG s (fun ip jp => gridGenW G ws R realK (s.envG G.intG) (s.g1G G.intG L ip jp) (s.gridArgs G.intG L ip jp))
        (s.grid g) comp ic jc (j*ncart s.si.l+i) : ℝ) : ℂ) =
      ((spNorm s.si.l * spNorm s.sj.l : ℝ) : ℂ) * ∑ jp ∈ Finset.range s.sj.nprim, ∑ ip ∈ Finset.range s.si.nprim,
        ((s.sj.c (s.sj.nprim*jc+jp) : ℝ) : ℂ) * (((s.si.c (s.si.nprim*ic+ip) : ℝ) : ℂ) *
          open Classical in if Kept L s.toCall mi mj (lijG G s) ip jp ∧ PointInL L s mi mj (lijG G s) ip jp (s.point g) then
            Op.valV (gridPotential s.omega s.zeta (s.point g)) (fun _ => 0) (centre s.si) (centre s.sj)
              (gto (s.si.a ip) (centre s.si) (powers s.si.l i))
              (gto (s.sj.a jp) (centre s.sj) (powers s.sj.l j)) (D.out.getD comp []) else 0) := by
  classical
  unfold gridVal
  have hcom : (2 * realK.pi * commonFacSp s.si.l * commonFacSp s.sj.l : ℝ) = 2 * Real.pi * (spNorm s.si.l * spNorm s.sj.l) := by
    rw [spNorm_eq, spNorm_eq]
    show 2 * Real.pi * _ * _ = _
    ring
  rw [hcom, mul_comm (2*Real.pi), mul_assoc, Complex.ofReal_mul]
  congr 1
  unfold contract2
  rw [Finset.mul_sum, Complex.ofReal_sum]
  refine Finset.sum_congr rfl (fun jp hjp => ?_)
  rw [Finset.mul_sum, Complex.ofReal_sum]
  refine Finset.sum_congr rfl (fun ip hip => ?_)
  rw [Finset.mem_range] at hjp hip
  rw [mul_left_comm, mul_assoc, Complex.ofReal_mul, Complex.ofReal_mul]
  refine congrArg _ (congrArg _ ?_)
  have hp := hpos ip jp hip hjp
  obtain ⟨M, hM⟩ : ∃ M, M = (j*ncart s.si.l+i)*G.nComp + comp := ⟨_, rfl⟩
  have hd : M / G.nComp = j*ncart s.si.l+i ∧ M % G.nComp = comp := by rw [hM]; exact ⟨(digit hc).1, (digit hc).2⟩
  have e1 : (s.envG (G.intG : IntG ℝ)).nfi = ncart s.si.l := rfl
  have hdi : M / G.nComp % (s.envG (G.intG : IntG ℝ)).nfi = i := by rw [hd.1, e1]; exact (digit h3).2
  have hdj : M / G.nComp / (s.envG (G.intG : IntG ℝ)).nfi = j := by rw [hd.1, e1]; exact (digit h3).1
  let N : NucCall ℝ := .nuc []
  let R0 : Rys ℝ := ⟨R.u, R.w⟩
  have hPA : s.pairArgsG (G.intG : IntG ℝ) = s.toCall.pairArgs (G.intV R0 N fun _ => 0) := rfl
  show ((2 * Real.pi * (pairVal L (s.pairArgsG (G.intG : IntG ℝ)) ip jp 3 * gridGenW G ws R realK (s.envG G.intG) (s.g1G G.intG L ip jp)
    (s.gridArgs G.intG L ip jp) (s.grid g) ((j*ncart s.si.l+i)*G.nComp + comp)) : ℝ) : ℂ) = _
  rw [← hM]
  by_cases hk : Kept L s.toCall mi mj (lijG G s) ip jp
  · obtain ⟨p1, p2⟩ := pair_kept (X := G.intV R0 N fun _ => 0) hL hi hj hip hjp hp hk
    rw [← hPA] at p1 p2
    have hW := gridGen_eq hG (R := R) (e := s.envG G.intG) (d := s.g1G G.intG L ip jp) (A := s.gridArgs G.intG L ip jp)
      (r := s.grid g) (M := M) hp hz (by
        show srRoots (decide (s.omega < 0)) _ = _ ∨ s.omega < 0 ∧ srRoots (decide (s.omega < 0)) _ = 2 * _
        unfold srRoots
        split
        · rename_i h
          exact Or.inr ⟨by simpa using h.1, Nat.mul_comm _ _⟩
        · exact Or.inl rfl) hR (by
        have hrys : (s.envG (G.intG : IntG ℝ)).rys_order = (s.si.l + G.ng.i + (s.sj.l + G.ng.j))/2 + 1 := by
          show (if G.ng.rys > 0 then G.ng.rys else _) = _
          rw [hG.rys]; rfl
        rw [hrys]
        show s.si.l + s.sj.l + (G.ng.i + G.ng.j) < _
        omega) (by rw [hdi]; exact h3) (by rw [hdj]; exact h4)
    have hP : (fun k : Fin 3 => (s.g1G (G.intG : IntG ℝ) L ip jp).rij k) = fun k =>
        (s.si.a ip * centre s.si k + s.sj.a jp * centre s.sj k)/(s.si.a ip + s.sj.a jp) := by
      funext k
      exact p2 k k.isLt
    have hrr : gridRR (s.g1G (G.intG : IntG ℝ) L ip jp) (s.grid g) = ∑ k, (s.point g k -
        (s.si.a ip * centre s.si k + s.sj.a jp * centre s.sj k)/(s.si.a ip + s.sj.a jp))^2 := by
      have h0 := fun k : Fin 3 => congrFun hP k
      rw [Fin.sum_univ_three, ← h0, ← h0, ← h0]
      unfold gridRR CallG.point
      simp only [Fin.val_zero, Fin.val_one, Fin.val_two]
      ring
    have hcut : (s.gridArgs (G.intG : IntG ℝ) L ip jp).cutoff = setijCutoff s.envCut -
        est L s.si s.sj mi mj (rr2 s.si.r s.sj.r) s.omega (lijG G s) ip jp := by
      show setijCutoff s.envCut - pairVal L (s.pairArgsG (G.intG : IntG ℝ)) ip jp 4 = _
      congr 1
      have : pairVal L (s.pairArgsG (G.intG : IntG ℝ)) ip jp 4 = pairCC L (s.pairArgsG (G.intG : IntG ℝ)) ip jp := by
        unfold pairVal; simp
      rw [this]
      exact pairCC_eq (p := s.pairArgsG (G.intG : IntG ℝ)) hi hj hip hjp
    have hin : PointKept (s.gridArgs G.intG L ip jp) ((s.g1G (G.intG : IntG ℝ) L ip jp).ai + (s.g1G (G.intG : IntG ℝ) L ip jp).aj)
        (gridRR (s.g1G G.intG L ip jp) (s.grid g)) ↔ PointInL L s mi mj (lijG G s) ip jp (s.point g) := by
      unfold PointKept PointInL
      rw [hrr, hcut]
      show 0 ≤ s.omega ∨ redExp (s.si.a ip + s.sj.a jp) s.omega s.zeta * _ ≤ _ ↔ _
      by_cases ho : 0 ≤ s.omega
      · exact ⟨fun _ => Or.inl ho, fun _ => Or.inl ho⟩
      · rw [jointExp_eq hp (by intro h; exact ho h.ge) hz]
    rw [mul_left_comm, hW, p1]
    by_cases hI : PointInL L s mi mj (lijG G s) ip jp (s.point g)
    · rw [if_pos (hin.2 hI), if_pos ⟨hk, hI⟩]
      let S : PairOf := { a := s.si.a ip, b := s.sj.a jp, A := centre s.si, B := centre s.sj, O := fun _ => 0,
                          n := powers s.si.l i, m := powers s.sj.l j }
      have hv := op_valP S hp (potInt_grid (omega := s.omega) hz (s.point g)) (D.out.getD comp [])
      have him : sumVal (S.keyV (potInt (gridPotential s.omega s.zeta (s.point g)) (S.a+S.b) S.cen)) (opIm (D.out.getD comp [])) = 0 := by
        rw [← sameSum_val hm']
        rfl
      rw [him, mul_zero, Complex.ofReal_zero, mul_zero, add_zero, ← sameSum_val hm] at hv
      refine Eq.trans ?_ hv.symm
      congr 1
      congr 1
      have hcen : S.cen = fun k : Fin 3 => (s.g1G (G.intG : IntG ℝ) L ip jp).rij k := hP.symm
      rw [hcen, hd.2, hdi, hdj]
      rfl
    · rw [if_neg (fun h => hI (hin.1 h)), if_neg (fun h => hI h.2), mul_zero, Complex.ofReal_zero]
  · rw [if_neg (fun h => hk h.1)]
    have := pair_dropped (X := G.intV R0 N fun _ => 0) (L := L) hi hj hip hjp hk
    rw [← hPA] at this
    rw [this, zero_mul, mul_zero, Complex.ofReal_zero]

/-- **C55** Every integral of the catalogue `AutoGrids.all` (the integrals of src/autocode/int1e_grids1.c), Cartesian output: component
`comp` of the element for point `g` and functions `(ic,i)`, `(jc,j)` is the contraction, over the primitive pairs that survive the
screening, of the integral of the potential of the charge at the point between the functions the operators have acted on.  Any shells
with positive exponents and angular momenta up to ANG_MAX, any list of points, point or Gaussian charges, all three interactions, any
contents of memory.  The root finders are assumed to return the roots and weights of Rys quadrature. -/
theorem C55_grids {name : String} {G : Gen1e} {D : Def1e} (hG : (name, G) ∈ AutoGrids.all) (hD : (name, D) ∈ defsG)
    {L : MathLib ℝ} {s : CallG ℝ} {R : Rys2 ℝ} {mi mj : Nat → ℝ} (A : CartMemG G.intG s) (hL : L.exp = Real.exp)
    (hi : MaxCoeff s.si mi) (hj : MaxCoeff s.sj mj)
    (hpos : ∀ ip jp, ip < s.si.nprim → jp < s.sj.nprim → 0 < s.si.a ip + s.sj.a jp)
    (hz : 0 ≤ s.zeta) (hR : RootsOKGen R G s) (hli : s.si.l ≤ 15) (hlj : s.sj.l ≤ 15) :
    ∃ has h', CartEndsG A R realK L has h' ∧
      ∀ comp g ic jc i j (_ : comp < D.out.length), g < s.ngrids → ic < s.si.nctr → jc < s.sj.nctr → i < ncart s.si.l →
        j < ncart s.sj.l → ∃ v : ℝ, A.elem h' comp g ic i jc j = .val v ∧
          (v : ℂ) = ((spNorm s.si.l * spNorm s.sj.l : ℝ) : ℂ) *
            ∑ jp ∈ Finset.range s.sj.nprim, ∑ ip ∈ Finset.range s.si.nprim,
              ((s.sj.c (s.sj.nprim*jc+jp) : ℝ) : ℂ) * (((s.si.c (s.si.nprim*ic+ip) : ℝ) : ℂ) *
                open Classical in if Kept L s.toCall mi mj (lijG G s) ip jp ∧ PointInL L s mi mj (lijG G s) ip jp (s.point g) then
                  Op.valV (gridPotential s.omega s.zeta (s.point g)) (fun _ => 0) (centre s.si) (centre s.sj)
                    (gto (s.si.a ip) (centre s.si) (powers s.si.l i))
                    (gto (s.sj.a jp) (centre s.sj) (powers s.sj.l j)) D.out[comp] else 0) := by
  obtain ⟨ws, hOK, _, _, hnc, hcomp⟩ := matchesG_unfold (matchesG_of hG hD)
  obtain ⟨has, h', hr, hv, _⟩ := drvGrids_cart (sh := A.sh) A.M A.hsize A.O (evalG_gen hOK R realK L s) A.hic A.hjc
    (Nat.pos_of_ne_zero hOK.pos) hli hlj
  refine ⟨has, h', hr, fun comp g ic jc i j a0 a1 a2 a3 a4 a5 => ?_⟩
  have hc : comp < G.nComp := by omega
  refine ⟨_, hv comp g ic jc i j hc a1 a2 a3 a4 a5, ?_⟩
  have := gridVal_gen (ic := ic) (jc := jc) hOK hL hi hj hpos hz hR (hcomp comp hc).1 (hcomp comp hc).2 hc a4 a5 g
  rw [List.getD_eq_getElem?_getD, List.getElem?_eq_getElem a0] at this
  exact this

/-- nothing is screened, neither a primitive pair nor a point -/
def AllKeptGen (L : MathLib ℝ) (G : Gen1e) (s : CallG ℝ) (mi mj : Nat → ℝ) : Prop := ∀ ip jp, ip < s.si.nprim → jp < s.sj.nprim →
  Kept L s.toCall mi mj (lijG G s) ip jp ∧ ∀ g, g < s.ngrids → PointInL L s mi mj (lijG G s) ip jp (s.point g)

/-- **C55**, Cartesian output, nothing screened: exactly the integral over the two contracted functions. -/
theorem C55_grids_exact {name : String} {G : Gen1e} {D : Def1e} (hG : (name, G) ∈ AutoGrids.all) (hD : (name, D) ∈ defsG)
    {L : MathLib ℝ} {s : CallG ℝ} {R : Rys2 ℝ} {mi mj : Nat → ℝ} (A : CartMemG G.intG s) (hL : L.exp = Real.exp)
    (hi : MaxCoeff s.si mi) (hj : MaxCoeff s.sj mj) (hk : AllKeptGen L G s mi mj)
    (hpos : ∀ ip jp, ip < s.si.nprim → jp < s.sj.nprim → 0 < s.si.a ip + s.sj.a jp)
    (hz : 0 ≤ s.zeta) (hR : RootsOKGen R G s) (hli : s.si.l ≤ 15) (hlj : s.sj.l ≤ 15) :
    ∃ has h', CartEndsG A R realK L has h' ∧
      ∀ comp g ic jc i j (_ : comp < D.out.length), g < s.ngrids → ic < s.si.nctr → jc < s.sj.nctr → i < ncart s.si.l →
        j < ncart s.sj.l → ∃ v : ℝ, A.elem h' comp g ic i jc j = .val v ∧
          (v : ℂ) = ((spNorm s.si.l * spNorm s.sj.l : ℝ) : ℂ) *
            Op.valV (gridPotential s.omega s.zeta (s.point g)) (fun _ => 0) (centre s.si) (centre s.sj)
              (cgto s.si.nprim s.si.a s.si.c (centre s.si) ic (powers s.si.l i))
              (cgto s.sj.nprim s.sj.a s.sj.c (centre s.sj) jc (powers s.sj.l j)) D.out[comp] := by
  obtain ⟨has, h', hr, hv⟩ := C55_grids hG hD A hL hi hj hpos hz hR hli hlj
  refine ⟨has, h', hr, fun comp g ic jc i j a0 a1 a2 a3 a4 a5 => ?_⟩
  obtain ⟨v, hv1, hv2⟩ := hv comp g ic jc i j a0 a1 a2 a3 a4 a5
  refine ⟨v, hv1, ?_⟩
  rw [hv2, op_valP_cgto (potInt_grid hz (s.point g)) _ hpos]
  congr 1
  refine Finset.sum_congr rfl (fun jp hjp => Finset.sum_congr rfl (fun ip hip => ?_))
  rw [Finset.mem_range] at hjp hip
  rw [if_pos ⟨(hk ip jp hip hjp).1, (hk ip jp hip hjp).2 g a1⟩]

/-- **C55**, spherical output, nothing screened. -/
theorem C55_grids_spherical {name : String} {G : Gen1e} {D : Def1e} (hG : (name, G) ∈ AutoGrids.all) (hD : (name, D) ∈ defsG)
    {L : MathLib ℝ} {s : CallG ℝ} {R : Rys2 ℝ} {mi mj : Nat → ℝ} (B : SphMemG G.intG s) (hL : L.exp = Real.exp)
    (hi : MaxCoeff s.si mi) (hj : MaxCoeff s.sj mj) (hk : AllKeptGen L G s mi mj)
    (hpos : ∀ ip jp, ip < s.si.nprim → jp < s.sj.nprim → 0 < s.si.a ip + s.sj.a jp)
    (hz : 0 ≤ s.zeta) (hR : RootsOKGen R G s) (hli : s.si.l ≤ 15) (hlj : s.sj.l ≤ 15) :
    ∃ has h', SphEndsG B R realK L has h' ∧
      ∀ comp g ic jc i j (_ : comp < D.out.length), g < s.ngrids → ic < s.si.nctr → jc < s.sj.nctr → i < s.si.l*2+1 →
        j < s.sj.l*2+1 → ∃ v : ℝ, B.elem h' comp g ic i jc j = .val v ∧
          (v : ℂ) = ∑ a ∈ Finset.range (ncart s.si.l), ∑ b ∈ Finset.range (ncart s.sj.l),
            ((spNorm s.si.l * c2sCoef s.si.l i a : ℝ) : ℂ) * ((spNorm s.sj.l * c2sCoef s.sj.l j b : ℝ) : ℂ) *
            Op.valV (gridPotential s.omega s.zeta (s.point g)) (fun _ => 0) (centre s.si) (centre s.sj)
              (cgto s.si.nprim s.si.a s.si.c (centre s.si) ic (powers s.si.l a))
              (cgto s.sj.nprim s.sj.a s.sj.c (centre s.sj) jc (powers s.sj.l b)) D.out[comp] := by
  obtain ⟨ws, hOK, _, _, hnc, _⟩ := matchesG_unfold (matchesG_of hG hD)
  let A := blankMemG (G.intG : IntG ℝ) s B.hic B.hjc
  obtain ⟨ra, ha, rb, hb, eA, eB, x, vA, vB⟩ := C19_grids A B (evalG_gen hOK R realK L s) (Nat.pos_of_ne_zero hOK.pos) hli hlj
  obtain ⟨rc, hc, eC, vC⟩ := C55_grids_exact hG hD A hL hi hj hk hpos hz hR hli hlj
  have hAC : ha = hc := by
    have e : some (ra, ha) = some (rc, hc) := eA.symm.trans eC
    simp only [Option.some.injEq, Prod.mk.injEq] at e
    exact e.2
  refine ⟨rb, hb, eB, fun comp g ic jc i j a0 a1 a2 a3 a4 a5 => ?_⟩
  have hc' : comp < (G.intG : IntG ℝ).nComp := by show comp < G.nComp; omega
  refine ⟨_, vB comp g ic jc i j hc' a1 a2 a3 a4 a5, ?_⟩
  push_cast
  refine Finset.sum_congr rfl fun a ha' => Finset.sum_congr rfl fun b hb' => ?_
  have c1 := vA comp g ic jc a b hc' a1 a2 a3 (Finset.mem_range.1 ha') (Finset.mem_range.1 hb')
  obtain ⟨v, c2, c3⟩ := vC comp g ic jc a b a0 a1 a2 a3 (Finset.mem_range.1 ha') (Finset.mem_range.1 hb')
  rw [← hAC] at c2
  have := Cell.val.inj (c1.symm.trans c2)
  rw [this, c3]
  push_cast
  ring

/-- **C55**, spinor output, nothing screened: the integrals over two-component functions of the operator in the definition. -/
theorem C55_grids_spinor {name : String} {G : Gen1e} {D : Def1e} {kd : SpKind} {e1 nT : Nat} (hG : (name, G) ∈ AutoGrids.all)
    (hD : (name, D) ∈ defsG) (hS : (name, kd, e1, nT) ∈ AutoGrids.spinor)
    {L : MathLib ℝ} {s : CallG ℝ} {R : Rys2 ℝ} {mi mj : Nat → ℝ} {ki kj : Int} (B : SpMemG (G.intG : IntG ℝ) s nT ki kj)
    (hL : L.exp = Real.exp) (hi : MaxCoeff s.si mi) (hj : MaxCoeff s.sj mj) (hk : AllKeptGen L G s mi mj)
    (hpos : ∀ ip jp, ip < s.si.nprim → jp < s.sj.nprim → 0 < s.si.a ip + s.sj.a jp)
    (hz : 0 ≤ s.zeta) (hR : RootsOKGen R G s) (hli : s.si.l < 13) (hlj : s.sj.l < 13) :
    ∃ has h', SpEndsG B kd e1 R realK L has h' ∧ D.ops.length = nT ∧
      ∀ n g ic jc i j (_ : n < D.ops.length), g < s.ngrids → ic < s.si.nctr → jc < s.sj.nctr → i < lenSpinorC2S ki s.si.l →
        j < lenSpinorC2S kj s.sj.l →
        ∃ z : Cx ℝ, B.Elem h' n g ic i jc j z ∧
          z.toC = ∑ a ∈ Finset.range (ncart s.si.l), ∑ b ∈ Finset.range (ncart s.sj.l),
            ∑ σ : Bool, ∑ τ : Bool, star ((spNorm s.si.l : ℂ) * (cjCoef ki s.si.l i σ a).toC) *
            Quat.matV (gridPotential s.omega s.zeta (s.point g)) (fun _ => 0) (centre s.si) (centre s.sj)
              (cgto s.si.nprim s.si.a s.si.c (centre s.si) ic (powers s.si.l a))
              (cgto s.sj.nprim s.sj.a s.sj.c (centre s.sj) jc (powers s.sj.l b)) D.ops[n] σ τ *
            ((spNorm s.sj.l : ℂ) * (cjCoef kj s.sj.l j τ b).toC) := by
  have hc := List.all_eq_true.1 (List.all_eq_true.1 (List.all_eq_true.1 spinor_kindsG _ hS) _ hG) _ hD
  simp only [decide_true, Bool.and_self, Bool.not_true, Bool.false_or, Bool.and_eq_true, decide_eq_true_eq] at hc
  obtain ⟨⟨⟨⟨⟨k1, k2⟩, k3⟩, k4⟩, k5⟩, k6⟩ := hc
  obtain ⟨ws, hOK, _, _, hnc, _⟩ := matchesG_unfold (matchesG_of hG hD)
  let A := blankMemG (G.intG : IntG ℝ) s B.hic B.hjc
  have hnc' : (G.intG : IntG ℝ).nComp = D.out.length := hnc
  have hn0 : (G.intG : IntG ℝ).nComp = (if kd.si then 4 else 1) * nT := by
    rw [k1, ← k3]; exact k6
  obtain ⟨ra, ha, rb, hb, eA, eB, x, vA, vB⟩ := C49_grids A B hn0 (evalG_gen hOK R realK L s) (by omega) hli hlj
  obtain ⟨rc, hc, eC, vC⟩ := C55_grids_exact hG hD A hL hi hj hk hpos hz hR (by omega) (by omega)
  have hAC : ha = hc := by
    have e : some (ra, ha) = some (rc, hc) := eA.symm.trans eC
    simp only [Option.some.injEq, Prod.mk.injEq] at e
    exact e.2
  refine ⟨rb, hb, by rw [k3, ← k1]; exact eB, k4.symm, fun n g ic jc i j hn a1 a2 a3 a4 a5 =>
    ⟨_, vB n g ic jc i j (by omega) a1 a2 a3 a4 a5, ?_⟩⟩
  rw [toC_spinor2]
  refine Finset.sum_congr rfl fun a ha' => Finset.sum_congr rfl fun b hb' => ?_
  have key := spinMat_outV D (gridPotential s.omega s.zeta (s.point g)) (fun _ => 0) (centre s.si) (centre s.sj)
    (cgto s.si.nprim s.si.a s.si.c (centre s.si) ic (powers s.si.l a))
    (cgto s.sj.nprim s.sj.a s.sj.c (centre s.sj) jc (powers s.sj.l b)) n hn
    (fun c => x (n * (if kd.si then 4 else 1) + c) g ic a jc b) ((spNorm s.si.l * spNorm s.sj.l : ℝ) : ℂ)
    (fun c hc => by
      have hlt := out_index D hn hc
      have c1 := vA (n * (if D.spin then 4 else 1) + c) g ic jc a b (by rw [hnc']; exact hlt) a1 a2 a3 (Finset.mem_range.1 ha')
        (Finset.mem_range.1 hb')
      obtain ⟨v, c2, c3⟩ := vC (n * (if D.spin then 4 else 1) + c) g ic jc a b hlt a1 a2 a3 (Finset.mem_range.1 ha') (Finset.mem_range.1 hb')
      rw [← hAC] at c2
      have := Cell.val.inj (c1.symm.trans c2)
      rw [k1, this, c3])
  rw [k1, k2]
  refine Finset.sum_congr rfl fun σ _ => Finset.sum_congr rfl fun τ _ => ?_
  rw [k1] at key
  rw [key]
  simp only [star_mul, Complex.star_def, Complex.conj_ofReal]
  push_cast
  ring

/-- **C55**, what the components are, in words: `int1e_grids_ip` differentiates the left function along x, y, z;
`int1e_grids_ipvip` the left one along `a` and the right one along `b`; `int1e_grids_ipip` the left one along `b` and then along `a`. -/
theorem C55_components (V : Pt → ℝ) (O A B : Pt) (f g : Pt → ℝ) (a b : Fin 3) :
    Op.valV V O A B f g (PotDefs.ipv.out.getD a []) = (braketV V (El.d.act O A a f) g : ℂ) ∧
    Op.valV V O A B f g (PotDefs.ipvip.out.getD (3*a+b) []) = (braketV V (El.d.act O A a f) (El.d.act O B b g) : ℂ) ∧
    Op.valV V O A B f g (PotDefs.ipipv.out.getD (3*a+b) []) = (braketV V (El.d.act O A a (El.d.act O A b f)) g : ℂ) := by
  have h1 : ∀ a : Fin 3, PotDefs.ipv.out.getD a [] = [⟨1, 0, [], [(.d, a)], []⟩] := by decide +kernel
  have h2 : ∀ a b : Fin 3, PotDefs.ipvip.out.getD (3*a+b) [] = [⟨1, 0, [], [(.d, a)], [(.d, b)]⟩] := by decide +kernel
  have h3 : ∀ a b : Fin 3, PotDefs.ipipv.out.getD (3*a+b) [] = [⟨1, 0, [], [(.d, a), (.d, b)], []⟩] := by decide +kernel
  rw [h1, h2, h3]
  simp [Op.valV, Term.valV, Word.act]

/-! ### The hypotheses can be met -/
namespace OperGridsDemo
open OvlpDemo SphDemo EriDemo GridsDemo

theorem est_le (o : ℝ) (l ip jp : Nat) : est lib (callG o).si (callG o).sj (fun _ => 1) (fun _ => 1)
    (rr2 (callG o).si.r (callG o).sj.r) o l ip jp ≤ 0 := by
  have hb := base_nonpos
  have hl := log_shift (o := o) (a := 1+1) (by norm_num)
  have h0 : (0:ℝ) ≤ (l:ℝ) := Nat.cast_nonneg _
  unfold est pairEstimate logBound prodExponent rr2 lib callG OvlpDemo.call
  simp only [sub_zero, mul_zero, add_zero, Real.sqrt_zero, Real.log_one]
  split_ifs <;> push_cast <;> simp only [zero_add, Real.log_one, mul_zero] at * <;> nlinarith

theorem allKept (G : Gen1e) (o : ℝ) (ho : 0 ≤ o ∨ o = -(1/2)) : AllKeptGen lib G (callG o) (fun _ => 1) (fun _ => 1) := by
  have hc : setijCutoff (callG o).envCut = 60 := by
    unfold setijCutoff callG OvlpDemo.call
    simp
  intro ip jp hip hjp
  refine ⟨?_, fun g hg => ?_⟩
  · have := est_le o (lijG G (callG o)) ip jp
    show est lib (callG o).si (callG o).sj _ _ _ o _ ip jp < setijCutoff (callG o).envCut
    rw [hc]
    linarith
  · rcases ho with ho | ho
    · exact Or.inl ho
    · rcases (allKeptG o (Or.inr ho) ip jp hip hjp).2 g hg with h | h
      · exact Or.inl h
      · refine Or.inr (le_trans (le_trans h (min_le_right _ _)) (le_min ?_ (le_refl _)))
        have he := est_le o (lijG G (callG o)) ip jp
        rw [hc]
        show 40 ≤ 60 - est lib (callG o).si (callG o).sj _ _ _ o _ ip jp
        linarith

noncomputable def cartM (G : Gen1e) (o : ℝ) : CartMemG G.intG (callG o) :=
  blankMemG G.intG (callG o) (by show 1 ≤ 2; omega) (by show 1 ≤ 2; omega)

theorem mem_all : (("int1e_grids_ipvip", AutoGrids.int1e_grids_ipvip) : String × Gen1e) ∈ AutoGrids.all := by
  unfold AutoGrids.all; simp

theorem mem_defs : (("int1e_grids_ipvip", PotDefs.ipvip) : String × Def1e) ∈ defsG := by unfold defsG; simp

theorem ipvip_len : PotDefs.ipvip.out.length = 9 := by decide +kernel

/-- int1e_grids_ipvip at the 221st point, component xy (index 1), short-range potential of a Gaussian charge -/
example : ∃ R has h', CartEndsG (cartM AutoGrids.int1e_grids_ipvip (-(1/2))) R realK lib has h' ∧ ∃ v : ℝ,
    (cartM AutoGrids.int1e_grids_ipvip (-(1/2))).elem h' 1 220 1 1 0 2 = .val v := by
  obtain ⟨R, hR⟩ := exists_rys2
  obtain ⟨has, h', h1, h2⟩ := C55_grids_exact (R := R) mem_all mem_defs (cartM _ (-(1/2))) (L := lib) rfl (maxG _).1 (maxG _).2
    (allKept _ _ (Or.inr rfl)) (callG_pos _) (by show (0:ℝ) ≤ 3; norm_num) (hR _) (by decide) (by decide)
  obtain ⟨v, hv, _⟩ := h2 1 220 1 0 1 2 (by rw [ipvip_len]; omega) (by show 220 < 250; omega) (by show 1 < 2; omega)
    (by show 0 < 2; omega) (by show 1 < ncart 1; decide) (by show 2 < ncart 2; decide)
  exact ⟨R, has, h', h1, v, hv⟩

/-- any root finder: the calls complete -/
example (R : Rys2 ℝ) : ∃ has h', CartEndsG (cartM AutoGrids.int1e_grids_ipvip 0) R realK lib has h' :=
  (C16_grids_operators mem_all (by decide) (by decide)).1 _

/-- int1e_grids_spvsp with spinor output: p with both j, d with j = 5/2 -/
noncomputable def spM : SpMemG (AutoGrids.int1e_grids_spvsp.intG : IntG ℝ) (callG 0) 1 0 (-3) where
  fpd := 1
  sh := 5
  buf := 0
  size := cacheSizeGrids (AutoGrids.int1e_grids_spvsp.intG : IntG ℝ) (callG 0) + 9
  fl := ⟨1, 0⟩
  loc := ⟨2, 0⟩
  counts := ⟨3, 0⟩
  loc2 := ⟨4, 0⟩
  out := ⟨5, 7⟩
  dims := some ⟨6, 0⟩
  nd := three 14 12 300
  h := { SpinorDemo.memJ with I := fun q => if q.buf = 6 then .val (three 14 12 300 q.off) else .undef }
  tab := ⟨⟨9, 0⟩, ⟨10, 0⟩⟩
  hic := by show 1 ≤ 2; omega
  hjc := by show 1 ≤ 2; omega
  hdi := by show 0 < lenSpinorC2S 0 1; decide
  hdj := by show 0 < lenSpinorC2S (-3) 2; decide
  M := ⟨by omega, fun k _ => by simp [SpinorDemo.memJ], fun k _ => by simp, fun k _ => by simp,
    fun k _ => by simp, fun k _ => by simp, by decide, by decide⟩
  hsize := Nat.le_add_right _ _
  O := { h_dims := ⟨fun t _ => by simp, by decide⟩
         h_dims3 := fun d hd => by cases hd; exact ⟨1, by simp [three]⟩
         h_dbuf := fun d hd => by cases hd; decide
         fits := by
           show lenSpinorC2S 0 1*2 ≤ 14 ∧ lenSpinorC2S (-3) 2*2 ≤ 12 ∧ 250 ≤ 300
           decide
         h_out := fun m _ => by simp [SpinorDemo.memJ]
         h_obuf := by decide
         l2 := fun t _ => by simp
         l2c := by decide }
  T := ⟨SpinorDemo.tabJ, by decide, by decide, by decide, by decide⟩

example : ∃ R has h', SpEndsG spM ⟨true, false⟩ 4 R realK lib has h' ∧ ∃ z : Cx ℝ, spM.Elem h' 0 220 1 3 0 5 z := by
  obtain ⟨R, hR⟩ := exists_rys2
  obtain ⟨has, h', h1, _, h2⟩ := C55_grids_spinor (R := R) (name := "int1e_grids_spvsp") (G := AutoGrids.int1e_grids_spvsp)
    (D := PotDefs.spvsp) (kd := ⟨true, false⟩) (e1 := 4) (nT := 1)
    (by unfold AutoGrids.all; simp) (by unfold defsG; simp) (by unfold AutoGrids.spinor; simp) spM (L := lib) rfl (maxG _).1 (maxG _).2
    (allKept _ _ (Or.inl (le_refl _))) (callG_pos _) (by show (0:ℝ) ≤ 3; norm_num) (hR _) (by decide) (by decide)
  obtain ⟨z, hz, _⟩ := h2 0 220 1 0 3 5 (by decide) (by show 220 < 250; omega) (by show 1 < 2; omega)
    (by show 0 < 2; omega) (by show 3 < lenSpinorC2S 0 1; decide) (by show 5 < lenSpinorC2S (-3) 2; decide)
  exact ⟨R, has, h', h1, z, hz⟩

end OperGridsDemo

end Verif.Props
