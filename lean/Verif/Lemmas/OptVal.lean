import Verif.Lemmas.OptBuild
import Verif.Props.EriExact

/-! Values computed by the four-centre driver with an optimizer. -/
namespace Verif.Lemmas
open Verif Verif.Model Verif.Prog Verif.Props Verif.Spec

/-- the estimate for the second electron in the loops with an optimizer -/
noncomputable def estKLo (L : MathLib ℝ) (s : Call2 ℝ) (mk ml : Nat → ℝ) (kp lp : Nat) : ℝ :=
  est L s.sk s.sl mk ml (rr2 s.sk.r s.sl.r) s.omega (s.sk.l + s.sl.l) kp lp

/-- The primitive quartet survives the screening with an optimizer; `cutP` is the cutoff for the pair data. -/
structure KeptO (L : MathLib ℝ) (s : Call2 ℝ) (cutP : ℝ) (mi mj mk ml : Nat → ℝ) (ip jp kp lp : Nat) : Prop where
  pairIJ : estIJ L s mi mj ip jp < cutP
  pairKL : estKLo L s mk ml kp lp < cutP
  kl : estKLo L s mk ml kp lp ≤ cutoff2e s.envCut
  ij : estIJ L s mi mj ip jp ≤ cutoff2e s.envCut - estKLo L s mk ml kp lp
  sr : s.omega < 0 → srExp s ip jp kp lp ≤ 40 ∧
    srExp s ip jp kp lp ≤ cutoff2e s.envCut - estKLo L s mk ml kp lp - estIJ L s mi mj ip jp

/-- the numbers of the pairs of primitives are those of the specification -/
structure PairData (L : MathLib ℝ) (s : Call2 ℝ) (cutP : ℝ) (mi mj mk ml : Nat → ℝ) (Vij Vkl : Nat → Nat → Nat → ℝ) : Prop where
  ij : ∀ ip jp, ip < s.si.nprim → jp < s.sj.nprim → IsPairEntry L.exp (s.si.a ip) (s.sj.a jp) s.si.r s.sj.r
    (rr2 s.si.r s.sj.r) (estIJ L s mi mj ip jp) cutP (fun c => Vij ip jp c)
  kl : ∀ kp lp, kp < s.sk.nprim → lp < s.sl.nprim → IsPairEntry L.exp (s.sk.a kp) (s.sl.a lp) s.sk.r s.sl.r
    (rr2 s.sk.r s.sl.r) (estKLo L s mk ml kp lp) cutP (fun c => Vkl kp lp c)

/-- data of a primitive quartet taken from the pair data -/
def gPV (s : Call2 ℝ) (Vij Vkl : Nat → Nat → Nat → ℝ) (ip jp kp lp : Nat) : G2 ℝ :=
  s.g2P ⟨pairF s.si.nprim Vij, pairF s.sk.nprim Vkl⟩ ip jp kp lp

/-- the cutoff passed to CINTg0_2e -/
noncomputable def gcut (s : Call2 ℝ) (Vij Vkl : Nat → Nat → Nat → ℝ) (ip jp kp lp : Nat) : ℝ :=
  cutoff2e s.envCut - Vkl kp lp 4 - Vij ip jp 4

variable {L : MathLib ℝ} {s : Call2 ℝ} {R : Rys2 ℝ} {Vij Vkl : Nat → Nat → Nat → ℝ}

open Classical in
noncomputable def keepV (s : Call2 ℝ) (Vij Vkl : Nat → Nat → Nat → ℝ) (ip jp kp lp : Nat) : Bool :=
  decide (G2.kept (gPV s Vij Vkl ip jp kp lp) (gcut s Vij Vkl ip jp kp lp))

noncomputable def wV (s : Call2 ℝ) (Vij Vkl : Nat → Nat → Nat → ℝ) (ip jp kp lp n : Nat) : ℝ :=
  eriW (gPV s Vij Vkl ip jp kp lp) (fun c => i4 (s.env (eriInt : Int2e ℝ)) c n) (fun c => j4 (s.env (eriInt : Int2e ℝ)) c n)
        (fun c => k4 (s.env (eriInt : Int2e ℝ)) c n) (fun c => l4 (s.env (eriInt : Int2e ℝ)) c n)

theorem gPV_rij {ip jp kp lp c : Nat} (hip : ip < s.si.nprim) (hc : c < 5) : (gPV s Vij Vkl ip jp kp lp).rij c = Vij ip jp c :=
  pairF_eq hip hc

theorem gPV_rkl {ip jp kp lp c : Nat} (hkp : kp < s.sk.nprim) (hc : c < 5) : (gPV s Vij Vkl ip jp kp lp).rkl c = Vkl kp lp c :=
  pairF_eq hkp hc

theorem eri_evalP (hp : PosExp s) (hR : RootsOK R s) :
    EvalOKP R realK eriInt s Vij Vkl (keepV s Vij Vkl) (wV s Vij Vkl) := by
  classical
  intro P hP ip jp kp lp g idx T hip hjp hkp hlp hT
  have hrij : ∀ c, c < 3 → (s.g2P P ip jp kp lp).rij c = (gPV s Vij Vkl ip jp kp lp).rij c := by
    intro c hc
    rw [gPV_rij hip (by omega)]
    exact hP.1 ip jp c hip hjp (by omega)
  have hrkl : ∀ c, c < 3 → (s.g2P P ip jp kp lp).rkl c = (gPV s Vij Vkl ip jp kp lp).rkl c := by
    intro c hc
    rw [gPV_rkl hkp (by omega)]
    exact hP.2 kp lp c hkp hlp (by omega)
  have key := eri_kernel2 (g := g) (idx := idx) (T := T) (d := s.g2P P ip jp kp lp) hR
    (cutoff := cutoff2e s.envCut - P.kl (5*(lp*s.sk.nprim+kp)+4) - P.ij (5*(jp*s.si.nprim+ip)+4))
    (hp.ij ip jp hip hjp) (hp.kl kp lp hkp hlp) hT
  have e1 : decide (G2.kept (s.g2P P ip jp kp lp)
      (cutoff2e s.envCut - P.kl (5*(lp*s.sk.nprim+kp)+4) - P.ij (5*(jp*s.si.nprim+ip)+4))) = keepV s Vij Vkl ip jp kp lp := by
    unfold keepV gcut
    rw [hP.1 ip jp 4 hip hjp (by omega), hP.2 kp lp 4 hkp hlp (by omega)]
    congr 1
    unfold G2.kept G2.theta G2.x
    rw [hrij 0 (by omega), hrij 1 (by omega), hrij 2 (by omega), hrkl 0 (by omega), hrkl 1 (by omega), hrkl 2 (by omega)]
    rfl
  have e2 : (fun n => eriW (s.g2P P ip jp kp lp) (fun c => i4 (s.env (eriInt : Int2e ℝ)) c n) (fun c => j4 (s.env (eriInt : Int2e ℝ)) c n)
        (fun c => k4 (s.env (eriInt : Int2e ℝ)) c n) (fun c => l4 (s.env (eriInt : Int2e ℝ)) c n)) = wV s Vij Vkl ip jp kp lp := by
    funext n
    unfold wV eriW
    have f1 : (fun k : Fin 3 => (s.g2P P ip jp kp lp).rij k) = fun k : Fin 3 => (gPV s Vij Vkl ip jp kp lp).rij k :=
      funext fun k => hrij k k.isLt
    have f2 : (fun k : Fin 3 => (s.g2P P ip jp kp lp).rkl k) = fun k : Fin 3 => (gPV s Vij Vkl ip jp kp lp).rkl k :=
      funext fun k => hrkl k k.isLt
    rw [f1, f2]
    rfl
  rw [e1, e2] at key
  exact key

/-- the prefactors times the integral over the product Gaussians make up the integral of the primitives -/
theorem eriW_prim {ip jp kp lp : Nat} (h1 : 0 < s.si.a ip + s.sj.a jp) (h2 : 0 < s.sk.a kp + s.sl.a lp) {d : G2 ℝ}
    (ha : d.ai = s.si.a ip ∧ d.aj = s.sj.a jp ∧ d.ak = s.sk.a kp ∧ d.al = s.sl.a lp)
    (hr : d.ri = s.si.r ∧ d.rj = s.sj.r ∧ d.rk = s.sk.r ∧ d.rl = s.sl.r) (ho : d.omega = s.omega)
    (hij : ∀ c, c < 3 → d.rij c = prodCentre (s.si.a ip) (s.sj.a jp) (s.si.r c) (s.sj.r c))
    (hkl : ∀ c, c < 3 → d.rkl c = prodCentre (s.sk.a kp) (s.sl.a lp) (s.sk.r c) (s.sl.r c)) (i j k l : Nat) :
    Real.exp (-prodExponent (s.si.a ip) (s.sj.a jp) (rr2 s.si.r s.sj.r)) *
      Real.exp (-prodExponent (s.sk.a kp) (s.sl.a lp) (rr2 s.sk.r s.sl.r)) *
      eriW d (fun c => pw s.si.l c i) (fun c => pw s.sj.l c j) (fun c => pw s.sk.l c k) (fun c => pw s.sl.l c l) *
      (2 / Real.sqrt Real.pi * Real.pi^3) =
    primERI s ip jp kp lp (powers s.si.l i) (powers s.sj.l j) (powers s.sk.l k) (powers s.sl.l l) := by
  have hpi : (2 / Real.sqrt Real.pi * Real.pi^3) ≠ 0 := by positivity
  have ex : ∀ (a b : ℝ) (A B : PShell ℝ), Real.exp (-prodExponent a b (rr2 A.r B.r)) =
      Real.exp (-(a*b/(a+b)) * ∑ k, (centre A k - centre B k)^2) := by
    intro a b A B
    congr 1
    unfold prodExponent centre rr2
    rw [Fin.sum_univ_three]
    simp only [Fin.val_zero, Fin.val_one, Fin.val_two]
    ring
  have g1 := fun r => gto_mul_eq h1.ne' (centre s.si) (centre s.sj) (powers s.si.l i) (powers s.sj.l j) r
  have g2 := fun r => gto_mul_eq h2.ne' (centre s.sk) (centre s.sl) (powers s.sk.l k) (powers s.sl.l l) r
  unfold primERI
  simp only [g1, g2]
  rw [repulsion_smul, ex, ex, mul_assoc]
  congr 1
  unfold eriW
  rw [div_mul_cancel₀ _ hpi]
  have hP : (fun k : Fin 3 => d.rij k) = fun k =>
      (s.si.a ip * centre s.si k + s.sj.a jp * centre s.sj k)/(s.si.a ip + s.sj.a jp) := by
    funext k
    exact hij k k.isLt
  have hQ : (fun k : Fin 3 => d.rkl k) = fun k =>
      (s.sk.a kp * centre s.sk k + s.sl.a lp * centre s.sl k)/(s.sk.a kp + s.sl.a lp) := by
    funext k
    exact hkl k k.isLt
  rw [hP, hQ, ha.1, ha.2.1, ha.2.2.1, ha.2.2.2, hr.1, hr.2.1, hr.2.2.1, hr.2.2.2, ho]
  rfl

section
variable {cutP : ℝ} {mi mj mk ml : Nat → ℝ} {ip jp kp lp : Nat}

theorem kept_gPV (D : PairData L s cutP mi mj mk ml Vij Vkl) (hip : ip < s.si.nprim) (hjp : jp < s.sj.nprim)
    (hkp : kp < s.sk.nprim) (hlp : lp < s.sl.nprim) (h1 : estIJ L s mi mj ip jp < cutP) (h2 : estKLo L s mk ml kp lp < cutP)
    (c : ℝ) : G2.kept (gPV s Vij Vkl ip jp kp lp) c ↔ (s.omega < 0 → srExp s ip jp kp lp ≤ 40 ∧ srExp s ip jp kp lp ≤ c) := by
  have a1 := ((D.ij ip jp hip hjp).2.1 h1).1
  have a2 := ((D.kl kp lp hkp hlp).2.1 h2).1
  have hx : G2.theta (gPV s Vij Vkl ip jp kp lp) * G2.x (gPV s Vij Vkl ip jp kp lp) = srExp s ip jp kp lp := by
    unfold G2.theta G2.x
    rw [gPV_rij hip (show 0 < 5 by omega), gPV_rij hip (show 1 < 5 by omega), gPV_rij hip (show 2 < 5 by omega),
      gPV_rkl hkp (show 0 < 5 by omega), gPV_rkl hkp (show 1 < 5 by omega), gPV_rkl hkp (show 2 < 5 by omega)]
    unfold G2.a0 gPV Call2.g2P srExp
    dsimp only
    have b := fun c hc => a1 c hc
    have b' := fun c hc => a2 c hc
    dsimp only at b b'
    rw [b 0 (by omega), b 1 (by omega), b 2 (by omega), b' 0 (by omega), b' 1 (by omega), b' 2 (by omega), Fin.sum_univ_three]
    unfold prodCentre
    simp only [Fin.val_zero, Fin.val_one, Fin.val_two]
    ring
  unfold G2.kept
  rw [hx]
  show ¬ (s.omega < 0 ∧ _) ↔ _
  rw [not_and]
  refine imp_congr_right fun _ => ?_
  rw [not_or, not_lt, not_lt, and_comm]

open Classical in
/-- the numbers computed by the loop, for Cartesian functions -/
theorem eri_expectedV (hL : L.exp = Real.exp) (hp : PosExp s) (D : PairData L s cutP mi mj mk ml Vij Vkl)
    {ic jc kc lc i j k l : Nat} (h1 : i < ncart s.si.l) (h2 : j < ncart s.sj.l) (h3 : k < ncart s.sk.l) (h4 : l < ncart s.sl.l) :
    expected (quartetV R realK eriInt s Vij Vkl) (keepV s Vij Vkl) (wV s Vij Vkl) 0 ic jc kc lc
      (pos4c (ncar (Call2.ls s)) i j k l) =
    spNorm s.si.l * spNorm s.sj.l * spNorm s.sk.l * spNorm s.sl.l *
      contract4 s.si.nprim s.sj.nprim s.sk.nprim s.sl.nprim s.si.c s.sj.c s.sk.c s.sl.c (fun ip jp kp lp =>
        if KeptO L s cutP mi mj mk ml ip jp kp lp then
          primERI s ip jp kp lp (powers s.si.l i) (powers s.sj.l j) (powers s.sk.l k) (powers s.sl.l l) else 0) ic jc kc lc := by
  unfold expected
  have hcom : (quartetV R realK eriInt s Vij Vkl).common =
      (2 / Real.sqrt Real.pi * Real.pi^3) * (spNorm s.si.l * spNorm s.sj.l * spNorm s.sk.l * spNorm s.sl.l) := by
    show 1 * (Real.pi * Real.pi * Real.pi * 2 / Real.sqrt Real.pi * commonFacSp s.si.l * commonFacSp s.sj.l *
      commonFacSp s.sk.l * commonFacSp s.sl.l) = _
    rw [spNorm_eq, spNorm_eq, spNorm_eq, spNorm_eq]
    ring
  rw [hcom, mul_comm (2 / Real.sqrt Real.pi * Real.pi^3), mul_assoc]
  congr 1
  unfold contract4
  rw [Finset.mul_sum]
  refine Finset.sum_congr rfl (fun lp hlp => ?_)
  rw [Finset.mul_sum]
  refine Finset.sum_congr rfl (fun kp hkp => ?_)
  rw [Finset.mul_sum]
  refine Finset.sum_congr rfl (fun jp hjp => ?_)
  rw [Finset.mul_sum]
  refine Finset.sum_congr rfl (fun ip hip => ?_)
  have hip : ip < s.si.nprim := Finset.mem_range.1 hip
  have hjp : jp < s.sj.nprim := Finset.mem_range.1 hjp
  have hkp : kp < s.sk.nprim := Finset.mem_range.1 hkp
  have hlp : lp < s.sl.nprim := Finset.mem_range.1 hlp
  rw [mul_comm (2 / Real.sqrt Real.pi * Real.pi^3), mul_assoc]
  show s.sl.c (s.sl.nprim*lc+lp) * s.sk.c (s.sk.nprim*kc+kp) * s.sj.c (s.sj.nprim*jc+jp) * s.si.c (s.si.nprim*ic+ip) * _ = _
  congr 1
  have hx : pos4c (ncar (Call2.ls s)) i j k l = ((j*ncart s.sl.l + l)*ncart s.sk.l + k)*ncart s.si.l + i := by
    unfold pos4c ncar
    show i + ncart s.si.l * (k + ncart s.sk.l * (l + ncart s.sl.l * j)) = _
    ring
  have qi : ∀ c, i4 (s.env (eriInt : Int2e ℝ)) c (pos4c (ncar (Call2.ls s)) i j k l * 1 + 0) = pw s.si.l c i := by
    intro c
    rw [Nat.mul_one, Nat.add_zero, hx]
    show pw s.si.l c (_ % ncart s.si.l) = _
    rw [(digit h1).2]
  have qk : ∀ c, k4 (s.env (eriInt : Int2e ℝ)) c (pos4c (ncar (Call2.ls s)) i j k l * 1 + 0) = pw s.sk.l c k := by
    intro c
    rw [Nat.mul_one, Nat.add_zero, hx]
    show pw s.sk.l c (_ / ncart s.si.l % ncart s.sk.l) = _
    rw [(digit h1).1, (digit h3).2]
  have ql : ∀ c, l4 (s.env (eriInt : Int2e ℝ)) c (pos4c (ncar (Call2.ls s)) i j k l * 1 + 0) = pw s.sl.l c l := by
    intro c
    rw [Nat.mul_one, Nat.add_zero, hx]
    show pw s.sl.l c (_ / ncart s.si.l / ncart s.sk.l % ncart s.sl.l) = _
    rw [(digit h1).1, (digit h3).1, (digit h4).2]
  have qj : ∀ c, j4 (s.env (eriInt : Int2e ℝ)) c (pos4c (ncar (Call2.ls s)) i j k l * 1 + 0) = pw s.sj.l c j := by
    intro c
    rw [Nat.mul_one, Nat.add_zero, hx]
    show pw s.sj.l c (_ / ncart s.si.l / ncart s.sk.l / ncart s.sl.l) = _
    rw [(digit h1).1, (digit h3).1, (digit h4).1]
  have eij : (quartetV R realK eriInt s Vij Vkl).eij ip jp = Vij ip jp 3 := pairF_eq hip (by omega)
  have ekl : (quartetV R realK eriInt s Vij Vkl).ekl kp lp = Vkl kp lp 3 := pairF_eq hkp (by omega)
  have p4 : pairF s.si.nprim Vij (5*(jp*s.si.nprim+ip)+4) = estIJ L s mi mj ip jp :=
    (pairF_eq hip (by omega)).trans (D.ij ip jp hip hjp).1
  have q4 : pairF s.sk.nprim Vkl (5*(lp*s.sk.nprim+kp)+4) = estKLo L s mk ml kp lp :=
    (pairF_eq hkp (by omega)).trans (D.kl kp lp hkp hlp).1
  have p4' : Vij ip jp 4 = estIJ L s mi mj ip jp := (D.ij ip jp hip hjp).1
  have q4' : Vkl kp lp 4 = estKLo L s mk ml kp lp := (D.kl kp lp hkp hlp).1
  beta_reduce
  rw [eij, ekl]
  have hw : wV s Vij Vkl ip jp kp lp (pos4c (ncar (Call2.ls s)) i j k l * (quartetV R realK eriInt s Vij Vkl).nComp + 0) =
      eriW (gPV s Vij Vkl ip jp kp lp) (fun c => pw s.si.l c i) (fun c => pw s.sj.l c j) (fun c => pw s.sk.l c k)
        (fun c => pw s.sl.l c l) := by
    show eriW _ (fun c => i4 (s.env (eriInt : Int2e ℝ)) c (pos4c (ncar (Call2.ls s)) i j k l * 1 + 0)) _ _ _ = _
    simp only [qi]
    show eriW _ _ (fun c => j4 (s.env (eriInt : Int2e ℝ)) c (pos4c (ncar (Call2.ls s)) i j k l * 1 + 0)) _ _ = _
    simp only [qj]
    show eriW _ _ _ (fun c => k4 (s.env (eriInt : Int2e ℝ)) c (pos4c (ncar (Call2.ls s)) i j k l * 1 + 0)) _ = _
    simp only [qk]
    show eriW _ _ _ _ (fun c => l4 (s.env (eriInt : Int2e ℝ)) c (pos4c (ncar (Call2.ls s)) i j k l * 1 + 0)) = _
    simp only [ql]
  rw [hw]
  have hsur : survives (quartetV R realK eriInt s Vij Vkl) (keepV s Vij Vkl) ip jp kp lp = true ↔
      (estKLo L s mk ml kp lp ≤ cutoff2e s.envCut ∧ estIJ L s mi mj ip jp ≤ cutoff2e s.envCut - estKLo L s mk ml kp lp ∧
        G2.kept (gPV s Vij Vkl ip jp kp lp) (cutoff2e s.envCut - estKLo L s mk ml kp lp - estIJ L s mi mj ip jp)) := by
    unfold survives
    show (!decide (pairF s.sk.nprim Vkl (5*(lp*s.sk.nprim+kp)+4) > cutoff2e s.envCut) &&
      (!decide (pairF s.si.nprim Vij (5*(jp*s.si.nprim+ip)+4) > cutoff2e s.envCut - pairF s.sk.nprim Vkl (5*(lp*s.sk.nprim+kp)+4)) &&
        keepV s Vij Vkl ip jp kp lp)) = true ↔ _
    unfold keepV gcut
    rw [p4, q4, p4', q4']
    simp only [Bool.and_eq_true, Bool.not_eq_true', decide_eq_false_iff_not, decide_eq_true_eq, not_lt, gt_iff_lt]
  by_cases hv : estIJ L s mi mj ip jp < cutP
  · by_cases hu : estKLo L s mk ml kp lp < cutP
    · have hiff : survives (quartetV R realK eriInt s Vij Vkl) (keepV s Vij Vkl) ip jp kp lp = true ↔
          KeptO L s cutP mi mj mk ml ip jp kp lp := by
        rw [hsur, kept_gPV D hip hjp hkp hlp hv hu]
        exact ⟨fun ⟨a, b, c⟩ => ⟨hv, hu, a, b, c⟩, fun ⟨_, _, a, b, c⟩ => ⟨a, b, c⟩⟩
      by_cases hk : KeptO L s cutP mi mj mk ml ip jp kp lp
      · rw [if_pos (hiff.2 hk), if_pos hk]
        obtain ⟨c1, x1⟩ := (D.ij ip jp hip hjp).2.1 hv
        obtain ⟨c2, x2⟩ := (D.kl kp lp hkp hlp).2.1 hu
        dsimp only at x1 x2
        rw [x1, x2, hL]
        refine eriW_prim (d := gPV s Vij Vkl ip jp kp lp) (hp.ij ip jp hip hjp) (hp.kl kp lp hkp hlp) ⟨rfl, rfl, rfl, rfl⟩
          ⟨rfl, rfl, rfl, rfl⟩ rfl ?_ ?_ i j k l
        · intro c hc
          rw [gPV_rij hip (by omega)]; exact c1 c hc
        · intro c hc
          rw [gPV_rkl hkp (by omega)]; exact c2 c hc
      · rw [if_neg (fun x => hk (hiff.1 x)), if_neg hk, zero_mul]
    · rw [if_neg (fun x : KeptO L s cutP mi mj mk ml ip jp kp lp => hu x.pairKL)]
      have : Vkl kp lp 3 = 0 := (D.kl kp lp hkp hlp).2.2 hu
      rw [this]
      simp
  · rw [if_neg (fun x : KeptO L s cutP mi mj mk ml ip jp kp lp => hv x.pairIJ)]
    have : Vij ip jp 3 = 0 := (D.ij ip jp hip hjp).2.2 hv
    rw [this]
    simp

theorem pairTbl_entry {B : Nat → PShell ℝ} {inc nbas : Nat} {cutoff omega : ℝ} {m : Nat → Nat → ℝ} {i j : Nat} (hi : i < nbas) (hj : j < nbas)
    (hm : ∀ i, i < nbas → MaxCoeff (B i) (m i))
    (hpos : ∀ i j ip jp, i < nbas → j < nbas → ip < (B i).nprim → jp < (B j).nprim → (B i).a ip + (B j).a jp ≠ 0)
    {ip jp : Nat} (hip : ip < (B i).nprim) (hjp : jp < (B j).nprim) :
      IsPairEntry L.exp ((B i).a ip) ((B j).a jp) (B i).r (B j).r (rr2 (B i).r (B j).r)
        (est L (B i) (B j) (m i) (m j) (rr2 (B i).r (B j).r) omega ((B i).l + (B j).l + inc) ip jp) cutoff
        (fun k => pairTblVal L B inc cutoff omega i j ip jp k) := by
  unfold pairTblVal
  by_cases hij : j ≤ i
  · simp only [hij, if_true]
    have := pairVal_entry (L := L) (p := setijArgs B inc cutoff omega i j) (hm i hi) (hm j hj) hip hjp
      (hpos i j ip jp hi hj hip hjp)
    rw [show (B i).l + (B j).l + inc = (B i).l + inc + (B j).l by omega]
    exact this
  · simp only [hij, if_false]
    have := pairVal_entry (L := L) (p := setijArgs B inc cutoff omega j i) (hm j hj) (hm i hi) hjp hip
      (hpos j i jp ip hj hi hjp hip)
    rw [show (B i).l + (B j).l + inc = (B j).l + inc + (B i).l by omega, est_symm, rr2_symm]
    exact entry_symm this

theorem pairTbl_empty {B : Nat → PShell ℝ} {inc nbas : Nat} {cutoff omega : ℝ} {m : Nat → Nat → ℝ} {i j : Nat} (hi : i < nbas) (hj : j < nbas)
    (hm : ∀ i, i < nbas → MaxCoeff (B i) (m i)) :
    pairTblEmpty L B inc cutoff omega i j ↔ ∀ ip jp, ip < (B i).nprim → jp < (B j).nprim →
      ¬ est L (B i) (B j) (m i) (m j) (rr2 (B i).r (B j).r) omega ((B i).l + (B j).l + inc) ip jp < cutoff := by
  unfold pairTblEmpty PairEmpty
  by_cases hij : j ≤ i
  · rw [if_pos hij]
    refine forall_congr' fun ip => forall_congr' fun jp => ?_
    refine forall_congr' fun hip => forall_congr' fun hjp => ?_
    rw [pairCC_eq (p := setijArgs B inc cutoff omega i j) (hm i hi) (hm j hj) hip hjp,
      show (B i).l + (B j).l + inc = (B i).l + inc + (B j).l by omega]
    exact Iff.rfl
  · rw [if_neg hij]
    have e : ∀ ip jp, ip < (B i).nprim → jp < (B j).nprim →
        pairCC L (setijArgs B inc cutoff omega j i) jp ip =
        est L (B i) (B j) (m i) (m j) (rr2 (B i).r (B j).r) omega ((B i).l + (B j).l + inc) ip jp := by
      intro ip jp hip hjp
      rw [pairCC_eq (p := setijArgs B inc cutoff omega j i) (hm j hj) (hm i hi) hjp hip, est_symm,
        show (B i).l + (B j).l + inc = (B j).l + inc + (B i).l by omega, rr2_symm]
      rfl
    constructor
    · intro H ip jp hip hjp
      rw [← e ip jp hip hjp]; exact H jp ip hjp hip
    · intro H jp ip hjp hip
      have := H ip jp hip hjp
      rw [← e ip jp hip hjp] at this; exact this
end
end Verif.Lemmas
