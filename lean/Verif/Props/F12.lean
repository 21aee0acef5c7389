import Verif.Lemmas.DrvF12
import Verif.Lemmas.F12Kernel
import Verif.Lemmas.F12Exist
import Verif.Props.EriExact

/-!
C59 — two-electron integrals over the Yukawa interaction and the Slater-type geminal.
-/
namespace Verif.Props
open Verif Verif.Model Verif.Prog Verif.Lemmas Verif.Spec MeasureTheory

section
variable {α : Type} [Field α] [LinearOrder α]

/-- Where and with what memory the integral is called, spherical output; the transformation table is stored at `tab`.  The cache
has at least the queried size. -/
structure SphMemF (X : Int2e α) (s : CallF α) where
  fpd : Nat
  buf : Nat
  size : Nat
  empty : Ptr
  fl : Ptr
  loc : Ptr
  counts : Ptr
  out : Ptr
  dims : Option Ptr
  nd : Nat → Nat
  h : Heap α
  hs : Sizes 4 (nsph (CallF.ls s)) (CallF.nctrs s) nd
  M : CallMem2 h fpd buf size empty fl loc counts
  hsize : cacheSizeF X s ≤ size
  O : OutArg2 4 h nd (fun t => nsph (CallF.ls s) t * CallF.nctrs s t) X.nComp out dims buf empty fl loc counts
  tab : Ptr
  hT : HoldsTab h tab
  htb : tab.buf ≠ buf
  hto : out.buf ≠ tab.buf

/-- content of the output array: component `n`, function `i` of contraction `ic` of the first shell and so on -/
def SphMemF.elem {X : Int2e α} {s : CallF α} (A : SphMemF X s) (h' : Heap α) (n ic i jc j kc k lc l : Nat) : Cell α :=
  h'.D (A.out + outAt A.nd n (ic*(s.si.l*2+1)+i) (jc*(s.sj.l*2+1)+j) (kc*(s.sk.l*2+1)+k) (lc*(s.sl.l*2+1)+l))

/-- the call returns `has` and ends with memory `h'` -/
def SphEndsF {X : Int2e α} {s : CallF α} (B : SphMemF X s) (R : RysF α) (K : Consts α) (L : MathLib α) (has : Bool)
    (h' : Heap α) : Prop :=
  run (drvF X s R K L B.fpd (sphTrans2e B.tab B.fpd s.si.l s.sj.l s.sk.l s.sl.l) (nsph (CallF.ls s)) B.out B.dims B.buf 0
    B.empty B.fl B.loc B.counts) B.h = some (has, h')
end

/-- all exponents are positive in pairs -/
structure PosExpF (s : CallF ℝ) : Prop where
  ij : ∀ ip jp, ip < s.si.nprim → jp < s.sj.nprim → 0 < s.si.a ip + s.sj.a jp
  kl : ∀ kp lp, kp < s.sk.nprim → lp < s.sl.nprim → 0 < s.sk.a kp + s.sl.a lp

/-- the root finder returns the roots and weights of Rys quadrature for the numbers of roots this call needs -/
def RootsOKF (R : RysF ℝ) (s : CallF ℝ) : Prop := RysFOK R (s.env f12Int).nrys_roots

/-- the evaluator, for any data of a primitive quartet -/
theorem f12_kernel2 {s : CallF ℝ} {R : RysF ℝ} (hR : RootsOKF R s) {d : G2 ℝ} (ha : 0 < d.ai+d.aj)
    (hb : 0 < d.ak+d.al) {g idx : Ptr} {T : Ptr → Option Int}
    (hT : IdxT T idx (s.env (f12Int : Int2e ℝ)).nf (adr4 (s.env (f12Int : Int2e ℝ)) (i4 (s.env (f12Int : Int2e ℝ)))
      (j4 (s.env (f12Int : Int2e ℝ))) (k4 (s.env (f12Int : Int2e ℝ))) (l4 (s.env (f12Int : Int2e ℝ))))) :
    KernelSpec T (fun fac => g0F12 s.stg R realK (s.env f12Int) d s.zeta g fac)
      (fun _ gout em => (f12Int : Int2e ℝ).gout (s.env f12Int) d idx g gout em) (Blk g (s.leng f12Int))
      ((s.env f12Int).nf * (f12Int : Int2e ℝ).nComp) true
      (fun n => f12W s.stg s.zeta d (fun c => i4 (s.env f12Int) c n) (fun c => j4 (s.env f12Int) c n)
        (fun c => k4 (s.env f12Int) c n) (fun c => l4 (s.env f12Int) c n)) := by
  have hnf : (s.env (f12Int : Int2e ℝ)).nf = ncart s.sj.l * ncart s.sl.l * ncart s.sk.l * ncart s.si.l := by
    show lenCart s.si.l * lenCart s.sk.l * lenCart s.sl.l * lenCart s.sj.l = _
    simp only [lenCart_eq]; ring
  have dig : ∀ n, n < (s.env (f12Int : Int2e ℝ)).nf → n % ncart s.si.l < ncart s.si.l ∧ n / ncart s.si.l % ncart s.sk.l < ncart s.sk.l ∧
      n / ncart s.si.l / ncart s.sk.l % ncart s.sl.l < ncart s.sl.l ∧
      n / ncart s.si.l / ncart s.sk.l / ncart s.sl.l < ncart s.sj.l := by
    intro n hn
    rw [hnf] at hn
    refine ⟨Nat.mod_lt _ (ncart_pos _), Nat.mod_lt _ (ncart_pos _), Nat.mod_lt _ (ncart_pos _), ?_⟩
    rw [Nat.div_lt_iff_lt_mul (ncart_pos _), Nat.div_lt_iff_lt_mul (ncart_pos _), Nat.div_lt_iff_lt_mul (ncart_pos _)]
    exact hn
  have key := f12_kernel (stg := s.stg) (ζ := s.zeta) (R := R) (e := s.env f12Int) (d := d)
    (g := g) (idx := idx) (leng := s.leng f12Int) (nf := (s.env f12Int).nf) (T := T)
    (I := i4 (s.env f12Int)) (J := j4 (s.env f12Int)) (K := k4 (s.env f12Int)) (L := l4 (s.env f12Int))
    ⟨rfl, rfl, rfl, rfl, rfl, rfl, rfl⟩ (by
      show 3 * (s.env f12Int).g_size ≤ (s.env f12Int).g_size * 3 * (2^0+1)
      omega) hR ha hb (by
      intro n c hn hc
      obtain ⟨d1, d2, d3, d4⟩ := dig n hn
      exact ⟨pw_le d1, pw_le d4, pw_le d2, pw_le d3⟩) (by
      intro n hn
      obtain ⟨d1, d2, d3, d4⟩ := dig n hn
      simp only [Finset.sum_add_distrib]
      have e1 : ∑ c : Fin 3, i4 (s.env f12Int) c n = s.si.l := pw_sum d1
      have e2 : ∑ c : Fin 3, j4 (s.env f12Int) c n = s.sj.l := pw_sum d4
      have e3 : ∑ c : Fin 3, k4 (s.env f12Int) c n = s.sk.l := pw_sum d2
      have e4 : ∑ c : Fin 3, l4 (s.env f12Int) c n = s.sl.l := pw_sum d3
      rw [e1, e2, e3, e4]
      show _ < 2 * ((s.si.l + 0 + (s.sj.l + 0) + (s.sk.l + 0) + (s.sl.l + 0) + 3)/2)
      omega) hT
  show KernelSpec T _ (fun _ gout em => gout2e (s.env f12Int).nf _ idx g gout em) _ ((s.env f12Int).nf * 1) _ _
  rw [Nat.mul_one]
  exact key

theorem f12_eval {L : MathLib ℝ} {s : CallF ℝ} {R : RysF ℝ} (hp : PosExpF s) (hR : RootsOKF R s) :
    EvalOKF R realK L f12Int s (fun _ _ _ _ => true)
      (fun ip jp kp lp n => f12W s.stg s.zeta (s.g2 f12Int L ip jp kp lp) (fun c => i4 (s.env f12Int) c n) (fun c => j4 (s.env f12Int) c n)
        (fun c => k4 (s.env f12Int) c n) (fun c => l4 (s.env f12Int) c n)) := by
  intro ip jp kp lp g idx T hip hjp hkp hlp hT
  exact f12_kernel2 hR (hp.ij ip jp hip hjp) (hp.kl kp lp hkp hlp) hT

/-- estimate for the primitive pair of the first electron -/
noncomputable def estIJF (L : MathLib ℝ) (s : CallF ℝ) (mi mj : Nat → ℝ) (ip jp : Nat) : ℝ :=
  est L s.si s.sj mi mj (rr2 s.si.r s.sj.r) s.omega (s.si.l + s.sj.l) ip jp

/-- estimate for the primitive pair of the second electron; `mk`, `ml` are the largest absolute values of the contraction
coefficients -/
noncomputable def estKLF (L : MathLib ℝ) (s : CallF ℝ) (mk ml : Nat → ℝ) (kp lp : Nat) : ℝ :=
  prodExponent (s.sk.a kp) (s.sl.a lp) (rr2 s.sk.r s.sl.r) - s.logRRkl f12Int L - L.log (mk kp) - L.log (ml lp)

/-- The primitive quartet survives the screening: the estimates for the two pairs stay below the cutoffs in force. -/
structure KeptF (L : MathLib ℝ) (s : CallF ℝ) (mi mj mk ml : Nat → ℝ) (ip jp kp lp : Nat) : Prop where
  pair : estIJF L s mi mj ip jp < cutoffF s.envCut
  kl : estKLF L s mk ml kp lp ≤ s.cutoff f12Int L
  ij : estIJF L s mi mj ip jp ≤ s.cutoff f12Int L - estKLF L s mk ml kp lp

section
variable {L : MathLib ℝ} {s : CallF ℝ} {mi mj mk ml : Nat → ℝ} {ip jp kp lp : Nat}

theorem ccekl_eqF (hk : MaxCoeff s.sk mk) (hl : MaxCoeff s.sl ml) (hkp : kp < s.sk.nprim) (hlp : lp < s.sl.nprim) :
    s.ccekl f12Int L kp lp = estKLF L s mk ml kp lp := by
  unfold CallF.ccekl estKLF logMaxC CallF.expKL prodExponent
  rw [isMaxAbs_unique (maxAbsC_spec s.sk kp) (hk kp hkp), isMaxAbs_unique (maxAbsC_spec s.sl lp) (hl lp hlp)]
  ring

theorem pairF (hL : L.exp = Real.exp) (hi : MaxCoeff s.si mi) (hj : MaxCoeff s.sj mj)
    (hip : ip < s.si.nprim) (hjp : jp < s.sj.nprim) (h0 : 0 < s.si.a ip + s.sj.a jp) :
    pairVal L (s.pairArgs f12Int) ip jp 4 = estIJF L s mi mj ip jp ∧
    (estIJF L s mi mj ip jp < cutoffF s.envCut →
      pairVal L (s.pairArgs f12Int) ip jp 3 = Real.exp (-(s.si.a ip * s.sj.a jp/(s.si.a ip + s.sj.a jp)) *
        ∑ k, (centre s.si k - centre s.sj k)^2) ∧
      ∀ c, c < 3 → pairVal L (s.pairArgs f12Int) ip jp c =
        (s.si.a ip * s.si.r c + s.sj.a jp * s.sj.r c)/(s.si.a ip + s.sj.a jp)) ∧
    (¬ estIJF L s mi mj ip jp < cutoffF s.envCut → pairVal L (s.pairArgs f12Int) ip jp 3 = 0) := by
  have hE : pairCC L (s.pairArgs f12Int) ip jp = estIJF L s mi mj ip jp := pairCC_eq (p := s.pairArgs f12Int) hi hj hip hjp
  have hcut : (s.pairArgs f12Int).cutoff = cutoffF s.envCut := rfl
  obtain ⟨h1, h2, _⟩ := pairVal_entry (L := L) (p := s.pairArgs f12Int) hi hj hip hjp h0.ne'
  refine ⟨h1, fun hk => ?_, fun hk => ?_⟩
  · obtain ⟨h3, h4⟩ := h2 hk
    refine ⟨?_, fun c hc => h3 c hc⟩
    dsimp only at h4
    rw [h4, hL]
    congr 1
    unfold prodExponent centre
    show -(s.si.a ip * s.sj.a jp / (s.si.a ip + s.sj.a jp) * rr2 s.si.r s.sj.r) = _
    rw [Fin.sum_univ_three]
    unfold rr2
    simp only [Fin.val_zero, Fin.val_one, Fin.val_two]
    ring
  · have hk' : ¬ pairCC L (s.pairArgs f12Int) ip jp < (s.pairArgs f12Int).cutoff := by rw [hE, hcut]; exact hk
    unfold pairVal; simp [hk']

end

/-- the repulsion integral of four primitives -/
noncomputable def primF12 (s : CallF ℝ) (ip jp kp lp : Nat) (n m p q : Fin 3 → ℕ) : ℝ :=
  repulsion (VF s.stg s.zeta) (fun r => gto (s.si.a ip) (centre s.si) n r * gto (s.sj.a jp) (centre s.sj) m r)
    (fun r => gto (s.sk.a kp) (centre s.sk) p r * gto (s.sl.a lp) (centre s.sl) q r)

theorem f12_loopVal {L : MathLib ℝ} {s : CallF ℝ} {R : RysF ℝ} {mi mj mk ml : Nat → ℝ} (hL : L.exp = Real.exp)
    (hi : MaxCoeff s.si mi) (hj : MaxCoeff s.sj mj) (hk : MaxCoeff s.sk mk) (hl : MaxCoeff s.sl ml) (hp : PosExpF s)
    {ic jc kc lc i j k l : Nat} (h1 : i < ncart s.si.l) (h2 : j < ncart s.sj.l) (h3 : k < ncart s.sk.l) (h4 : l < ncart s.sl.l) :
    loopValF R realK L f12Int s (fun _ _ _ _ => true)
      (fun ip jp kp lp n => f12W s.stg s.zeta (s.g2 f12Int L ip jp kp lp) (fun c => i4 (s.env f12Int) c n) (fun c => j4 (s.env f12Int) c n)
        (fun c => k4 (s.env f12Int) c n) (fun c => l4 (s.env f12Int) c n)) 0 ic jc kc lc (pos4c (ncar (CallF.ls s)) i j k l) =
    spNorm s.si.l * spNorm s.sj.l * spNorm s.sk.l * spNorm s.sl.l *
      contract4 s.si.nprim s.sj.nprim s.sk.nprim s.sl.nprim s.si.c s.sj.c s.sk.c s.sl.c (fun ip jp kp lp =>
        open Classical in if KeptF L s mi mj mk ml ip jp kp lp then
          primF12 s ip jp kp lp (powers s.si.l i) (powers s.sj.l j) (powers s.sk.l k) (powers s.sl.l l) else 0) ic jc kc lc := by
  classical
  have hpi : (2 / Real.sqrt Real.pi * Real.pi^3) ≠ 0 := by positivity
  unfold loopValF expected
  have hcom : (s.quartet f12Int R realK L ⟨⟨0,0⟩,⟨0,0⟩,⟨0,0⟩,⟨0,0⟩,⟨0,0⟩⟩).common =
      (2 / Real.sqrt Real.pi * Real.pi^3) * (spNorm s.si.l * spNorm s.sj.l * spNorm s.sk.l * spNorm s.sl.l) := by
    show 1 * (Real.pi * Real.pi * Real.pi * 2 / Real.sqrt Real.pi * commonFacSp s.si.l * commonFacSp s.sj.l *
      commonFacSp s.sk.l * commonFacSp s.sl.l) = _
    rw [spNorm_eq, spNorm_eq, spNorm_eq, spNorm_eq]
    ring
  rw [hcom, mul_comm (2 / Real.sqrt Real.pi * Real.pi^3), mul_assoc]
  congr 1
  unfold contract4
  rw [Finset.mul_sum]
  refine Finset.sum_congr rfl (fun lp hlp => ?_)
  rw [Finset.mul_sum]
  refine Finset.sum_congr rfl (fun kp hkp => ?_)
  rw [Finset.mul_sum]
  refine Finset.sum_congr rfl (fun jp hjp => ?_)
  rw [Finset.mul_sum]
  refine Finset.sum_congr rfl (fun ip hip => ?_)
  have hip : ip < s.si.nprim := Finset.mem_range.1 hip
  have hjp : jp < s.sj.nprim := Finset.mem_range.1 hjp
  have hkp : kp < s.sk.nprim := Finset.mem_range.1 hkp
  have hlp : lp < s.sl.nprim := Finset.mem_range.1 hlp
  rw [mul_comm (2 / Real.sqrt Real.pi * Real.pi^3), mul_assoc]
  show s.sl.c (s.sl.nprim*lc+lp) * s.sk.c (s.sk.nprim*kc+kp) * s.sj.c (s.sj.nprim*jc+jp) * s.si.c (s.si.nprim*ic+ip) * _ = _
  congr 1
  obtain ⟨p4, pv, pd⟩ := pairF hL hi hj hip hjp (hp.ij ip jp hip hjp)
  have ckl := ccekl_eqF (L := L) hk hl hkp hlp
  -- digits of the position
  have hx : pos4c (ncar (CallF.ls s)) i j k l = ((j*ncart s.sl.l + l)*ncart s.sk.l + k)*ncart s.si.l + i := by
    unfold pos4c ncar
    show i + ncart s.si.l * (k + ncart s.sk.l * (l + ncart s.sl.l * j)) = _
    ring
  have qi : ∀ c, i4 (s.env (f12Int : Int2e ℝ)) c (pos4c (ncar (CallF.ls s)) i j k l * 1 + 0) = pw s.si.l c i := by
    intro c
    rw [Nat.mul_one, Nat.add_zero, hx]
    show pw s.si.l c (_ % ncart s.si.l) = _
    rw [(digit h1).2]
  have qk : ∀ c, k4 (s.env (f12Int : Int2e ℝ)) c (pos4c (ncar (CallF.ls s)) i j k l * 1 + 0) = pw s.sk.l c k := by
    intro c
    rw [Nat.mul_one, Nat.add_zero, hx]
    show pw s.sk.l c (_ / ncart s.si.l % ncart s.sk.l) = _
    rw [(digit h1).1, (digit h3).2]
  have ql : ∀ c, l4 (s.env (f12Int : Int2e ℝ)) c (pos4c (ncar (CallF.ls s)) i j k l * 1 + 0) = pw s.sl.l c l := by
    intro c
    rw [Nat.mul_one, Nat.add_zero, hx]
    show pw s.sl.l c (_ / ncart s.si.l / ncart s.sk.l % ncart s.sl.l) = _
    rw [(digit h1).1, (digit h3).1, (digit h4).2]
  have qj : ∀ c, j4 (s.env (f12Int : Int2e ℝ)) c (pos4c (ncar (CallF.ls s)) i j k l * 1 + 0) = pw s.sj.l c j := by
    intro c
    rw [Nat.mul_one, Nat.add_zero, hx]
    show pw s.sj.l c (_ / ncart s.si.l / ncart s.sk.l / ncart s.sl.l) = _
    rw [(digit h1).1, (digit h3).1, (digit h4).1]
  show (if survives (s.quartet f12Int R realK L _) _ ip jp kp lp then pairVal L (s.pairArgs f12Int) ip jp 3 *
    L.exp (-s.expKL kp lp) * f12W s.stg s.zeta (s.g2 f12Int L ip jp kp lp)
      (fun c => i4 (s.env f12Int) c (pos4c (ncar (CallF.ls s)) i j k l * 1 + 0))
      (fun c => j4 (s.env f12Int) c (pos4c (ncar (CallF.ls s)) i j k l * 1 + 0))
      (fun c => k4 (s.env f12Int) c (pos4c (ncar (CallF.ls s)) i j k l * 1 + 0))
      (fun c => l4 (s.env f12Int) c (pos4c (ncar (CallF.ls s)) i j k l * 1 + 0)) else 0) * (2 / Real.sqrt Real.pi * Real.pi^3) = _
  simp only [qi, qj, qk, ql]
  have hsur : ∀ A, survives (s.quartet f12Int R realK L A) (fun _ _ _ _ => true) ip jp kp lp = true ↔
      (estKLF L s mk ml kp lp ≤ s.cutoff f12Int L ∧ estIJF L s mi mj ip jp ≤ s.cutoff f12Int L - estKLF L s mk ml kp lp) := by
    intro A
    unfold survives
    show (!decide (s.ccekl f12Int L kp lp > s.cutoff f12Int L) &&
      (!decide (pairVal L (s.pairArgs f12Int) ip jp 4 > s.eijcutoff f12Int L kp lp) && true)) = true ↔ _
    unfold CallF.eijcutoff
    rw [p4, ckl]
    simp only [Bool.and_eq_true, Bool.not_eq_true', decide_eq_false_iff_not, not_lt, gt_iff_lt, and_true]
  by_cases hv : estIJF L s mi mj ip jp < cutoffF s.envCut
  · obtain ⟨pe, pc⟩ := pv hv
    have hiff : survives (s.quartet f12Int R realK L ⟨⟨0,0⟩,⟨0,0⟩,⟨0,0⟩,⟨0,0⟩,⟨0,0⟩⟩) (fun _ _ _ _ => true) ip jp kp lp = true ↔
        KeptF L s mi mj mk ml ip jp kp lp := by
      rw [hsur]
      exact ⟨fun ⟨a, b⟩ => ⟨hv, a, b⟩, fun ⟨_, a, b⟩ => ⟨a, b⟩⟩
    by_cases hkp' : KeptF L s mi mj mk ml ip jp kp lp
    · rw [if_pos (hiff.2 hkp'), if_pos hkp']
      have ekl : L.exp (-s.expKL kp lp) = Real.exp (-(s.sk.a kp * s.sl.a lp/(s.sk.a kp + s.sl.a lp)) *
          ∑ k, (centre s.sk k - centre s.sl k)^2) := by
        rw [hL]
        congr 1
        unfold CallF.expKL centre rr2
        rw [Fin.sum_univ_three]
        simp only [Fin.val_zero, Fin.val_one, Fin.val_two]
        ring
      have g1 := fun r => gto_mul_eq (hp.ij ip jp hip hjp).ne' (centre s.si) (centre s.sj) (powers s.si.l i) (powers s.sj.l j) r
      have g2 := fun r => gto_mul_eq (hp.kl kp lp hkp hlp).ne' (centre s.sk) (centre s.sl) (powers s.sk.l k) (powers s.sl.l l) r
      unfold primF12
      simp only [g1, g2]
      rw [repulsion_smul, pe, ekl, mul_assoc]
      congr 1
      unfold f12W
      rw [div_mul_cancel₀ _ hpi]
      have hP : (fun k : Fin 3 => (s.g2 f12Int L ip jp kp lp).rij k) = fun k =>
          (s.si.a ip * centre s.si k + s.sj.a jp * centre s.sj k)/(s.si.a ip + s.sj.a jp) := by
        funext k
        exact pc k k.isLt
      rw [hP]
      rfl
    · rw [if_neg (fun x => hkp' (hiff.1 x)), if_neg hkp', zero_mul]
  · rw [if_neg (fun x : KeptF L s mi mj mk ml ip jp kp lp => hv x.pair), pd hv]
    simp
theorem integrable_pg_VF {a b : ℝ} (ha : 0 < a) (hb : 0 < b) (P Q : Fin 3 → ℝ) (f g : Fin 3 → Polynomial ℝ) (stg : Bool) (ζ : ℝ) :
    Integrable fun z : (Fin 3 → ℝ) × (Fin 3 → ℝ) => pg a P f z.1 * VF stg ζ z.1 z.2 * pg b Q g z.2 := by
  unfold VF
  split
  · rename_i h0
    exact (eri_f12 ha hb h0 stg P Q f g).1
  · exact (eri_coulomb ha hb P Q f g).1

theorem integrable_gto_VF {a b c d : ℝ} (h1 : 0 < a + b) (h2 : 0 < c + d) (A B C D : Fin 3 → ℝ) (n m p q : Fin 3 → ℕ)
    (stg : Bool) (ζ : ℝ) : Integrable fun z : (Fin 3 → ℝ) × (Fin 3 → ℝ) =>
      (gto a A n z.1 * gto b B m z.1) * VF stg ζ z.1 z.2 * (gto c C p z.2 * gto d D q z.2) := by
  simp_rw [gto_mul_eq h1.ne', gto_mul_eq h2.ne']
  have := (integrable_pg_VF h1 h2 (fun k => (a * A k + b * B k) / (a + b)) (fun k => (c * C k + d * D k) / (c + d))
    (fun k => pq (A k) (B k) (n k) (m k)) (fun k => pq (C k) (D k) (p k) (q k)) stg ζ).const_mul
    (Real.exp (-(a * b / (a + b)) * ∑ k, (A k - B k)^2) * Real.exp (-(c * d / (c + d)) * ∑ k, (C k - D k)^2))
  refine this.congr (Filter.Eventually.of_forall fun z => ?_)
  ring

theorem repulsion_cfunF {s : CallF ℝ} (hp : PosExpF s) (stg : Bool) (ζ : ℝ) (ic jc kc lc i j k l : Nat) :
    (Integrable fun z : (Fin 3 → ℝ) × (Fin 3 → ℝ) => (cfun s.si ic i z.1 * cfun s.sj jc j z.1) * VF stg ζ z.1 z.2 *
      (cfun s.sk kc k z.2 * cfun s.sl lc l z.2)) ∧
    repulsion (VF stg ζ) (fun r => cfun s.si ic i r * cfun s.sj jc j r) (fun r => cfun s.sk kc k r * cfun s.sl lc l r) =
      contract4 s.si.nprim s.sj.nprim s.sk.nprim s.sl.nprim s.si.c s.sj.c s.sk.c s.sl.c (fun ip jp kp lp =>
        repulsion (VF stg ζ)
          (fun r => gto (s.si.a ip) (centre s.si) (powers s.si.l i) r * gto (s.sj.a jp) (centre s.sj) (powers s.sj.l j) r)
          (fun r => gto (s.sk.a kp) (centre s.sk) (powers s.sk.l k) r * gto (s.sl.a lp) (centre s.sl) (powers s.sl.l l) r))
        ic jc kc lc := by
  simp_rw [cfun_mul]
  obtain ⟨h1, h2⟩ := repulsion_sum (V := VF stg ζ) (Finset.range s.si.nprim ×ˢ Finset.range s.sj.nprim)
    (Finset.range s.sk.nprim ×ˢ Finset.range s.sl.nprim)
    (fun p => s.si.c (s.si.nprim*ic+p.1) * s.sj.c (s.sj.nprim*jc+p.2))
    (fun p => s.sk.c (s.sk.nprim*kc+p.1) * s.sl.c (s.sl.nprim*lc+p.2))
    (f := fun p r => gto (s.si.a p.1) (centre s.si) (powers s.si.l i) r * gto (s.sj.a p.2) (centre s.sj) (powers s.sj.l j) r)
    (g := fun p r => gto (s.sk.a p.1) (centre s.sk) (powers s.sk.l k) r * gto (s.sl.a p.2) (centre s.sl) (powers s.sl.l l) r)
    (fun a ha b hb => by
      rw [Finset.mem_product, Finset.mem_range, Finset.mem_range] at ha hb
      exact integrable_gto_VF (hp.ij _ _ ha.1 ha.2) (hp.kl _ _ hb.1 hb.2) _ _ _ _ _ _ _ _ _ _)
  refine ⟨h1, h2.trans ?_⟩
  unfold contract4
  rw [Finset.sum_comm, Finset.sum_product_right]
  refine Finset.sum_congr rfl fun lp _ => Finset.sum_congr rfl fun kp _ => ?_
  rw [Finset.sum_product_right]
  refine Finset.sum_congr rfl fun jp _ => Finset.sum_congr rfl fun ip _ => ?_
  ring

theorem repulsion_sgtoF {s : CallF ℝ} (hp : PosExpF s) (stg : Bool) (ζ : ℝ) (ic jc kc lc i j k l : Nat) :
    repulsion (VF stg ζ) (fun r => sgto s.si ic i r * sgto s.sj jc j r) (fun r => sgto s.sk kc k r * sgto s.sl lc l r) =
      ∑ a ∈ Finset.range (ncart s.si.l), ∑ b ∈ Finset.range (ncart s.sj.l),
        ∑ c ∈ Finset.range (ncart s.sk.l), ∑ d ∈ Finset.range (ncart s.sl.l),
        c2sCoef s.si.l i a * c2sCoef s.sj.l j b * c2sCoef s.sk.l k c * c2sCoef s.sl.l l d *
          (spNorm s.si.l * spNorm s.sj.l * spNorm s.sk.l * spNorm s.sl.l * repulsion (VF stg ζ)
            (fun r => cfun s.si ic a r * cfun s.sj jc b r) (fun r => cfun s.sk kc c r * cfun s.sl lc d r)) := by
  simp_rw [sgto_mul]
  refine (repulsion_sum (V := VF stg ζ) _ _ _ _ (fun a _ b _ => (repulsion_cfunF hp stg ζ ic jc kc lc a.1 a.2 b.1 b.2).1)).2.trans ?_
  rw [Finset.sum_product]
  refine Finset.sum_congr rfl fun a _ => Finset.sum_congr rfl fun b _ => ?_
  rw [Finset.sum_product]
  refine Finset.sum_congr rfl fun c _ => Finset.sum_congr rfl fun d _ => ?_
  ring

/-! ### Values -/

/-- Four shells are as tall as the library supports. -/
def LOKF (s : CallF ℝ) : Prop := ∀ t, t < 4 → CallF.ls s t ≤ 15

/-- no primitive quartet of the call is screened -/
def AllKeptF (L : MathLib ℝ) (s : CallF ℝ) : Prop :=
  ∃ mi mj mk ml, MaxCoeff s.si mi ∧ MaxCoeff s.sj mj ∧ MaxCoeff s.sk mk ∧ MaxCoeff s.sl ml ∧
    ∀ ip jp kp lp, ip < s.si.nprim → jp < s.sj.nprim → kp < s.sk.nprim → lp < s.sl.nprim → KeptF L s mi mj mk ml ip jp kp lp


/-- **C59** int2e_yp_sph, int2e_stg_sph: each element is the transform to spherical functions of the contractions of the
integrals of the primitive quartets that survive the screening, over the selected interaction. -/
theorem C59_f12 {L : MathLib ℝ} {s : CallF ℝ} {R : RysF ℝ} {mi mj mk ml : Nat → ℝ} (B : SphMemF f12Int s)
    (hL : L.exp = Real.exp) (hi : MaxCoeff s.si mi) (hj : MaxCoeff s.sj mj) (hk : MaxCoeff s.sk mk) (hl : MaxCoeff s.sl ml)
    (hp : PosExpF s) (hR : RootsOKF R s) (h15 : LOKF s) :
    ∃ has h', SphEndsF B R realK L has h' ∧
      ∀ ic jc kc lc i j k l, ic < s.si.nctr → jc < s.sj.nctr → kc < s.sk.nctr → lc < s.sl.nctr →
        i < s.si.l*2+1 → j < s.sj.l*2+1 → k < s.sk.l*2+1 → l < s.sl.l*2+1 →
        B.elem h' 0 ic i jc j kc k lc l = .val (∑ a ∈ Finset.range (ncart s.si.l), ∑ b ∈ Finset.range (ncart s.sj.l),
          ∑ c ∈ Finset.range (ncart s.sk.l), ∑ d ∈ Finset.range (ncart s.sl.l),
          c2sCoef s.si.l i a * c2sCoef s.sj.l j b * c2sCoef s.sk.l k c * c2sCoef s.sl.l l d *
          (spNorm s.si.l * spNorm s.sj.l * spNorm s.sk.l * spNorm s.sl.l *
          contract4 s.si.nprim s.sj.nprim s.sk.nprim s.sl.nprim s.si.c s.sj.c s.sk.c s.sl.c (fun ip jp kp lp =>
            open Classical in if KeptF L s mi mj mk ml ip jp kp lp then
              repulsion (f12Interaction s.stg s.zeta)
                (fun r => gto (s.si.a ip) (centre s.si) (powers s.si.l a) r * gto (s.sj.a jp) (centre s.sj) (powers s.sj.l b) r)
                (fun r => gto (s.sk.a kp) (centre s.sk) (powers s.sk.l c) r * gto (s.sl.a lp) (centre s.sl) (powers s.sl.l d) r)
            else 0) ic jc kc lc)) := by
  obtain ⟨has, h', hr, hv, _⟩ := drvF_sph B.M B.hsize B.hs B.O B.hT B.htb B.hto (f12_eval (L := L) hp hR) (le_refl 1) h15
  refine ⟨has, h', hr, fun ic jc kc lc i j k l a2 a3 a4 a5 a6 a7 a8 a9 => ?_⟩
  refine (hv 0 ic jc kc lc i j k l Nat.zero_lt_one a2 a3 a4 a5 a6 a7 a8 a9).trans (congrArg Cell.val ?_)
  unfold sphValF
  refine Finset.sum_congr rfl fun a b1 => Finset.sum_congr rfl fun b b2 => Finset.sum_congr rfl fun c b3 =>
    Finset.sum_congr rfl fun d b4 => ?_
  rw [Finset.mem_range] at b1 b2 b3 b4
  exact congrArg (c2sCoef s.si.l i a * c2sCoef s.sj.l j b * c2sCoef s.sk.l k c * c2sCoef s.sl.l l d * ·)
    (f12_loopVal hL hi hj hk hl hp b1 b2 b3 b4)

/-- nothing screened -/
theorem f12_exact {L : MathLib ℝ} {s : CallF ℝ} {R : RysF ℝ} (B : SphMemF f12Int s) (hL : L.exp = Real.exp)
    (hkept : AllKeptF L s) (hp : PosExpF s) (hR : RootsOKF R s) (h15 : LOKF s) :
    ∃ has h', SphEndsF B R realK L has h' ∧
      ∀ ic jc kc lc i j k l, ic < s.si.nctr → jc < s.sj.nctr → kc < s.sk.nctr → lc < s.sl.nctr →
        i < s.si.l*2+1 → j < s.sj.l*2+1 → k < s.sk.l*2+1 → l < s.sl.l*2+1 →
        B.elem h' 0 ic i jc j kc k lc l = .val (repulsion (f12Interaction s.stg s.zeta)
          (fun r => sgto s.si ic i r * sgto s.sj jc j r) (fun r => sgto s.sk kc k r * sgto s.sl lc l r)) := by
  obtain ⟨mi, mj, mk, ml, hi, hj, hk, hl, hkp⟩ := hkept
  obtain ⟨has, h', hr, hv⟩ := C59_f12 (L := L) B hL hi hj hk hl hp hR h15
  refine ⟨has, h', hr, fun ic jc kc lc i j k l a2 a3 a4 a5 a6 a7 a8 a9 => ?_⟩
  rw [hv ic jc kc lc i j k l a2 a3 a4 a5 a6 a7 a8 a9]
  refine congrArg Cell.val ((?_ : _ = _).trans (repulsion_sgtoF hp s.stg s.zeta ic jc kc lc i j k l).symm)
  refine Finset.sum_congr rfl fun a _ => Finset.sum_congr rfl fun b _ => Finset.sum_congr rfl fun c _ =>
    Finset.sum_congr rfl fun d _ => ?_
  rw [(repulsion_cfunF hp _ _ _ _ _ _ _ _ _ _).2]
  congr 2
  unfold contract4
  refine Finset.sum_congr rfl fun lp b1 => Finset.sum_congr rfl fun kp b2 => Finset.sum_congr rfl fun jp b3 =>
    Finset.sum_congr rfl fun ip b4 => ?_
  rw [Finset.mem_range] at b1 b2 b3 b4
  dsimp only
  rw [if_pos (hkp ip jp kp lp b4 b3 b2 b1)]
  rfl

section
variable {L : MathLib ℝ} {s : CallF ℝ} {R : RysF ℝ}

/-- **C59** int2e_yp_sph with a positive `env[PTR_F12_ZETA]`, nothing screened: exactly the integral over the Yukawa interaction
of the spherical functions. -/
theorem C59_yukawa (B : SphMemF f12Int s) (hL : L.exp = Real.exp) (hkept : AllKeptF L s) (hp : PosExpF s) (hR : RootsOKF R s)
    (h15 : LOKF s) (hs : s.stg = false) (hz : 0 < s.zeta) :
    ∃ has h', SphEndsF B R realK L has h' ∧
      ∀ ic jc kc lc i j k l, ic < s.si.nctr → jc < s.sj.nctr → kc < s.sk.nctr → lc < s.sl.nctr →
        i < s.si.l*2+1 → j < s.sj.l*2+1 → k < s.sk.l*2+1 → l < s.sl.l*2+1 →
        B.elem h' 0 ic i jc j kc k lc l = .val (repulsion (yukawa s.zeta)
          (fun r => sgto s.si ic i r * sgto s.sj jc j r) (fun r => sgto s.sk kc k r * sgto s.sl lc l r)) := by
  have := f12_exact B hL hkept hp hR h15
  unfold f12Interaction at this
  rwa [if_pos hz, hs, if_neg (by decide)] at this

/-- **C59** int2e_stg_sph with a positive `env[PTR_F12_ZETA]`, nothing screened: exactly the integral over the Slater-type
geminal of the spherical functions. -/
theorem C59_slater (B : SphMemF f12Int s) (hL : L.exp = Real.exp) (hkept : AllKeptF L s) (hp : PosExpF s) (hR : RootsOKF R s)
    (h15 : LOKF s) (hs : s.stg = true) (hz : 0 < s.zeta) :
    ∃ has h', SphEndsF B R realK L has h' ∧
      ∀ ic jc kc lc i j k l, ic < s.si.nctr → jc < s.sj.nctr → kc < s.sk.nctr → lc < s.sl.nctr →
        i < s.si.l*2+1 → j < s.sj.l*2+1 → k < s.sk.l*2+1 → l < s.sl.l*2+1 →
        B.elem h' 0 ic i jc j kc k lc l = .val (repulsion (slater s.zeta)
          (fun r => sgto s.si ic i r * sgto s.sj jc j r) (fun r => sgto s.sk kc k r * sgto s.sl lc l r)) := by
  have := f12_exact B hL hkept hp hR h15
  unfold f12Interaction at this
  rwa [if_pos hz, hs, if_pos rfl] at this

/-- **C59** with `env[PTR_F12_ZETA]` zero or negative both functions return the Coulomb repulsion integrals.  (For the Slater-type
geminal that is not the limit ζ → 0, in which the interaction becomes 1.) -/
theorem C59_no_exponent (B : SphMemF f12Int s) (hL : L.exp = Real.exp) (hkept : AllKeptF L s) (hp : PosExpF s) (hR : RootsOKF R s)
    (h15 : LOKF s) (hz : s.zeta ≤ 0) :
    ∃ has h', SphEndsF B R realK L has h' ∧
      ∀ ic jc kc lc i j k l, ic < s.si.nctr → jc < s.sj.nctr → kc < s.sk.nctr → lc < s.sl.nctr →
        i < s.si.l*2+1 → j < s.sj.l*2+1 → k < s.sk.l*2+1 → l < s.sl.l*2+1 →
        B.elem h' 0 ic i jc j kc k lc l = .val (repulsion coulomb
          (fun r => sgto s.si ic i r * sgto s.sj jc j r) (fun r => sgto s.sk kc k r * sgto s.sl lc l r)) := by
  have := f12_exact B hL hkept hp hR h15
  unfold f12Interaction at this
  rwa [if_neg (not_lt.2 hz)] at this

/-- **C59** whatever is screened and whatever memory contains: the call completes without undefined behaviour in a cache of the
queried size, overwrites every element of the block, leaves every other double outside the cache unchanged, and the block is
zero when 0 is returned. -/
theorem C59_runs (B : SphMemF f12Int s) (hp : PosExpF s) (hR : RootsOKF R s) (h15 : LOKF s) :
    ∃ has h', SphEndsF B R realK L has h' ∧
      (∀ m, InBlock B.nd (fun t => nsph (CallF.ls s) t * CallF.nctrs s t) 1 m → ∃ v, h'.D (B.out + m) = .val v ∧
        (has = false → v = 0)) ∧
      (∀ q, q.buf ≠ B.buf → (∀ m, InBlock B.nd (fun t => nsph (CallF.ls s) t * CallF.nctrs s t) 1 m → q ≠ B.out + m) →
        h'.D q = B.h.D q) := by
  obtain ⟨has, h', hr, hv, hz, hf, _⟩ := drvF_sph B.M B.hsize B.hs B.O B.hT B.htb B.hto (f12_eval (L := L) hp hR) (le_refl 1) h15
  refine ⟨has, h', hr, fun m hm => ?_, hf.1⟩
  obtain ⟨n, ic, jc, kc, lc, i, j, k, x, a1, a2, a3, a4, a5, a6, a7, a8, a9, rfl⟩ := inBlock_digits B.hs.nf_pos hm
  have b1 := hv n ic jc kc lc i j k x a1 a2 a3 a4 a5 a6 a7 a8 a9
  refine ⟨_, b1, fun h0 => ?_⟩
  exact Cell.val.inj (b1.symm.trans (hz h0 _ hm))
end

/-! ### The hypotheses can be met -/
namespace F12Demo
open OvlpDemo SphDemo

theorem exists_rysF : ∃ R : RysF ℝ, ∀ n, RysFOK R n := by
  obtain ⟨R, hR⟩ := EriDemo.exists_rys2
  have h2 : ∀ (n : ℕ) (x U : ℝ), ∃ u w : ℕ → ℝ, 0 < U → StgExact n x U u w := by
    intro n x U
    by_cases h : 0 < U
    · obtain ⟨u, w, huw⟩ := exists_stg n x h
      exact ⟨u, w, fun _ => huw⟩
    · exact ⟨fun _ => 0, fun _ => 0, fun a => absurd a h⟩
  choose su sw hs using h2
  exact ⟨{ R with su := su, sw := sw }, fun n => ⟨fun x hx => (hR n).full n (le_refl _) x hx, fun x U _ hU => hs n x U hU⟩⟩

/-- p, d, s and p shells with two primitives and two contractions each -/
noncomputable def callF (stg : Bool) (zeta : ℝ) (order : Nat) : CallF ℝ where
  si := { nprim := 2, nctr := 2, l := 1, a := fun _ => 1, c := fun _ => 1, r := fun _ => 0 }
  sj := { nprim := 2, nctr := 2, l := 2, a := fun _ => 1, c := fun _ => 1, r := fun _ => 0 }
  sk := { nprim := 2, nctr := 2, l := 0, a := fun _ => 1, c := fun _ => 1, r := fun _ => 0 }
  sl := { nprim := 2, nctr := 2, l := 1, a := fun _ => 1, c := fun _ => 1, r := fun _ => 0 }
  envCut := 0
  omega := 0
  zeta := zeta
  stg := stg
  order := order

variable (stg : Bool) (zeta : ℝ) (order : Nat)

theorem estIJ_nonpos (ip jp : Nat) : estIJF lib (callF stg zeta order) (fun _ => 1) (fun _ => 1) ip jp ≤ 0 := by
  have hb := EriDemo.base_nonpos
  unfold estIJF est pairEstimate logBound prodExponent rr2 lib callF
  simp only [sub_zero, mul_zero, add_zero, Real.sqrt_zero, Real.log_one]
  split_ifs <;> push_cast <;> (try simp only [zero_add, Real.log_one, mul_zero] at *) <;> nlinarith

theorem estKL_nonpos (kp lp : Nat) : estKLF lib (callF stg zeta order) (fun _ => 1) (fun _ => 1) kp lp ≤ 0 := by
  have hb := EriDemo.base_nonpos
  unfold estKLF CallF.logRRkl prodExponent rr2 lib callF
  simp only [sub_zero, mul_zero, add_zero, Real.sqrt_zero, Real.log_one]
  split_ifs <;> push_cast <;> (try simp only [zero_add, Real.log_one, mul_zero] at *) <;> nlinarith

theorem cutoff_eq : (callF stg zeta order).cutoff f12Int lib = 60 := by
  unfold CallF.cutoff
  dsimp only
  rw [if_neg (fun h => lt_irrefl (0:ℝ) h.1)]
  exact if_pos rfl

theorem allKept : AllKeptF lib (callF stg zeta order) := by
  refine ⟨fun _ => 1, fun _ => 1, fun _ => 1, fun _ => 1, EriDemo.one_max 1, EriDemo.one_max 2, EriDemo.one_max 0, EriDemo.one_max 1,
    fun ip jp kp lp _ _ _ _ => ?_⟩
  have h1 := estIJ_nonpos stg zeta order ip jp
  have h2 := estKL_nonpos stg zeta order kp lp
  have h3 := cutoff_eq stg zeta order
  have hc : cutoffF (callF stg zeta order).envCut = 60 := if_pos rfl
  exact ⟨by rw [hc]; linarith, by rw [h3]; linarith, by rw [h3]; linarith⟩

theorem posExp : PosExpF (callF stg zeta order) :=
  ⟨fun _ _ _ _ => by show (0:ℝ) < 1 + 1; norm_num, fun _ _ _ _ => by show (0:ℝ) < 1 + 1; norm_num⟩

theorem lok : LOKF (callF stg zeta order) := by
  show ∀ t, t < 4 → four 1 2 0 1 t ≤ 15
  decide

theorem ctr_pos : ∀ t, t < 4 → 0 < CallF.nctrs (callF stg zeta order) t := by
  show ∀ t, t < 4 → 0 < four 2 2 2 2 t
  decide

/-- memory for a call -/
noncomputable def sphMemF (s : CallF ℝ) (h : ∀ t, t < 4 → 0 < CallF.nctrs s t) : SphMemF f12Int s where
  fpd := 1
  buf := 0
  size := cacheSizeF f12Int s
  empty := ⟨4, 0⟩
  fl := ⟨1, 0⟩
  loc := ⟨2, 0⟩
  counts := ⟨3, 0⟩
  out := ⟨5, 7⟩
  dims := none
  nd := fun t => nsph (CallF.ls s) t * CallF.nctrs s t
  h := memR
  hs := ⟨Or.inr (Or.inr rfl), fun t _ => Nat.succ_pos _, fun t ht => h t ht, fun t a b => absurd a (by omega), fun t _ => le_refl _⟩
  M := ⟨by omega, fun k _ => by simp [memR], fun k _ => by simp [memR], by simp [memR], fun k _ => by simp [memR],
    fun k _ => by simp [memR], fun k _ => by simp [memR], by decide, by decide, by decide, by decide, by decide⟩
  hsize := le_refl _
  O := { h_dims := fun t _ => rfl
         h_dbuf := fun d hd => nomatch hd
         h_out := fun m _ => by simp [memR]
         h_obuf := by decide }
  tab := ⟨9, 0⟩
  hT := tabR
  htb := by decide
  hto := by decide

/-- a geminal integral of p_y (second contraction), d, s and p_z -/
example : ∃ R has h', SphEndsF (sphMemF (callF true 1 17) (ctr_pos _ _ _)) R realK lib has h' ∧
    (sphMemF (callF true 1 17) (ctr_pos _ _ _)).elem h' 0 1 1 0 4 1 0 0 2 = .val (repulsion (slater 1)
      (fun r => sgto (callF true 1 17).si 1 1 r * sgto (callF true 1 17).sj 0 4 r)
        (fun r => sgto (callF true 1 17).sk 1 0 r * sgto (callF true 1 17).sl 0 2 r)) := by
  obtain ⟨R, hR⟩ := exists_rysF
  obtain ⟨has, h', h1, h2⟩ := C59_slater (L := lib) (R := R) (sphMemF (callF true 1 17) (ctr_pos _ _ _)) rfl (allKept _ _ _)
    (posExp _ _ _) (hR _) (lok _ _ _) rfl (by show (0:ℝ) < 1; norm_num)
  exact ⟨R, has, h', h1, h2 1 0 1 0 1 4 0 2 (by show 1 < 2; omega) (by show 0 < 2; omega) (by show 1 < 2; omega)
    (by show 0 < 2; omega) (by show 1 < 1*2+1; omega) (by show 4 < 2*2+1; omega) (by show 0 < 0*2+1; omega)
    (by show 2 < 1*2+1; omega)⟩

/-- the same element for the Yukawa interaction -/
example : ∃ R has h', SphEndsF (sphMemF (callF false 1 17) (ctr_pos _ _ _)) R realK lib has h' ∧
    (sphMemF (callF false 1 17) (ctr_pos _ _ _)).elem h' 0 1 1 0 4 1 0 0 2 = .val (repulsion (yukawa 1)
      (fun r => sgto (callF false 1 17).si 1 1 r * sgto (callF false 1 17).sj 0 4 r)
        (fun r => sgto (callF false 1 17).sk 1 0 r * sgto (callF false 1 17).sl 0 2 r)) := by
  obtain ⟨R, hR⟩ := exists_rysF
  obtain ⟨has, h', h1, h2⟩ := C59_yukawa (L := lib) (R := R) (sphMemF (callF false 1 17) (ctr_pos _ _ _)) rfl (allKept _ _ _)
    (posExp _ _ _) (hR _) (lok _ _ _) rfl (by show (0:ℝ) < 1; norm_num)
  exact ⟨R, has, h', h1, h2 1 0 1 0 1 4 0 2 (by show 1 < 2; omega) (by show 0 < 2; omega) (by show 1 < 2; omega)
    (by show 0 < 2; omega) (by show 1 < 1*2+1; omega) (by show 4 < 2*2+1; omega) (by show 0 < 0*2+1; omega)
    (by show 2 < 1*2+1; omega)⟩
end F12Demo

end Verif.Props
