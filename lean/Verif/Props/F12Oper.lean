import Verif.Model.F12Oper
import Verif.Spec.F12Oper
import Verif.Lemmas.F12Oper

/-! C60: derivatives of the integrals over the Yukawa interaction and the Slater-type geminal. -/
namespace Verif.Props
open Verif Verif.Model Verif.Prog Verif.Lemmas Verif.Spec MeasureTheory Polynomial

/-! ### The catalogue -/

/-- the operators as a sum with one term -/
def Derivs4.op (d : Derivs4) : Op2 := [(⟨1, 0, [], d.i.map (El.d, ·), d.j.map (El.d, ·)⟩, ⟨1, 0, [], d.k.map (El.d, ·), d.l.map (El.d, ·)⟩)]

theorem act_partials (O A : Pt) (ks : List (Fin 3)) (f : Pt → ℝ) : Word.act O A (ks.map (El.d, ·)) f = partials ks f := by
  unfold Word.act partials
  induction ks with
  | nil => rfl
  | cons k ks ih =>
    simp only [List.map_cons, List.foldr_cons, ih]
    rfl

theorem derivs_val (V : Pt → Pt → ℝ) (O A B C D : Pt) (f g h k : Pt → ℝ) (d : Derivs4) :
    Op2.val V O A B C D f g h k (Derivs4.op d) =
      ((repulsion V (fun r => partials d.i f r * partials d.j g r) (fun r => partials d.k h r * partials d.l k r) : ℝ) : ℂ) := by
  unfold Op2.val Op2.valT Derivs4.op Term.coef
  simp only [List.map_cons, List.map_nil, List.sum_cons, List.sum_nil, List.prod_nil, act_partials]
  push_cast
  simp

/-- the functions compute the operators they should -/
theorem f12_matches {name : String} {G : Gen2e} {n : Nat} {d : Nat → Derivs4} (hG : (name, G) ∈ f12Derivs) (hd : (name, n, d) ∈ f12Ops) :
    ∃ D : Def2e, matches2e G D = true ∧ D.num = 1 ∧ D.den = 1 ∧ D.out = (List.range n).map fun m => Derivs4.op (d m) := by
  unfold f12Derivs at hG
  unfold f12Ops at hd
  simp only [List.mem_cons, Prod.mk.injEq, List.not_mem_nil, or_false] at hG hd
  rcases hG with ⟨rfl, rfl⟩ | ⟨rfl, rfl⟩ | ⟨rfl, rfl⟩ | ⟨rfl, rfl⟩ <;>
  rcases hd with ⟨h0, rfl, rfl⟩ | ⟨h0, rfl, rfl⟩ | ⟨h0, rfl, rfl⟩ | ⟨h0, rfl, rfl⟩ <;>
  first
  | exact absurd h0 (by decide)
  | exact ⟨EriDefs.ip1, matches2_of (name := "int2e_ip1") (G := Auto2e.int2e_ip1) (by unfold Auto2e.all2e; simp) (by unfold defs2e; simp),
      rfl, rfl, by decide +kernel⟩
  | exact ⟨EriDefs.ipip1, matches2_of (name := "int2e_ipip1") (G := Auto2e.int2e_ipip1) (by unfold Auto2e.all2e; simp)
      (by unfold defs2e; simp), rfl, rfl, by decide +kernel⟩
  | exact ⟨EriDefs.ipvip1, matches2_of (name := "int2e_ipvip1") (G := Auto2e.int2e_ipvip1) (by unfold Auto2e.all2e; simp)
      (by unfold defs2e; simp), rfl, rfl, by decide +kernel⟩
  | exact ⟨EriDefs.ip1ip2, matches2_of (name := "int2e_ip1ip2") (G := Auto2e.int2e_ip1ip2) (by unfold Auto2e.all2e; simp)
      (by unfold defs2e; simp), rfl, rfl, by decide +kernel⟩

/-! ### Values -/

section
variable {name : String} {G : Gen2e} {n : Nat} {D : Nat → Derivs4} {L : MathLib ℝ} {s : CallF ℝ} {R : RysF ℝ} {O : Nat → ℝ}

/-- **C60** int2e_yp_X_sph, int2e_stg_X_sph: each element is the transform to spherical functions of the contractions of the
integrals of the primitive quartets that survive the screening, the functions differentiated as X says, over the selected interaction. -/
theorem C60_derivatives (hG : (name, G) ∈ f12Derivs) (hD : (name, n, D) ∈ f12Ops) {mi mj mk ml : Nat → ℝ} (B : SphMemF (G.int O) s)
    (hL : L.exp = Real.exp) (hi : MaxCoeff s.si mi) (hj : MaxCoeff s.sj mj) (hk : MaxCoeff s.sk mk) (hl : MaxCoeff s.sl ml)
    (hp : PosExpF s) (hR : RysFOK R (s.env (G.int O)).nrys_roots) (h15 : LOKF s) :
    ∃ has h', SphEndsF B R realK L has h' ∧
      ∀ comp ic jc kc lc i j k l, comp < n → ic < s.si.nctr → jc < s.sj.nctr → kc < s.sk.nctr → lc < s.sl.nctr →
        i < s.si.l*2+1 → j < s.sj.l*2+1 → k < s.sk.l*2+1 → l < s.sl.l*2+1 →
        B.elem h' comp ic i jc j kc k lc l = .val (∑ a ∈ Finset.range (ncart s.si.l), ∑ b ∈ Finset.range (ncart s.sj.l),
          ∑ c ∈ Finset.range (ncart s.sk.l), ∑ d ∈ Finset.range (ncart s.sl.l),
          c2sCoef s.si.l i a * c2sCoef s.sj.l j b * c2sCoef s.sk.l k c * c2sCoef s.sl.l l d *
          (spNorm s.si.l * spNorm s.sj.l * spNorm s.sk.l * spNorm s.sl.l *
          contract4 s.si.nprim s.sj.nprim s.sk.nprim s.sl.nprim s.si.c s.sj.c s.sk.c s.sl.c (fun ip jp kp lp =>
            open Classical in if KeptXF L (G.int O) s mi mj mk ml ip jp kp lp then
              repulsion (f12Interaction s.stg s.zeta)
                (fun r => partials (D comp).i (gto (s.si.a ip) (centre s.si) (powers s.si.l a)) r *
                  partials (D comp).j (gto (s.sj.a jp) (centre s.sj) (powers s.sj.l b)) r)
                (fun r => partials (D comp).k (gto (s.sk.a kp) (centre s.sk) (powers s.sk.l c)) r *
                  partials (D comp).l (gto (s.sl.a lp) (centre s.sl) (powers s.sl.l d)) r)
            else 0) ic jc kc lc)) := by
  obtain ⟨D2, hm, hn1, hd1, hout⟩ := f12_matches hG hD
  obtain ⟨ws, hOK, hnum, hden, hnc, hcomp⟩ := matches2_unfold hm
  obtain ⟨has, h', hr, hv, _⟩ := drvF_sph B.M B.hsize B.hs B.O B.hT B.htb B.hto (gen2_evalF hOK (L := L) (O := O) hp hR)
    (Nat.pos_of_ne_zero hOK.pos) h15
  refine ⟨has, h', hr, fun comp ic jc kc lc i j k l a1 a2 a3 a4 a5 a6 a7 a8 a9 => ?_⟩
  have hlen : D2.out.length = n := by rw [hout, List.length_map, List.length_range]
  have hc' : comp < G.nComp := by omega
  have hget : D2.out.getD comp [] = Derivs4.op (D comp) := by
    rw [hout, List.getD_eq_getElem?_getD, List.getElem?_map, List.getElem?_range a1]; rfl
  refine (hv comp ic jc kc lc i j k l hc' a2 a3 a4 a5 a6 a7 a8 a9).trans (congrArg Cell.val ?_)
  unfold sphValF
  refine Finset.sum_congr rfl fun a b1 => Finset.sum_congr rfl fun b b2 => Finset.sum_congr rfl fun c b3 =>
    Finset.sum_congr rfl fun d b4 => ?_
  rw [Finset.mem_range] at b1 b2 b3 b4
  refine congrArg (c2sCoef s.si.l i a * c2sCoef s.sj.l j b * c2sCoef s.sk.l k c * c2sCoef s.sl.l l d * ·) ?_
  have hcom : ((G.int O).common : ℝ) = 1 := by
    show ((G.num : ℝ) / (G.den : ℝ)) = 1
    rw [hnum, hden, hn1, hd1]; norm_num
  have hval : ∀ ip jp kp lp, primValF s O (D2.out.getD comp []) a b c d ip jp kp lp = ((repulsion (f12Interaction s.stg s.zeta)
                (fun r => partials (D comp).i (gto (s.si.a ip) (centre s.si) (powers s.si.l a)) r *
                  partials (D comp).j (gto (s.sj.a jp) (centre s.sj) (powers s.sj.l b)) r)
                (fun r => partials (D comp).k (gto (s.sk.a kp) (centre s.sk) (powers s.sk.l c)) r *
                  partials (D comp).l (gto (s.sl.a lp) (centre s.sl) (powers s.sl.l d)) r) : ℝ) : ℂ) := by
    intro ip jp kp lp
    unfold primValF
    rw [hget, derivs_val]
    rfl
  refine (loopValF_gen (X := G.int O) (Z := fun ip jp kp lp => (primValF s O (D2.out.getD comp []) a b c d ip jp kp lp).re)
    hL hi hj hk hl hp (by
    intro ip jp kp lp b1' b2' b3' b4' _ pc
    rw [gen_primF (G := G) (ws := ws) (L := L) hp b1' b2' b3' b4' (hcomp comp hc').1 (hcomp comp hc').2 hc' b1 b3 b4 pc, Complex.ofReal_re]
    rfl)).trans ?_
  rw [hcom, one_mul]
  simp only [hval, Complex.ofReal_re]

/-- **C60** nothing screened: exactly the integral over the selected interaction of the spherical functions with the derivatives. -/
theorem C60_exact (hG : (name, G) ∈ f12Derivs) (hD : (name, n, D) ∈ f12Ops) (B : SphMemF (G.int O) s) (hL : L.exp = Real.exp)
    (hkept : AllKeptXF L (G.int O) s) (hp : PosExpF s) (hR : RysFOK R (s.env (G.int O)).nrys_roots) (h15 : LOKF s) :
    ∃ has h', SphEndsF B R realK L has h' ∧
      ∀ comp ic jc kc lc i j k l, comp < n → ic < s.si.nctr → jc < s.sj.nctr → kc < s.sk.nctr → lc < s.sl.nctr →
        i < s.si.l*2+1 → j < s.sj.l*2+1 → k < s.sk.l*2+1 → l < s.sl.l*2+1 →
        B.elem h' comp ic i jc j kc k lc l = .val (repulsion (f12Interaction s.stg s.zeta)
          (fun r => partials (D comp).i (sgto s.si ic i) r * partials (D comp).j (sgto s.sj jc j) r)
          (fun r => partials (D comp).k (sgto s.sk kc k) r * partials (D comp).l (sgto s.sl lc l) r)) := by
  obtain ⟨mi, mj, mk, ml, hi, hj, hk, hl, hkp⟩ := hkept
  obtain ⟨has, h', hr, hv⟩ := C60_derivatives (L := L) hG hD B hL hi hj hk hl hp hR h15
  refine ⟨has, h', hr, fun comp ic jc kc lc i j k l a1 a2 a3 a4 a5 a6 a7 a8 a9 => ?_⟩
  rw [hv comp ic jc kc lc i j k l a1 a2 a3 a4 a5 a6 a7 a8 a9]
  refine congrArg Cell.val (Complex.ofReal_injective ?_)
  have e1 := derivs_val (f12Interaction s.stg s.zeta) (fun c => O c) (centre s.si) (centre s.sj) (centre s.sk) (centre s.sl)
    (sgto s.si ic i) (sgto s.sj jc j) (sgto s.sk kc k) (sgto s.sl lc l) (D comp)
  rw [← e1]
  refine Eq.trans ?_ (op_valF_sgto hp (fun c => O c) ic jc kc lc i j k l s.stg s.zeta (Derivs4.op (D comp))).symm
  push_cast
  refine Finset.sum_congr rfl fun a _ => Finset.sum_congr rfl fun b _ => Finset.sum_congr rfl fun c _ =>
    Finset.sum_congr rfl fun d _ => ?_
  refine congrArg₂ (· * ·) rfl (congrArg₂ (· * ·) rfl ?_)
  unfold cfun
  rw [op_valF_cgto _ _ _ hp.ij hp.kl, contract4_ofReal]
  unfold contract4C
  refine Finset.sum_congr rfl fun lp b1 => Finset.sum_congr rfl fun kp b2 => Finset.sum_congr rfl fun jp b3 =>
    Finset.sum_congr rfl fun ip b4 => ?_
  rw [Finset.mem_range] at b1 b2 b3 b4
  dsimp only
  rw [if_pos (hkp ip jp kp lp b4 b3 b2 b1), derivs_val]
  rfl

/-- **C60** whatever is screened and whatever memory contains: the call completes without undefined behaviour in a cache of the
queried size, overwrites every element of the block, leaves every other double outside the cache unchanged, and the block is
zero when 0 is returned. -/
theorem C60_runs (hG : (name, G) ∈ f12Derivs) (B : SphMemF (G.int O) s) (hp : PosExpF s)
    (hR : RysFOK R (s.env (G.int O)).nrys_roots) (h15 : LOKF s) :
    ∃ has h', SphEndsF B R realK L has h' ∧
      (∀ m, InBlock B.nd (fun t => nsph (CallF.ls s) t * CallF.nctrs s t) G.nComp m → ∃ v, h'.D (B.out + m) = .val v ∧
        (has = false → v = 0)) ∧
      (∀ q, q.buf ≠ B.buf → (∀ m, InBlock B.nd (fun t => nsph (CallF.ls s) t * CallF.nctrs s t) G.nComp m → q ≠ B.out + m) →
        h'.D q = B.h.D q) := by
  have hD : ∃ n D, (name, n, D) ∈ f12Ops := by
    unfold f12Derivs at hG
    unfold f12Ops
    simp only [List.mem_cons, Prod.mk.injEq, List.not_mem_nil, or_false] at hG ⊢
    rcases hG with ⟨rfl, rfl⟩ | ⟨rfl, rfl⟩ | ⟨rfl, rfl⟩ | ⟨rfl, rfl⟩ <;> simp
  obtain ⟨n, D, hD⟩ := hD
  obtain ⟨D2, hm, _⟩ := f12_matches hG hD
  obtain ⟨ws, hOK, _⟩ := matches2_unfold hm
  obtain ⟨has, h', hr, hv, hz, hf, _⟩ := drvF_sph B.M B.hsize B.hs B.O B.hT B.htb B.hto (gen2_evalF hOK (L := L) (O := O) hp hR)
    (Nat.pos_of_ne_zero hOK.pos) h15
  refine ⟨has, h', hr, fun m hm => ?_, hf.1⟩
  obtain ⟨n, ic, jc, kc, lc, i, j, k, x, a1, a2, a3, a4, a5, a6, a7, a8, a9, rfl⟩ := inBlock_digits B.hs.nf_pos hm
  have b1 := hv n ic jc kc lc i j k x a1 a2 a3 a4 a5 a6 a7 a8 a9
  refine ⟨_, b1, fun h0 => ?_⟩
  exact Cell.val.inj (b1.symm.trans (hz h0 _ hm))
end

/-! ### The hypotheses can be met -/
namespace F12Demo
open OvlpDemo SphDemo

theorem allKeptX (G : Gen2e) (O : Nat → ℝ) (stg : Bool) (zeta : ℝ) (order : Nat) : AllKeptXF lib (G.int O) (callF stg zeta order) := by
  refine ⟨fun _ => 1, fun _ => 1, fun _ => 1, fun _ => 1, EriDemo.one_max 1, EriDemo.one_max 2, EriDemo.one_max 0, EriDemo.one_max 1,
    fun ip jp kp lp _ _ _ _ => ?_⟩
  have hb := EriDemo.base_nonpos
  have h1 : estIJXF lib (callF stg zeta order) G.ng (fun _ => 1) (fun _ => 1) ip jp ≤ 0 := by
    unfold estIJXF est pairEstimate logBound prodExponent rr2 lib callF
    simp only [sub_zero, mul_zero, add_zero, Real.sqrt_zero, Real.log_one]
    split_ifs <;> (try simp only [zero_add, Real.log_one, mul_zero] at *) <;> linarith
  have h2 : estKLXF lib (callF stg zeta order) (G.int O) (fun _ => 1) (fun _ => 1) kp lp ≤ 0 := by
    unfold estKLXF CallF.logRRkl prodExponent rr2 lib callF
    simp only [sub_zero, mul_zero, add_zero, Real.sqrt_zero, Real.log_one]
    split_ifs <;> (try simp only [zero_add, Real.log_one, mul_zero] at *) <;> linarith
  have h3 : (callF stg zeta order).cutoff (G.int O) lib = 60 := by
    unfold CallF.cutoff
    dsimp only
    rw [if_neg (fun h => lt_irrefl (0:ℝ) h.1)]
    exact if_pos rfl
  have hc : cutoffF (callF stg zeta order).envCut = 60 := if_pos rfl
  have hx : (G.int O : Int2e ℝ).ng = G.ng := rfl
  exact ⟨by rw [hc, hx]; linarith, by rw [h3]; linarith, by rw [h3, hx]; linarith⟩

/-- memory for a call -/
noncomputable def sphMemX (X : Int2e ℝ) (s : CallF ℝ) (h : ∀ t, t < 4 → 0 < CallF.nctrs s t) : SphMemF X s where
  fpd := 1
  buf := 0
  size := cacheSizeF X s
  empty := ⟨4, 0⟩
  fl := ⟨1, 0⟩
  loc := ⟨2, 0⟩
  counts := ⟨3, 0⟩
  out := ⟨5, 7⟩
  dims := none
  nd := fun t => nsph (CallF.ls s) t * CallF.nctrs s t
  h := memR
  hs := ⟨Or.inr (Or.inr rfl), fun t _ => Nat.succ_pos _, fun t ht => h t ht, fun t a b => absurd a (by omega), fun t _ => le_refl _⟩
  M := ⟨by omega, fun k _ => by simp [memR], fun k _ => by simp [memR], by simp [memR], fun k _ => by simp [memR],
    fun k _ => by simp [memR], fun k _ => by simp [memR], by decide, by decide, by decide, by decide, by decide⟩
  hsize := le_refl _
  O := { h_dims := fun t _ => rfl
         h_dbuf := fun d hd => nomatch hd
         h_out := fun m _ => by simp [memR]
         h_obuf := by decide }
  tab := ⟨9, 0⟩
  hT := tabR
  htb := by decide
  hto := by decide

/-- int2e_stg_ip1ip2_sph, component ∂_y on the first and ∂_z on the third function -/
example : ∃ G R has h', ("int2e_ip1ip2", G) ∈ f12Derivs ∧
    SphEndsF (sphMemX (G.int fun _ => 0) (callF true 1 17) (ctr_pos _ _ _)) R realK lib has h' ∧
    (sphMemX (G.int fun _ => 0) (callF true 1 17) (ctr_pos _ _ _)).elem h' 5 1 1 0 4 1 0 0 2 = .val (repulsion (f12Interaction true 1)
      (fun r => partials [1] (sgto (callF true 1 17).si 1 1) r * sgto (callF true 1 17).sj 0 4 r)
        (fun r => partials [2] (sgto (callF true 1 17).sk 1 0) r * sgto (callF true 1 17).sl 0 2 r)) := by
  obtain ⟨R, hR⟩ := exists_rysF
  obtain ⟨G, hG⟩ : ∃ G, ("int2e_ip1ip2", G) ∈ f12Derivs := ⟨_, List.mem_cons_of_mem _ (List.mem_cons_of_mem _ (List.mem_cons_of_mem _ List.mem_cons_self))⟩
  have hD : ("int2e_ip1ip2", 9, fun n => ({ i := [Fin.ofNat 3 (n/3)], k := [Fin.ofNat 3 n] } : Derivs4)) ∈ f12Ops :=
    List.mem_cons_of_mem _ (List.mem_cons_of_mem _ (List.mem_cons_of_mem _ List.mem_cons_self))
  obtain ⟨has, h', h1, h2⟩ := C60_exact (L := lib) (R := R) hG hD (sphMemX (G.int fun _ => 0) (callF true 1 17) (ctr_pos _ _ _)) rfl
    (allKeptX _ _ _ _ _) (posExp _ _ _) (hR _) (lok _ _ _)
  exact ⟨G, R, has, h', hG, h1, h2 5 1 0 1 0 1 4 0 2 (by omega) (by show 1 < 2; omega) (by show 0 < 2; omega) (by show 1 < 2; omega)
    (by show 0 < 2; omega) (by show 1 < 1*2+1; omega) (by show 4 < 2*2+1; omega) (by show 0 < 0*2+1; omega)
    (by show 2 < 1*2+1; omega)⟩
end F12Demo

end Verif.Props
