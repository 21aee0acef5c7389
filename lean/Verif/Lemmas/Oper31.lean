import Verif.Lemmas.Oper2Eval
import Verif.Lemmas.Kern3c1e
import Verif.Lemmas.OperEval
import Verif.Model.Oper31
import Verif.Spec.Oper31
import Verif.Props.Int3c1e

/-! The generated one-electron integrals over three functions: values of the operators and evaluation of a primitive triple. -/
namespace Verif.Lemmas
open Verif Verif.Model Verif.Spec Verif.Prog Verif.Props MeasureTheory Polynomial

/-! ### Values of the operators -/

/-- the product of three Gaussians times polynomials -/
theorem gP_mul3 {a b c : ℝ} (hp : a + b + c ≠ 0) (A B D : Pt) (q q' q'' : Fin 3 → ℝ[X]) (r : Pt) :
    gP a A q r * gP b B q' r * gP c D q'' r = Real.exp (-tripleExponent a b c A B D) *
      pg (a+b+c) (fun k => (a*A k+b*B k+c*D k)/(a+b+c)) (fun k => q k * q' k * q'' k) r := by
  have h1 : ∀ (a : ℝ) (A : Pt) (q : Fin 3 → ℝ[X]) r, gP a A q r = ∏ k', ((q k').eval (r k') * Real.exp (-a*(r k'-A k')^2)) := by
    intro a A q r
    unfold gP
    rw [Finset.prod_mul_distrib, ← Real.exp_sum, Finset.mul_sum]
  have he : -tripleExponent a b c A B D =
      ∑ k, -((a*b*(A k - B k)^2 + a*c*(A k - D k)^2 + b*c*(B k - D k)^2)/(a+b+c)) := by
    unfold tripleExponent
    rw [Finset.sum_neg_distrib, ← Finset.sum_div, Finset.sum_add_distrib, Finset.sum_add_distrib, Finset.mul_sum,
      Finset.mul_sum, Finset.mul_sum]
  rw [he, Real.exp_sum, h1, h1, h1, ← Finset.prod_mul_distrib, ← Finset.prod_mul_distrib, pg, ← Finset.prod_mul_distrib]
  refine Finset.prod_congr rfl (fun k _ => ?_)
  simp only [eval_mul]
  have e : Real.exp (-a*(r k - A k)^2) * Real.exp (-b*(r k - B k)^2) * Real.exp (-c*(r k - D k)^2) =
      Real.exp (-((a*b*(A k - B k)^2 + a*c*(A k - D k)^2 + b*c*(B k - D k)^2)/(a+b+c))) *
        Real.exp (-(a+b+c)*(r k - (a*A k+b*B k+c*D k)/(a+b+c))^2) := by
    rw [← Real.exp_add, ← Real.exp_add, ← Real.exp_add]
    congr 1
    field_simp
    ring
  linear_combination (q k).eval (r k) * (q' k).eval (r k) * (q'' k).eval (r k) * e

/-- the integral of a Gaussian times polynomials, weighted with `V` -/
noncomputable def pgInt (V : Pt → ℝ) (p : ℝ) (P : Pt) (f g : Fin 3 → ℝ[X]) : ℝ := ∫ r, pg p P (fun k => f k * g k) r * V r

/-- the centre of the product of three functions -/
noncomputable def cen3 (S T : PairOf) : Pt := fun k => (S.a*S.A k+S.b*S.B k+T.a*T.A k)/(S.a+S.b+T.a)

/-- nothing but the first function of the second pair -/
def Lone (x : Term × Term) : Prop := x.2.ket = [] ∧ x.2.geo = []

section
variable {S T : PairOf} (h : 0 < S.a + S.b + T.a) (hm : T.m = fun _ => 0) (hO : S.O = T.O)
include h hm hO

theorem act_triple {x : Term × Term} (hx : x.2.ket = []) (r : Pt) :
    Word.act S.O S.A x.1.bra (gto S.a S.A S.n) r * Word.act S.O S.B x.1.ket (gto S.b S.B S.m) r *
      Word.act S.O T.A x.2.bra (gto T.a T.A T.n) r =
    Real.exp (-tripleExponent S.a S.b T.a S.A S.B T.A) * pg (S.a+S.b+T.a) (cen3 S T)
      (fun k => S.poly (termKey2 x).1.bra (termKey2 x).1.ket k * T.poly (termKey2 x).2.bra (termKey2 x).2.ket k) r := by
  rw [gto_gP, gto_gP, gto_gP, act_gP, act_gP, act_gP, gP_mul3 h.ne', hO]
  congr 2
  funext k
  unfold PairOf.poly termKey2 termKey
  rw [hx, hm, hO]
  fin_cases k <;> simp [dirs, along, wordE]

theorem term_val31 (V : Pt → ℝ) {x : Term × Term} (hx : Lone x) :
    Op2.valT31 V S.O S.A S.B T.A (gto S.a S.A S.n) (gto S.b S.B S.m) (gto T.a T.A T.n) x =
      x.1.coef * x.2.coef * ((Real.exp (-tripleExponent S.a S.b T.a S.A S.B T.A) *
        keyV2 S T (pgInt V (S.a+S.b+T.a) (cen3 S T)) (termKey2 x) : ℝ) : ℂ) := by
  unfold Op2.valT31 triple
  congr 2
  simp_rw [act_triple h hm hO hx.1, mul_assoc]
  rw [integral_const_mul, S.geo_list]
  unfold keyV2 pgInt
  have : T.geo (termKey2 x).2.geo = 1 := by
    show T.geo (geoCount x.2.geo) = 1
    rw [hx.2, ← PairOf.geo_list]
    rfl
  rw [this]
  show S.geo (geoCount x.1.geo) * _ = _ * (S.geo (geoCount x.1.geo) * 1 * _)
  ring

theorem op_val31 (V : Pt → ℝ) {P : Op2} (hP : ∀ x ∈ P, Lone x) :
    Op2.val31 V S.O S.A S.B T.A (gto S.a S.A S.n) (gto S.b S.B S.m) (gto T.a T.A T.n) P =
      ((Real.exp (-tripleExponent S.a S.b T.a S.A S.B T.A) *
        sumVal (keyV2 S T (pgInt V (S.a+S.b+T.a) (cen3 S T))) (opRe2 P) : ℝ) : ℂ) +
        Complex.I * ((Real.exp (-tripleExponent S.a S.b T.a S.A S.B T.A) *
        sumVal (keyV2 S T (pgInt V (S.a+S.b+T.a) (cen3 S T))) (opIm2 P) : ℝ) : ℂ) := by
  induction P with
  | nil => simp [Op2.val31, sumVal, opRe2, opIm2]
  | cons x P ih =>
    have ih := ih fun y hy => hP y (List.mem_cons_of_mem _ hy)
    have h1 : ∀ V O A B C f g h, Op2.val31 V O A B C f g h (x :: P) = Op2.valT31 V O A B C f g h x +
        Op2.val31 V O A B C f g h P := by
      intro V O A B C f g h; simp [Op2.val31]
    have h2 : ∀ v : Key × Key → ℝ, sumVal v (opRe2 (x :: P)) =
        ((x.1.re*x.2.re - x.1.im*x.2.im : Int) : ℝ) * v (termKey2 x) + sumVal v (opRe2 P) := by
      intro v; simp [sumVal, opRe2]
    have h3 : ∀ v : Key × Key → ℝ, sumVal v (opIm2 (x :: P)) =
        ((x.1.re*x.2.im + x.1.im*x.2.re : Int) : ℝ) * v (termKey2 x) + sumVal v (opIm2 P) := by
      intro v; simp [sumVal, opIm2]
    rw [h1, ih, term_val31 h hm hO V (hP x List.mem_cons_self), h2, h3]
    unfold Term.coef
    generalize keyV2 S T _ _ = v
    generalize sumVal _ _ = v1
    generalize sumVal _ _ = v2
    generalize Real.exp _ = ex
    push_cast
    linear_combination (x.1.im * x.2.im * (ex * v) : ℂ) * Complex.I_mul_I
end

/-! ### The intermediates as multilinear functionals -/

/-- the normalised moments, as a function of the polynomials of four functions -/
noncomputable def rootMomL {p ρ : ℝ} (hp : 0 < p) (hρ : ρ < 1) (P c z : ℝ) : MultilinearMap ℝ (fun _ : Fin 4 => ℝ[X]) ℝ :=
  MultilinearMap.mk' (fun q => z * rootMom p P c ρ (q 0 * q 1 * (q 2 * q 3)))
    (by
      intro q t x y
      fin_cases t <;> simp [add_mul, mul_add, rootMom_add hp hρ])
    (by
      intro q t a x
      have h1 : ∀ c : ℝ, ∀ x y : ℝ[X], (c • x) * y = C c * (x * y) := fun c x y => by rw [smul_eq_C_mul, mul_assoc]
      have h2 : ∀ c : ℝ, ∀ x y : ℝ[X], x * (c • y) = C c * (x * y) := fun c x y => by rw [smul_eq_C_mul, mul_left_comm]
      have h4 : ∀ c : ℝ, ∀ x y : ℝ[X], (C c * x) * y = C c * (x * y) := fun c x y => by rw [mul_assoc]
      have h5 : ∀ c : ℝ, ∀ x y : ℝ[X], x * (C c * y) = C c * (x * y) := fun c x y => by rw [mul_left_comm]
      have h3 : ∀ x y : ℝ, z * (x * y) = x * (z * y) := fun x y => mul_left_comm _ _ _
      fin_cases t <;> simp [h1, h2, h4, h5, rootMom_C_mul, h3])

theorem rootMomL_apply {p ρ : ℝ} (hp : 0 < p) (hρ : ρ < 1) (P c z : ℝ) (q : Fin 4 → ℝ[X]) :
    rootMomL hp hρ P c z q = z * rootMom p P c ρ (q 0 * q 1 * (q 2 * q 3)) := rfl

/-- the moments of all directions -/
noncomputable def rootProd (p : ℝ) (P c : Nat → ℝ) (ρ : ℝ) (f g : Fin 3 → ℝ[X]) : ℝ :=
  ∏ k : Fin 3, rootMom p (P k) (c k) ρ (f k * g k)

theorem compVal31_eq {d : G2 ℝ} {D : OpData ℝ} {p ρ z : ℝ} (hp : 0 < p) (hρ : ρ < 1) {cr : Nat → ℝ}
    (hDa : D.a = ![d.ai, d.aj, d.ak, d.al])
    {ws : List (Nat → List (GOp × Fin 4))}
    {terms : List (Int × List Nat × Nat)} (ht : ∀ t ∈ terms, t.2.2 < ws.length ∧ ∀ n ∈ t.2.1, n < 6)
    (m : Nat → Fin 4 → Nat)
    {Λ : Nat → Nat → MultilinearMap ℝ (fun _ : Fin 4 => ℝ[X]) ℝ}
    (hΛ : Λ = fun c r => rootMomL hp hρ (d.rij c) (cr c) (zFac (fun _ => z) c r)) :
    compVal D terms (fun i => (ws.map fun W =>
        symVal D (powTab Λ D.R) (W 0) 0 (m 0) 0 *
        symVal D (powTab Λ D.R) (W 1) 1 (m 1) 0 *
        symVal D (powTab Λ D.R) (W 2) 2 (m 2) 0).getD i 0) =
      z * sumVal (keyV2 (pairIJ d D (fun c => m c 0) (fun c => m c 1)) (pairKL d D (fun c => m c 2) (fun c => m c 3))
        (rootProd p d.rij cr ρ)) (progSum2 ws terms) := by
  let S := pairIJ d D (fun c => m c 0) (fun c => m c 1)
  let T := pairKL d D (fun c => m c 2) (fun c => m c 3)
  unfold compVal sumVal progSum2
  induction terms with
  | nil => simp
  | cons t l ih =>
    have ih := ih (fun t ht' => ht t (List.mem_cons_of_mem _ ht'))
    simp only [List.map_cons, List.sum_cons] at ih ⊢
    rw [ih, mul_add]
    congr 1
    clear ih
    obtain ⟨h3, h4⟩ := ht t List.mem_cons_self
    obtain ⟨c, geo, i⟩ := t
    dsimp only at h3 h4 ⊢
    have hw : ws.getD i (fun _ => []) = ws[i] := by
      rw [List.getD_eq_getElem?_getD, List.getElem?_eq_getElem h3]; rfl
    rw [hw]
    have hg := geo_prod2 S T D (fun _ => rfl) (fun _ => rfl) ws[i] geo h4
    let f := S.poly (progKey2 geo ws[i]).1.bra (progKey2 geo ws[i]).1.ket
    let g := T.poly (progKey2 geo ws[i]).2.bra (progKey2 geo ws[i]).2.ket
    have key : ∀ (c : Fin 3), symVal D (powTab Λ D.R) (ws[i] c) c (m c) 0 =
        zFac (fun _ => z) c 0 * rootMom p (d.rij c) (cr c) ρ (f c * g c) := by
      intro c
      rw [symVal_poly]
      unfold wordTab
      rw [hΛ, rootMomL_apply, hDa]
      congr 2
      show wordE d.ai _ _ _ _ * wordE d.aj _ _ _ _ * (wordE d.ak _ _ _ _ * wordE d.al _ _ _ _) = S.poly _ _ c * T.poly _ _ c
      fin_cases c <;> rfl
    show _ = z * ((c : ℝ) * (S.geo _ * T.geo _ * rootProd p d.rij cr ρ f g))
    rw [hg]
    rw [List.getD_eq_getElem?_getD, List.getElem?_map, List.getElem?_eq_getElem h3]
    have k0 := key 0; have k1 := key 1; have k2 := key 2
    simp only [Fin.val_zero, Fin.val_one, Fin.val_two] at k0 k1 k2
    simp only [Option.map_some, Option.getD_some]
    rw [k0, k1, k2]
    unfold rootProd
    rw [Fin.prod_univ_three]
    have f0 : ∀ F : Nat → ℝ, zFac F 0 0 = 1 := fun _ => rfl
    have f1 : ∀ F : Nat → ℝ, zFac F 1 0 = 1 := fun _ => rfl
    have f2 : ∀ F : Nat → ℝ, zFac F 2 0 = F 0 := fun _ => rfl
    rw [f0, f1, f2]
    simp only [Fin.val_zero, Fin.val_one, Fin.val_two]
    ring

/-! ### One evaluation of the intermediates followed by a generated `f_gout` -/

theorem stepCtx31 {e : EnvG} {n leng : Nat} (H : Shape3 e) (hs : e.g_stride_i = 1) (hl : n * (3 * e.g_size) ≤ leng) :
    StepCtx false e ![e.li_ceil, e.lj_ceil, e.lk_ceil, 0] 1 n leng := by
  have es : ∀ m : Fin 4 → Nat, ∀ r, m 3 = 0 → r = 0 → slabM e m r = plB e (m 0, m 1, m 2) := by
    intro m r h3 h0
    unfold slabM plB slab3
    rw [hs, h3, h0]
    dsimp only
    ring
  have ok : ∀ m : Fin 4 → Nat, (∀ t, m t ≤ (![e.li_ceil, e.lj_ceil, e.lk_ceil, 0] : Fin 4 → Nat) t) → okB e (m 0, m 1, m 2) := by
    intro m hm
    have m0 : m 0 ≤ e.li_ceil := hm 0
    have m1 : m 1 ≤ e.lj_ceil := hm 1
    have m2 : m 2 ≤ e.lk_ceil := hm 2
    exact ⟨m0, by dsimp only; omega, m2⟩
  refine ⟨⟨?_, ?_⟩, hl, fun h => Bool.noConfusion h, fun _ => ⟨rfl, hs⟩, fun _ => rfl⟩
  · intro m r hm hr
    rw [es m r (Nat.le_zero.1 (hm 3)) (by omega)]
    exact (placesB H).range _ (ok m hm)
  · intro m r m' r' hm hr hm' hr' h
    have m3 : m 3 = 0 := Nat.le_zero.1 (hm 3)
    have m3' : m' 3 = 0 := Nat.le_zero.1 (hm' 3)
    rw [es m r m3 (by omega), es m' r' m3' (by omega)] at h
    have := (placesB H).inj _ _ (ok m hm) (ok m' hm') h
    simp only [Prod.mk.injEq] at this
    refine ⟨?_, by omega⟩
    funext t
    fin_cases t
    · exact this.1
    · exact this.2.1
    · exact this.2.2
    · exact m3.trans m3'.symm

/-- powers of the functions of element `n` along direction `c` -/
def pows31 (e : EnvG) (n c : Nat) : Fin 4 → Nat := ![i4 e c n, j4 e c n, k4 e c n, 0]

/-- the operators of a triple of primitives -/
def opData31 (d : G2 ℝ) (O : Nat → ℝ) : OpData ℝ := { a := ![d.ai, d.aj, d.ak, d.al], R := ![d.ri, d.rj, d.rk, d.rl], O := O }

/-- the value of component `M % nComp` of element `M / nComp` for a functional of the polynomials -/
noncomputable def genW31 (G : Gen2e) (ws : List (Nat → List (GOp × Fin 4))) (e : EnvG) (d : G2 ℝ) (O : Nat → ℝ)
    (I : (Fin 3 → ℝ[X]) → (Fin 3 → ℝ[X]) → ℝ) (M : Nat) : ℝ :=
  sumVal (keyV2 (pairIJ d (opData31 d O) (fun c => i4 e c (M/G.nComp)) (fun c => j4 e c (M/G.nComp)))
    (pairKL d (opData31 d O) (fun c => k4 e c (M/G.nComp)) (fun _ => 0)) I) (progSum2 ws (G.flat.comps.getD (M % G.nComp) []))

theorem pows31_le {e : EnvG} (hnfi : e.nfi = ncart e.i_l) (hnfj : e.nfj = ncart e.j_l) (hnfk : e.nfk = ncart e.k_l) (hnfl : e.nfl = 1)
    (hnf : e.nf = e.nfi * e.nfj * e.nfk) {n : Nat} (hn : n < e.nf) (c : Nat) (t : Fin 4) : pows31 e n c t ≤ angOf e t := by
  rw [hnf] at hn
  have pi : 0 < e.nfi := by
    rcases Nat.eq_zero_or_pos e.nfi with h0 | h0
    · rw [h0, Nat.zero_mul, Nat.zero_mul] at hn; omega
    · exact h0
  have pk : 0 < e.nfk := by
    rcases Nat.eq_zero_or_pos e.nfk with h0 | h0
    · rw [h0, Nat.mul_zero] at hn; omega
    · exact h0
  have b1 : n % e.nfi < ncart e.i_l := hnfi ▸ Nat.mod_lt _ pi
  have b2 : n / e.nfi % e.nfk < ncart e.k_l := hnfk ▸ Nat.mod_lt _ pk
  have b3 : n / e.nfi / e.nfk / e.nfl < ncart e.j_l := by
    rw [hnfl, Nat.div_one, ← hnfj]
    refine (Nat.div_lt_iff_lt_mul pk).2 ((Nat.div_lt_iff_lt_mul pi).2 ?_)
    calc n < e.nfi * e.nfj * e.nfk := hn
      _ = _ := by ring
  fin_cases t
  · exact pw_le b1
  · exact pw_le b3
  · exact pw_le b2
  · exact Nat.zero_le _

theorem rec_kernel31 {e : EnvG} {d : G2 ℝ} {g idx : Ptr} {leng : Nat} {T : Ptr → Option Int} {κ a1 p ρ : ℝ} {r0 cr O : Nat → ℝ}
    {g0 : ℝ → Prog ℝ Bool} {G : Gen2e} {ws : List (Nat → List (GOp × Fin 4))} (hG : Gen2e.OK G ws) (hGl : G.ng.l = 0 ∧ G.prog.more = [])
    (hg0 : ∀ fac, g0 fac = (do g3c1eRec e d g (fac * κ) r0 a1; pure true))
    (H : Shape3 e) (hs : e.g_stride_i = 1) (hl : (2^G.gbits + 1) * (3 * e.g_size) ≤ leng)
    (hi : e.li_ceil = e.i_l + G.ng.i) (hj : e.lj_ceil = e.j_l + G.ng.j) (hk : e.lk_ceil = e.k_l + G.ng.k) (hll : e.l_l = 0)
    (hnfi : e.nfi = ncart e.i_l) (hnfj : e.nfj = ncart e.j_l) (hnfk : e.nfk = ncart e.k_l) (hnfl : e.nfl = 1)
    (hnf : e.nf = e.nfi * e.nfj * e.nfk) (hT : IdxT T idx e.nf (adr3 e)) (hp : 0 < p) (hρ : ρ < 1)
    (ha1 : a1 = 1/2*(1-ρ)/p) (hr0 : ∀ c, c < 3 → r0 c = d.rj c - (d.rij c + ρ * (cr c - d.rij c))) (hrl : d.rl = d.rk) :
    KernelSpec T g0 (fun _ gout em => goutOvlp e (opData31 d O) G.prog idx g gout em) (Blk g leng) (e.nf * G.nComp) true
      (fun M => κ * genW31 G ws e d O (rootProd p d.rij cr ρ) M) := by
  intro fac gout em u h hRO hGs hA hd hE
  have hl3 : 3 * e.g_size ≤ leng := by
    have h1 : 1 * (3 * e.g_size) ≤ (2^G.gbits + 1) * (3 * e.g_size) := Nat.mul_le_mul_right _ (Nat.succ_le_of_lt (Nat.succ_pos _))
    omega
  have hrm := fun c => rootMom_pq3 hp hρ (d.rij c) (cr c) (d.ri c) (d.rj c) (d.rk c)
  rw [hg0, wp_mbind]
  refine wp_mono (g3c1eRec_wp (E := fun c i j k => rootMom p (d.rij c) (cr c) ρ (pq3 (d.ri c) (d.rj c) (d.rk c) i j k)) H hl3 hGs
    (fun c _ => (hrm c).1) (fun c j hc => by rw [(hrm c).2.1 j, ha1, hr0 c hc]) (fun c i j _ => (hrm c).2.2.1 i j)
    (fun c i j k _ => (hrm c).2.2.2 i j k)) ?_
  intro _ h1 T1
  rw [wp_pure]
  refine ⟨rfl, T1.frame, T1.int, fun _ => ?_⟩
  obtain ⟨Λ, hΛ⟩ : ∃ Λ : Nat → Nat → MultilinearMap ℝ (fun _ : Fin 4 => ℝ[X]) ℝ,
      Λ = fun c r => rootMomL hp hρ (d.rij c) (cr c) (zFac (fun _ => fac * κ) c r) := ⟨_, rfl⟩
  have hL : ∀ t, angOf e t + (![G.ng.i, G.ng.j, G.ng.k, G.ng.l] : Fin 4 → Nat) t ≤
      (![e.li_ceil, e.lj_ceil, e.lk_ceil, 0] : Fin 4 → Nat) t := by
    intro t
    fin_cases t
    · exact le_of_eq hi.symm
    · exact le_of_eq hj.symm
    · exact le_of_eq hk.symm
    · show e.l_l + G.ng.l ≤ 0
      omega
  have hv : TabM h1 g e (fun t => angOf e t + (![G.ng.i, G.ng.j, G.ng.k, G.ng.l] : Fin 4 → Nat) t) 1 (powTab Λ (opData31 d O).R) := by
    intro c m r hc hm hr'
    have m0 : m 0 ≤ e.li_ceil := (hm 0).trans (hL 0)
    have m1 : m 1 ≤ e.lj_ceil := (hm 1).trans (hL 1)
    have m2 : m 2 ≤ e.lk_ceil := (hm 2).trans (hL 2)
    have m3 : m 3 = 0 := Nat.le_zero.1 ((hm 3).trans (hL 3))
    have es : gAx g e c (slabM e m r) = keyAddr g e (plB e) (c, m 0, m 1, m 2) := by
      unfold keyAddr plB slabM slab3
      rw [hs, m3, show r = 0 by omega]
      dsimp only
      congr 1
      ring
    rw [es, T1.val (c, m 0, m 1, m 2) ⟨hc, m0, by dsimp only; omega, m2⟩]
    refine congrArg Cell.val ?_
    unfold powTab
    rw [hΛ, rootMomL_apply, m3]
    unfold zFac pq3
    show _ = _ * rootMom _ _ _ _ ((X - C (d.ri c))^m 0 * (X - C (d.rj c))^m 1 * ((X - C (d.rk c))^m 2 * (X - C (d.rl c))^0))
    rw [pow_zero, mul_one]
  have hnc := hG.ncomp
  have W := goutOvlp_wp (D := opData31 d O) (v0 := powTab Λ (opData31 d O).R) (stepCtx31 H hs hl) ((runWords_plain hGl.2).symm.trans hG.sym) (Nat.succ_pos _) hL
    (idx := idx) (gout := gout) (em := em) (T := T) (ad := adr3 e) (m := pows31 e) (u := u) (h := h1) (g := g)
    (fun n c _ _ => by
      unfold adr3 slabM slab3 pows31
      rw [hs]
      simp only [Matrix.cons_val_zero, Matrix.cons_val_one, Matrix.cons_val, Nat.mul_zero, Nat.add_zero]
      congr 1
      ring)
    (fun n c t hn _ => pows31_le hnfi hnfj hnfk hnfl hnf hn c t)
    (fun q x hq => by rw [T1.int]; exact hRO q x hq) hT
    (fun i hi => by rw [hnc] at hi; rw [T1.frame _ (hd i hi)]; exact hA i hi) T1.alloc
    (fun i hi => by rw [hnc] at hi; exact hd i hi)
    (fun he i hi => by rw [hnc] at hi; rw [T1.frame _ (hd i hi)]; exact hE he i hi) hv
  rw [hnc] at W
  refine wp_mono W ?_
  rintro _ h2 ⟨A2, B2, C2⟩
  refine ⟨?_, T1.frame.trans B2 (fun q hq => Or.inl hq) (fun q hq => hq), by rw [C2, T1.int]⟩
  intro M hM
  rw [A2 M hM]
  have hkk : M % G.nComp < G.flat.comps.length := by rw [G.flat_length, hnc]; exact Nat.mod_lt _ (Nat.pos_of_ne_zero hG.pos)
  have hmem : G.flat.comps.getD (M % G.nComp) [] ∈ G.flat.comps := by
    rw [List.getD_eq_getElem?_getD, List.getElem?_eq_getElem hkk]; exact List.getElem_mem hkk
  have := compVal31_eq (d := d) (D := opData31 d O) hp hρ (z := fac * κ) (cr := cr) rfl (hG.terms _ hmem) (pows31 e (M / G.nComp)) hΛ
  have hE2 : goutVal (opData31 d O) (powTab Λ (opData31 d O).R) G.prog ws (pows31 e (M / G.nComp)) 0 (M % G.nComp) =
      fac * (κ * genW31 G ws e d O (rootProd p d.rij cr ρ) M) := by
    rw [← mul_assoc]
    rw [show G.flat.comps = G.prog.comps from flatP_plain hGl.2] at this
    refine this.trans ?_
    unfold genW31
    rw [show G.flat.comps = G.prog.comps from flatP_plain hGl.2]
    rfl
  beta_reduce
  rw [hE2]

/-! ### In the driver -/

/-- the contribution of a primitive triple per unit of the prefactor -/
noncomputable def w31 (G : Gen2e) (ws : List (Nat → List (GOp × Fin 4))) (O : Nat → ℝ) (op : Op3c1e ℝ) (s : Call3 ℝ) (ip jp kp M : Nat) : ℝ :=
  1 / (Real.sqrt Real.pi * Real.pi) * genW31 G ws (s.env1 (G.int31 O)) (s.g1 ip jp kp) O
    (pgInt (opPot op) (s.aijk ip jp kp) (fun k => (s.g1 ip jp kp).rij k)) M

theorem keyV2_smul (S T : PairOf) (a : ℝ) (I J : (Fin 3 → ℝ[X]) → (Fin 3 → ℝ[X]) → ℝ) (l : List (Int × (Key × Key)))
    (h : ∀ x ∈ l, I (S.poly x.2.1.bra x.2.1.ket) (T.poly x.2.2.bra x.2.2.ket) = a * J (S.poly x.2.1.bra x.2.1.ket) (T.poly x.2.2.bra x.2.2.ket)) :
    sumVal (keyV2 S T I) l = a * sumVal (keyV2 S T J) l := by
  unfold sumVal
  induction l with
  | nil => simp
  | cons x l ih =>
    have ih := ih fun y hy => h y (List.mem_cons_of_mem _ hy)
    simp only [List.map_cons, List.sum_cons] at ih ⊢
    rw [ih, mul_add]
    congr 1
    unfold keyV2
    rw [h x List.mem_cons_self]
    ring

theorem keyV2_sum (S T : PairOf) {ι : Type} (A : Finset ι) (w : ι → ℝ) (J : ι → (Fin 3 → ℝ[X]) → (Fin 3 → ℝ[X]) → ℝ)
    (l : List (Int × (Key × Key))) :
    ∑ r ∈ A, w r * sumVal (keyV2 S T (J r)) l = sumVal (keyV2 S T fun f g => ∑ r ∈ A, w r * J r f g) l := by
  unfold sumVal
  induction l with
  | nil => simp
  | cons x l ih =>
    simp only [List.map_cons, List.sum_cons] at ih ⊢
    simp_rw [mul_add]
    rw [Finset.sum_add_distrib, ih]
    congr 1
    unfold keyV2
    rw [Finset.mul_sum, Finset.mul_sum]
    refine Finset.sum_congr rfl fun r _ => ?_
    ring

theorem genW31_congr {G : Gen2e} {ws : List (Nat → List (GOp × Fin 4))} (hG : Gen2e.OK G ws) {e : EnvG} {d : G2 ℝ} {O : Nat → ℝ}
    (hnfi : e.nfi = ncart e.i_l) (hnfj : e.nfj = ncart e.j_l) (hnfk : e.nfk = ncart e.k_l) (hnfl : e.nfl = 1)
    (hnf : e.nf = e.nfi * e.nfj * e.nfk) {a : ℝ} {I J : (Fin 3 → ℝ[X]) → (Fin 3 → ℝ[X]) → ℝ}
    (h : ∀ f g : Fin 3 → ℝ[X], ∑ k, (f k * g k).natDegree ≤ e.i_l + e.j_l + e.k_l + (G.ng.i + G.ng.j + G.ng.k + G.ng.l) →
      I f g = a * J f g) {M : Nat} (hM : M < e.nf * G.nComp) :
    genW31 G ws e d O I M = a * genW31 G ws e d O J M := by
  unfold genW31
  refine keyV2_smul _ _ a I J _ fun x hx => h _ _ ?_
  have hkk : M % G.nComp < G.flat.comps.length := by rw [G.flat_length, hG.ncomp]; exact Nat.mod_lt _ (Nat.pos_of_ne_zero hG.pos)
  have hmem : G.flat.comps.getD (M % G.nComp) [] ∈ G.flat.comps := by
    rw [List.getD_eq_getElem?_getD, List.getElem?_eq_getElem hkk]; exact List.getElem_mem hkk
  unfold progSum2 at hx
  obtain ⟨t, ht, rfl⟩ := List.mem_map.1 hx
  have h3 := (hG.terms _ hmem t ht).1
  have hw : ws.getD t.2.2 (fun _ => []) = ws[t.2.2] := by
    rw [List.getD_eq_getElem?_getD, List.getElem?_eq_getElem h3]; rfl
  dsimp only
  rw [hw]
  refine (Finset.sum_le_sum fun k _ => natDegree_mul_le).trans ((poly_degree2 _ _ ws[t.2.2] t.2.1).trans ?_)
  have h4 := hG.len _ (List.getElem_mem h3)
  have hn : M / G.nComp < e.nf := (Nat.div_lt_iff_lt_mul (Nat.pos_of_ne_zero hG.pos)).2 hM
  obtain ⟨s1, s2, s3⟩ := psum3 hnfi hnfj hnfk hnfl hnf hn
  simp only [pairIJ, pairKL, Fin.sum_univ_three, Fin.val_zero, Fin.val_one, Fin.val_two]
  omega

theorem evalOK_31 {R : Rys ℝ} {L : MathLib ℝ} {op : Op3c1e ℝ} {s : Call3 ℝ} {G : Gen2e} {O : Nat → ℝ}
    {ws : List (Nat → List (GOp × Fin 4))} (hG : Gen2e.OK G ws) (hGl : G.ng.l = 0 ∧ G.prog.more = [])
    (hp : ∀ ip jp kp, ip < s.si.nprim → jp < s.sj.nprim → kp < s.sk.nprim → 0 < s.aijk ip jp kp)
    (hR : ∀ ip jp kp, ip < s.si.nprim → jp < s.sj.nprim → kp < s.sk.nprim →
      RysOK3 R op (s.env1 (G.int31 O)).nrys_roots (s.aijk ip jp kp) (s.g1 ip jp kp).rij) :
    EvalOK1 R realK L op (G.int31 O) s (fun _ _ _ => true) (w31 G ws O op s) := by
  intro ip jp kp A T hip hjp hkp hT
  let e := s.env1 (G.int31 O)
  let d := s.g1 ip jp kp
  let p := s.aijk ip jp kp
  have hp0 : 0 < p := hp ip jp kp hip hjp hkp
  have H : Shape3 e := shape3_int3c1e _ _ _ _
  have hl : (2^G.gbits + 1) * (3 * e.g_size) ≤ s.leng1 (G.int31 O) := by
    show _ ≤ e.g_size * 3 * (2^G.gbits + 1)
    exact le_of_eq (by ring)
  have hsp : 0 < Real.sqrt p := Real.sqrt_pos.2 hp0
  have hsπ : 0 < Real.sqrt Real.pi := Real.sqrt_pos.2 Real.pi_pos
  have h3 : Real.sqrt p ^ 2 = p := Real.sq_sqrt hp0.le
  have h4 : Real.sqrt Real.pi ^ 2 = Real.pi := Real.sq_sqrt Real.pi_pos.le
  show KernelSpec T _ _ _ (e.nf * G.nComp) true _
  have kern := fun (κ a1 ρ : ℝ) (r0 cr : Nat → ℝ) (g0 : ℝ → Prog ℝ Bool) hg0 hρ ha1 hr0 =>
    rec_kernel31 (e := e) (d := d) (g := A.g) (idx := A.idx) (leng := s.leng1 (G.int31 O)) (T := T) (p := p) (O := O) (κ := κ)
      (a1 := a1) (ρ := ρ) (r0 := r0) (cr := cr) (g0 := g0) hG hGl hg0 H rfl hl rfl rfl rfl rfl rfl rfl rfl rfl rfl hT hp0 hρ ha1 hr0 rfl
  have hcongr := fun (a : ℝ) (I J : (Fin 3 → ℝ[X]) → (Fin 3 → ℝ[X]) → ℝ) h (M : Nat) hM =>
    genW31_congr (e := e) (d := d) (O := O) hG rfl rfl rfl rfl rfl (a := a) (I := I) (J := J) h (M := M) hM
  cases op with
  | ovlp =>
    have K := kern (1/(p * Real.sqrt p)) (1/2/p) 0 (fun c => d.rj c - d.rij c) (fun _ => 0)
      ((s.triple1 (G.int31 O) R realK L .ovlp A).g0 ip jp kp)
      (fun fac => by
        show (do g3c1eRec e d A.g (fac / (p * Real.sqrt p)) _ _; pure true) = _
        rw [mul_one_div]; rfl) zero_lt_one (by ring) (fun c _ => by ring)
    have hw : ∀ M, M < e.nf * G.nComp → 1/(p * Real.sqrt p) * genW31 G ws e d O (rootProd p d.rij (fun _ => 0) 0) M =
        w31 G ws O .ovlp s ip jp kp M := by
      intro M hM
      unfold w31
      show _ = 1 / (Real.sqrt Real.pi * Real.pi) * genW31 G ws e d O (pgInt (opPot .ovlp) p (fun k => d.rij k)) M
      rw [hcongr (1 / (Real.sqrt (Real.pi/p))^3) _ (pgInt (opPot .ovlp) p (fun k => d.rij k)) ?_ M hM]
      · generalize genW31 _ _ _ _ _ _ _ = v
        rw [Real.sqrt_div Real.pi_pos.le]
        field_simp
        rw [h3, h4]
        ring
      · intro f g _
        show rootProd p d.rij (fun _ => 0) 0 f g = _ * ∫ r, pg p (fun k => d.rij k) (fun k => f k * g k) r * 1
        simp only [mul_one]
        rw [integral_pg, Fin.prod_univ_three]
        unfold rootProd
        rw [Fin.prod_univ_three]
        simp only [rootMom_zero]
        ring
    intro fac gout em u h hRO hGs hA hd hE
    refine wp_mono (K fac gout em u h hRO hGs hA hd hE) ?_
    rintro b h1 ⟨b1, a1, i1, k1⟩
    refine ⟨b1, a1, i1, fun hb => wp_mono (k1 hb) ?_⟩
    rintro _ h2 ⟨v2, a2, i2⟩
    refine ⟨fun M hM => ?_, a2, i2⟩
    rw [v2 M hM]
    beta_reduce
    rw [hw M hM]
  | rinv zeta cr =>
    let N := e.nrys_roots
    let τ := nucTau p zeta
    let x := nucX p τ d.rij cr
    have hRx : RysExact N x (R.u N x) (R.w N x) := hR ip jp kp hip hjp hkp
    obtain ⟨t0, t1⟩ := nucTau_bounds hp0 zeta
    have hx : p * rr2 d.rij cr * τ * τ = x := by
      show _ = nucX p τ d.rij cr
      unfold rr2 nucX
      ring
    let ρ : Nat → ℝ := fun r => rootRho τ (R.u N x r)
    have hρ : ∀ r, r < N → ρ r < 1 := fun r hr => rootRho_lt t0 t1 (hRx.nonneg r hr)
    have kern : ∀ r, r < N → KernelSpec T (nucRoot3 R realK e d zeta cr r A.g)
        (fun _ gout em => goutOvlp e (opData31 d O) G.prog A.idx A.g gout em)
        (Blk A.g (s.leng1 (G.int31 O))) (e.nf * G.nComp) true (fun M => 2 / Real.sqrt Real.pi / p * R.w N x r * τ *
          genW31 G ws e d O (rootProd p d.rij cr (ρ r)) M) := by
      intro r hr
      have hu : R.u N x r / (1 + R.u N x r) * τ * τ = ρ r := by
        show _ = τ * τ * R.u N x r / (1 + R.u N x r)
        ring
      exact kern (2 / Real.sqrt Real.pi / p * R.w N x r * τ) (1/2*(1 - ρ r)/p) (ρ r)
        (fun c => d.rj c - (d.rij c + ρ r * (cr c - d.rij c))) cr (nucRoot3 R realK e d zeta cr r A.g)
        (fun fac => by
          show (g3c1eNuc realK e d cr (R.u N (p * rr2 d.rij cr * τ * τ) r / (1 + R.u N (p * rr2 d.rij cr * τ * τ) r) * τ * τ)
            A.g (fac / p * R.w N (p * rr2 d.rij cr * τ * τ) r * τ) >>= fun _ => pure true) = _
          rw [hx, hu]
          unfold g3c1eNuc
          rw [show fac * (2 / Real.sqrt Real.pi / p * R.w N x r * τ) = 2/realK.sqrtpi * (fac / p * R.w N x r * τ) by
            show _ = 2 / Real.sqrt Real.pi * _
            ring]
          rfl) (hρ r hr) rfl (fun c _ => rfl)
    let vs : List (Nat → ℝ) := (List.range N).map fun r M => 2 / Real.sqrt Real.pi / p * R.w N x r * τ *
          genW31 G ws e d O (rootProd p d.rij cr (ρ r)) M
    have hF : List.Forall₂ (fun g0 w => KernelSpec T (g0 A.g)
        (fun _ gout em => goutOvlp e (opData31 d O) G.prog A.idx A.g gout em)
        (Blk A.g (s.leng1 (G.int31 O))) (e.nf * G.nComp) true w)
        ((List.range N).map fun i => nucRoot3 R realK e d zeta cr i) vs := by
      show List.Forall₂ _ _ ((List.range N).map _)
      rw [List.forall₂_map_left_iff, List.forall₂_map_right_iff, List.forall₂_same]
      intro r hr
      exact kern r (List.mem_range.1 hr)
    have hN : N = (s.si.l + G.ng.i + (s.sj.l + G.ng.j) + (s.sk.l + G.ng.k))/2 + 1 := rfl
    intro fac gout em u h hRO hGs hA hd hE
    show wp (pure true) _ h
    rw [wp_pure]
    refine ⟨rfl, AgreeD.refl _ _, rfl, fun _ => ?_⟩
    refine wp_mono (makeGout_wp (N := e.nf * G.nComp) (T := T) _ vs hF em u h (fun h0 => ?_) hRO hGs hA hd hE) ?_
    · exact absurd h0 (by simp [hN])
    · rintro _ h2 ⟨v2, a2, i2⟩
      refine ⟨fun M hM => ?_, a2, i2⟩
      have hval : (vs.map (fun w => w M)).sum = w31 G ws O (.rinv zeta cr) s ip jp kp M := by
        unfold w31
        show (((List.range N).map _).map _).sum = 1 / (Real.sqrt Real.pi * Real.pi) *
          genW31 G ws e d O (pgInt (opPot (.rinv zeta cr)) p (fun k => d.rij k)) M
        rw [List.map_map, sum_list_range]
        show ∑ r ∈ Finset.range N, 2 / Real.sqrt Real.pi / p * R.w N x r * τ * genW31 G ws e d O (rootProd p d.rij cr (ρ r)) M = _
        unfold genW31
        rw [keyV2_sum]
        show genW31 G ws e d O (fun f g => ∑ r ∈ Finset.range N, 2 / Real.sqrt Real.pi / p * R.w N x r * τ *
          rootProd p d.rij cr (ρ r) f g) M = _ * genW31 G ws e d O _ M
        refine hcongr _ _ _ ?_ M hM
        intro f g hfg
        have hfg : ∑ k, (f k * g k).natDegree ≤ s.si.l + s.sj.l + s.sk.l + (G.ng.i + G.ng.j + G.ng.k + G.ng.l) := hfg
        have hdeg : ∑ k, (f k * g k).natDegree < 2 * N := by
          rw [hN]
          omega
        show _ = 1 / (Real.sqrt Real.pi * Real.pi) *
          ∫ r, pg p (fun k => d.rij k) (fun k => f k * g k) r * potential zeta (fun k => cr k) r
        rw [quad_potential hp0 zeta (fun k => d.rij k) (fun k => cr k) (fun k => f k * g k) (n := N) (u := R.u N x) (w := R.w N x) hdeg
          (by rw [← nucX_eq]; exact hRx)]
        rw [Finset.mul_sum, Finset.mul_sum]
        refine Finset.sum_congr rfl (fun r _ => ?_)
        show 2 / Real.sqrt Real.pi / p * R.w N x r * τ * _ = 1 / (Real.sqrt Real.pi * Real.pi) *
          (2 * Real.pi / p * τ * (R.w N x r * _))
        have hπ := Real.pi_pos
        field_simp
        rfl
      rw [v2 M hM]
      refine congrArg Cell.val ?_
      beta_reduce
      rw [hval]

end Verif.Lemmas
