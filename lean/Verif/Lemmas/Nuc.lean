import Verif.Lemmas.NucTab
import Verif.Lemmas.Coulomb

/-! Nuclear attraction intermediates are moments; the sum over roots is the integral with the potential. -/
namespace Verif.Lemmas
open Verif Verif.Model Verif.Spec Verif.Prog Verif.Props MeasureTheory Polynomial

section
variable {α : Type}

theorem accRoots_wp [Field α] {f : Nat → Prog α (Nat → α)} {x : Nat → Nat → α} {nc : Nat} {h : Heap α} : ∀ n,
    (∀ i, i < n → wp (f i) (fun s h' => h' = h ∧ ∀ k, k < nc → s k = x i k) h) →
    wp (accRoots f n) (fun s h' => h' = h ∧ ∀ k, k < nc → s k = ∑ i ∈ Finset.range n, x i k) h
  | 0, _ => by
    unfold accRoots
    rw [wp_pure]
    exact ⟨rfl, fun k _ => by simp⟩
  | n+1, H => by
    unfold accRoots
    rw [wp_mbind]
    refine wp_mono (accRoots_wp n (fun i hi => H i (by omega))) ?_
    rintro s h1 ⟨rfl, hs⟩
    rw [wp_mbind]
    refine wp_mono (H n (by omega)) ?_
    rintro y h2 ⟨rfl, hy⟩
    rw [wp_pure]
    exact ⟨rfl, fun k hk => by rw [Finset.sum_range_succ]; beta_reduce; rw [hs k hk, hy k hk]⟩

/-- the intermediates of all roots -/
def TabABR (h : Heap α) (g : Ptr) (e : EnvG) (A B : Nat) (v : Nat → Nat → Nat → Nat → α) : Prop :=
  ∀ c a b r, c < 3 → a ≤ A → b ≤ B → r < e.nrys_roots → h.D (gAx g e c (slab2 e a b r)) = .val (v c a b r)

theorem tabABR_of_base {h h1 : Heap α} {g : Ptr} {e : EnvG} {leng : Nat}
    {w : Nat → Nat → Nat → Nat → α} {v : Nat → Nat → Nat → Nat → α}
    (T : Tab h h1 (Blk g leng)
      (fun k => k.1 < 3 ∧ k.2.1 + k.2.2.1 ≤ e.li_ceil + e.lj_ceil ∧ k.2.2.1 ≤ baseL e ∧ k.2.2.2 < e.nrys_roots)
      (baseAddr g e) (fun k => w k.1 k.2.1 k.2.2.1 k.2.2.2))
    (hv : ∀ c a b r, c < 3 → r < e.nrys_roots → v c a b r = if ibase e then w c a b r else w c b a r) :
    TabABR h1 g e e.li_ceil e.lj_ceil v := by
  intro c a b r hc ha hb hr
  rw [hv c a b r hc hr]
  by_cases hi : ibase e
  · rw [if_pos hi]
    have hl : baseL e = e.lj_ceil := if_pos hi
    have := T.val (c, a, b, r) ⟨hc, by dsimp only; omega, by dsimp only; omega, hr⟩
    rw [← this]
    congr 2
    unfold slab2 basePlace baseDi baseDj
    rw [if_pos hi, if_pos hi]
    dsimp only
    ring
  · rw [if_neg hi]
    have hl : baseL e = e.li_ceil := if_neg hi
    have := T.val (c, b, a, r) ⟨hc, by dsimp only; omega, by dsimp only; omega, hr⟩
    rw [← this]
    congr 2
    unfold slab2 basePlace baseDi baseDj
    rw [if_neg hi, if_neg hi]
    dsimp only
    ring
end

/-- `τ` of a charge distribution, and the argument of the quadrature -/
noncomputable def nucTau (p ζ : ℝ) : ℝ := if 0 < ζ then Real.sqrt (ζ/(p+ζ)) else 1
noncomputable def nucX (p τ : ℝ) (P c : Nat → ℝ) : ℝ :=
  p * τ * τ * ((c 0 - P 0) * (c 0 - P 0) + (c 1 - P 1) * (c 1 - P 1) + (c 2 - P 2) * (c 2 - P 2))

theorem nucTau_bounds {p : ℝ} (hp : 0 < p) (ζ : ℝ) : 0 < nucTau p ζ ∧ nucTau p ζ ≤ 1 := by
  unfold nucTau
  split
  · rename_i h
    refine ⟨Real.sqrt_pos.2 (by positivity), ?_⟩
    refine Real.sqrt_le_one.2 ?_
    rw [div_le_one (by positivity)]
    linarith
  · exact ⟨one_pos, le_refl _⟩

/-- `ρ` of a root -/
noncomputable def rootRho (τ u : ℝ) : ℝ := τ * τ * u / (1 + u)

theorem rootRho_lt {τ u : ℝ} (h0 : 0 < τ) (h1 : τ ≤ 1) (hu : 0 ≤ u) : rootRho τ u < 1 := by
  unfold rootRho
  rw [div_lt_one (by linarith)]
  nlinarith [mul_le_one₀ h1 h0.le h1]

/-- moments of the Gaussian of a root, normalised -/
noncomputable def rootMom (p P c ρ : ℝ) (q : ℝ[X]) : ℝ :=
  moment (p/(1-ρ)) (P + ρ*(c-P)) q / Real.sqrt (Real.pi/(p/(1-ρ)))

theorem rootMom_red {p ρ : ℝ} (hp : 0 < p) (hρ : ρ < 1) (P c : ℝ) (q : ℝ[X]) :
    rootMom p P c ρ q = (red p P c q).eval ρ := by
  unfold rootMom
  have h1 : 0 < 1 - ρ := by linarith
  have : 0 < Real.sqrt (Real.pi/(p/(1-ρ))) := Real.sqrt_pos.2 (by have := Real.pi_pos; positivity)
  rw [moment_red hp hρ]
  field_simp

/-- factor carried by the slab of each direction -/
noncomputable def nucFac (F : Nat → ℝ) (c r : Nat) : ℝ := if c = 2 then F r else 1

/-- CINTg1e_nuc: every intermediate is the moment of the Gaussian of its root -/
theorem nuc_table {R : Rys ℝ} {e : EnvG} {d : G1 ℝ} {S : Src ℝ} {g : Ptr} {fac : ℝ} {leng : Nat} {h : Heap ℝ}
    (B : BaseOK e) (hl : 3 * e.g_size ≤ leng) (ha : ∀ q, Blk g leng q → h.D q ≠ .oob)
    (hp : 0 < d.ai + d.aj) {τ x : ℝ} (hτ : τ = nucTau (d.ai + d.aj) S.zeta) (hx : x = nucX (d.ai + d.aj) τ d.rij S.r)
    (hu : ∀ r, r < e.nrys_roots → 0 ≤ R.u e.nrys_roots x r) :
    wp (g1eNuc R realK e d S g fac) (fun b h1 => b = true ∧ (∀ q, Blk g leng q → h1.D q ≠ .oob) ∧
      AgreeD h h1 (Blk g leng) ∧ h1.I = h.I ∧
      TabABR h1 g e e.li_ceil e.lj_ceil (fun c a b r =>
        nucFac (fun r => R.w e.nrys_roots x r * (2 * Real.pi * S.q * fac * τ / (d.ai + d.aj))) c r *
          rootMom (d.ai + d.aj) (d.rij c) (S.r c) (rootRho τ (R.u e.nrys_roots x r)) (pq (d.ri c) (d.rj c) a b))) h := by
  let p := d.ai + d.aj
  let ρ : Nat → ℝ := fun r => rootRho τ (R.u e.nrys_roots x r)
  have hb := nucTau_bounds hp S.zeta
  rw [← hτ] at hb
  have hρ : ∀ r, r < e.nrys_roots → ρ r < 1 := fun r hr => rootRho_lt hb.1 hb.2 (hu r hr)
  let Xc : Nat → ℝ := baseR e d
  let Yc : Nat → ℝ := if ibase e then d.rj else d.ri
  let z : Nat → Nat → ℝ := nucFac (fun r => R.w e.nrys_roots x r * (2 * Real.pi * S.q * fac * τ / (d.ai + d.aj)))
  let E : Nat → Nat → Nat → Nat → ℝ := fun c i j r => rootMom p (d.rij c) (S.r c) (ρ r) (pq (Xc c) (Yc c) i j)
  have hp' : ∀ r, r < e.nrys_roots → 0 < p/(1-ρ r) := fun r hr => div_pos hp (by have := hρ r hr; linarith)
  have hsq : ∀ r, r < e.nrys_roots → 0 < Real.sqrt (Real.pi/(p/(1-ρ r))) := fun r hr =>
    Real.sqrt_pos.2 (div_pos Real.pi_pos (hp' r hr))
  have hpq0 : ∀ (A D : ℝ) (i : ℕ), pq A D i 0 = (Polynomial.X - Polynomial.C A)^i := by
    intro A D i; unfold pq; rw [pow_zero, mul_one]
  refine wp_mono (g1eNuc_wp (R := R) (K := realK) (S := S) (tau := τ) (x := x) (crij := fun c => S.r c - d.rij c) (ru := ρ)
    (z := z) (E := E) B hl ha hτ (fun _ => rfl) (by rw [hx]; rfl) (fun _ => rfl) ?_ ?_ ?_ ?_ ?_ ?_) ?_
  · intro r; rfl
  · intro r; rfl
  · intro r _
    show nucFac _ 2 r = _
    unfold nucFac
    rw [if_pos rfl]
    rfl
  · intro c r _ hr
    show rootMom _ _ _ _ (pq _ _ 0 0) = 1
    rw [hpq0, pow_zero]
    unfold rootMom
    rw [moment_one]
    exact div_self (hsq r hr).ne'
  · intro c i r _ hr
    show rootMom _ _ _ _ (pq _ _ (i+1) 0) = _ * _ * rootMom _ _ _ _ (pq _ _ (i-1) 0) + _ * rootMom _ _ _ _ (pq _ _ i 0)
    rw [hpq0, hpq0, hpq0]
    unfold rootMom
    rw [moment_vrr (hp' r hr)]
    have h1 : 1 - ρ r ≠ 0 := by have := hρ r hr; linarith
    have h2 : 1/(2*(p/(1-ρ r))) = 1/2/p - 1/2/p*ρ r := by
      field_simp
    rw [h2]
    show _ = _ * (1/2/p - 1/2/p*ρ r) * (_ / _) + (d.rij c - Xc c + ρ r * (S.r c - d.rij c)) * (_ / _)
    ring
  · intro c i j r _ hr
    show rootMom _ _ _ _ (pq _ _ i (j+1)) = rootMom _ _ _ _ (pq _ _ (i+1) j) + rirj e d c * rootMom _ _ _ _ (pq _ _ i j)
    unfold rootMom
    rw [moment_hrr (hp' r hr)]
    have : rirj e d c = Xc c - Yc c := by
      show rirj e d c = baseR e d c - (if ibase e then d.rj else d.ri) c
      unfold rirj baseR
      by_cases hi : ibase e
      · simp only [if_pos hi]
      · simp only [if_neg hi]
    rw [this]
    ring
  · rintro b h1 ⟨hb1, T⟩
    refine ⟨hb1, T.alloc, T.frame, T.int, tabABR_of_base (w := fun c i j r => z c r * E c i j r) T ?_⟩
    intro c a b r _ _
    by_cases hi : ibase e
    · rw [if_pos hi]
      show _ = _ * rootMom p (d.rij c) (S.r c) (ρ r) (pq (baseR e d c) ((if ibase e then d.rj else d.ri) c) a b)
      unfold baseR
      simp only [if_pos hi]
      rfl
    · rw [if_neg hi]
      show _ = _ * rootMom p (d.rij c) (S.r c) (ρ r) (pq (baseR e d c) ((if ibase e then d.rj else d.ri) c) b a)
      unfold baseR
      simp only [if_neg hi]
      unfold rootMom
      rw [moment_pq_comm]

/-- the integral of a polynomial times Gaussian with the potential of a charge distribution -/
theorem int_pg_potential {p : ℝ} (hp : 0 < p) (ζ : ℝ) (P c : Fin 3 → ℝ) (q : Fin 3 → ℝ[X]) :
    Integrable (fun r => pg p P q r * potential ζ c r) ∧
    ∫ r, pg p P q r * potential ζ c r = 2 * Real.pi / p * nucTau p ζ *
      ∫ t in (0:ℝ)..1, (∏ k, ((red p (P k) (c k) (q k)).comp (C (nucTau p ζ^2) * X)).eval (t^2)) *
        Real.exp (-(p * nucTau p ζ^2 * ∑ k, (P k - c k)^2)*t^2) := by
  obtain ⟨h0, h1⟩ := nucTau_bounds hp ζ
  have hae : ∀ᵐ r : Fin 3 → ℝ, potential ζ c r = 2 / Real.sqrt Real.pi * potT p (nucTau p ζ) c r := by
    unfold nucTau
    by_cases hζ : 0 < ζ
    · rw [if_pos hζ]
      exact Filter.Eventually.of_forall fun r => (potT_gauss hp hζ c r).symm
    · rw [if_neg hζ]
      filter_upwards [potT_point_ae hp c] with r hr
      rw [← hr]
      unfold potential
      rw [if_neg hζ]
  obtain ⟨hi, hv⟩ := int_pg_potT hp h0 h1 P c q
  have hae2 : (fun r => pg p P q r * potential ζ c r) =ᵐ[volume] fun r => 2 / Real.sqrt Real.pi * (pg p P q r * potT p (nucTau p ζ) c r) := by
    filter_upwards [hae] with r hr
    rw [hr]; ring
  refine ⟨(hi.const_mul _).congr hae2.symm, ?_⟩
  rw [integral_congr_ae hae2, integral_const_mul, hv]
  have e : ∀ t : ℝ, Real.exp (-(p*(nucTau p ζ^2*t^2)) * ∑ k, (P k - c k)^2) * ∏ k, (red p (P k) (c k) (q k)).eval (nucTau p ζ^2*t^2) =
      (∏ k, ((red p (P k) (c k) (q k)).comp (C (nucTau p ζ^2) * X)).eval (t^2)) *
        Real.exp (-(p * nucTau p ζ^2 * ∑ k, (P k - c k)^2)*t^2) := by
    intro t
    simp only [eval_comp, eval_mul, eval_C, eval_X]
    rw [mul_comm]
    congr 2
    ring
  simp_rw [e]
  have hk : 2 / Real.sqrt Real.pi * (Real.sqrt p * Real.sqrt (Real.pi/p)^3) = 2 * Real.pi / p := by
    have h1 : 0 < Real.sqrt p := Real.sqrt_pos.2 hp
    have h2 : 0 < Real.sqrt Real.pi := Real.sqrt_pos.2 Real.pi_pos
    have h3 : Real.sqrt p ^ 2 = p := Real.sq_sqrt hp.le
    have h4 : Real.sqrt Real.pi ^ 2 = Real.pi := Real.sq_sqrt Real.pi_pos.le
    rw [Real.sqrt_div Real.pi_pos.le]
    rw [show (2:ℝ) * Real.pi / p = 2 * Real.sqrt Real.pi^2 / Real.sqrt p^2 by rw [h3, h4]]
    field_simp
  generalize (∫ t in (0:ℝ)..1, (∏ k, ((red p (P k) (c k) (q k)).comp (C (nucTau p ζ^2) * X)).eval (t^2)) *
        Real.exp (-(p * nucTau p ζ^2 * ∑ k, (P k - c k)^2)*t^2)) = I
  linear_combination (nucTau p ζ * I) * hk

/-- Rys quadrature gives the integral with the potential -/
theorem quad_potential {p : ℝ} (hp : 0 < p) (ζ : ℝ) (P c : Fin 3 → ℝ) (q : Fin 3 → ℝ[X]) {n : ℕ} {u w : ℕ → ℝ}
    (hq : ∑ k, (q k).natDegree < 2*n) (H : RysExact n (p * nucTau p ζ^2 * ∑ k, (P k - c k)^2) u w) :
    ∫ r, pg p P q r * potential ζ c r = 2 * Real.pi / p * nucTau p ζ *
      ∑ r ∈ Finset.range n, w r * ∏ k, rootMom p (P k) (c k) (rootRho (nucTau p ζ) (u r)) (q k) := by
  obtain ⟨h0, h1⟩ := nucTau_bounds hp ζ
  rw [(int_pg_potential hp ζ P c q).2]
  congr 1
  let F : ℝ[X] := ∏ k, (red p (P k) (c k) (q k)).comp (C (nucTau p ζ^2) * X)
  have hF : F.natDegree < 2*n := by
    refine lt_of_le_of_lt ?_ hq
    refine (natDegree_prod_le _ _).trans (Finset.sum_le_sum fun k _ => ?_)
    refine natDegree_comp_le.trans ?_
    have h2 : (C (nucTau p ζ^2) * X : ℝ[X]).natDegree ≤ 1 := by
      refine (natDegree_C_mul_le _ _).trans ?_
      simp
    calc _ ≤ (red p (P k) (c k) (q k)).natDegree * 1 := Nat.mul_le_mul_left _ h2
      _ ≤ _ := by rw [Nat.mul_one]; exact red_degree _ _ _ _
  have := H.sum_eq F hF
  have e : ∀ y : ℝ, F.eval y = ∏ k, ((red p (P k) (c k) (q k)).comp (C (nucTau p ζ^2) * X)).eval y := fun y => eval_prod _ _ _
  simp_rw [e] at this
  rw [← this]
  refine Finset.sum_congr rfl (fun r hr => ?_)
  rw [Finset.mem_range] at hr
  congr 1
  refine Finset.prod_congr rfl (fun k _ => ?_)
  rw [rootMom_red hp (rootRho_lt h0 h1 (H.nonneg r hr))]
  simp only [eval_comp, eval_mul, eval_C, eval_X]
  congr 1
  unfold rootRho
  ring

theorem nucX_eq (p τ : ℝ) (P c : Nat → ℝ) : nucX p τ P c = p * τ^2 * ∑ k : Fin 3, (P k - c k)^2 := by
  unfold nucX
  rw [Fin.sum_univ_three]
  simp only [Fin.val_zero, Fin.val_one, Fin.val_two]
  ring

theorem pq_natDegree (A B : ℝ) (i j : ℕ) : (pq A B i j).natDegree ≤ i + j := by
  unfold pq
  refine natDegree_mul_le.trans (Nat.add_le_add ?_ ?_)
  · refine natDegree_pow_le.trans ?_
    rw [natDegree_X_sub_C, Nat.mul_one]
  · refine natDegree_pow_le.trans ?_
    rw [natDegree_X_sub_C, Nat.mul_one]

/-- CINTgout1e_nuc multiplies the three factors and adds up the roots -/
theorem gout1eNuc_wp {α : Type} [Field α] {nf R : Nat} {idx g gout : Ptr} {e : Int} {T : Ptr → Option Int} {ad : Nat → Nat → Nat}
    {x : Nat → Nat → Nat → α} {u : Nat → α} {h : Heap α}
    (hR : RO T h) (hT : IdxT T idx nf ad) (ha : AllocD h gout nf)
    (hE : e = 0 → HoldsD h gout nf u)
    (hg : ∀ n c r, n < nf → c < 3 → r < R → ¬ Blk gout nf (g + ad c n + r))
    (hx : ∀ n c r, n < nf → c < 3 → r < R → h.D (g + ad c n + r) = .val (x c n r)) :
    wp (gout1eNuc nf R idx g gout e) (fun _ h' =>
      HoldsD h' gout nf (fun m => if e = 0 then u m + ∑ r ∈ Finset.range R, x 0 m r * x 1 m r * x 2 m r
        else ∑ r ∈ Finset.range R, x 0 m r * x 1 m r * x 2 m r) ∧
      AgreeD h h' (Blk gout nf) ∧ h'.I = h.I) h := by
  have := goutLoop_wp (nf := nf) (nc := 1) (idx := idx) (gout := gout) (e := e)
    (comp := fun ix iy iz => accRoots (fun i => do
      let x ← ld (g + ix + i)
      let y ← ld (g + iy + i)
      let z ← ld (g + iz + i)
      pure fun _ => x*y*z) R) (val := fun n _ => ∑ r ∈ Finset.range R, x 0 n r * x 1 n r * x 2 n r) (u := u) hR hT
    (by rwa [Nat.mul_one]) (by rwa [Nat.mul_one]) ?_
  · simp only [Nat.mul_one, Nat.div_one] at this
    exact this
  · intro n hn h' hag hI
    have hv : ∀ c r, c < 3 → r < R → h'.D (g + ad c n + r) = .val (x c n r) := by
      intro c r hc hr
      rw [hag _ (by rw [Nat.mul_one]; exact hg n c r hn hc hr)]
      exact hx n c r hn hc hr
    refine accRoots_wp (x := fun r _ => x 0 n r * x 1 n r * x 2 n r) R (fun r hr => ?_)
    simp only [wp_mbind, wp_ld, wp_pure]
    exact ⟨_, hv 0 r (by omega) hr, _, hv 1 r (by omega) hr, _, hv 2 r (by omega) hr, True.intro, fun _ _ => rfl⟩

/-- the nuclear attraction evaluator of one centre meets the requirements of the loops -/
theorem nuc_kernel {R : Rys ℝ} {e : EnvG} {d : G1 ℝ} {S : Src ℝ} {g idx : Ptr} {leng : Nat} {T : Ptr → Option Int}
    (B : BaseOK e) (hl : 3 * e.g_size ≤ leng) (hp : 0 < d.ai + d.aj)
    (hS : SlabOK2 e e.li_ceil e.lj_ceil e.nrys_roots) (hi : e.i_l ≤ e.li_ceil) (hj : e.j_l ≤ e.lj_ceil)
    (hnfi : e.nfi = ncart e.i_l) (hnfj : e.nfj = ncart e.j_l) (hro : e.i_l + e.j_l < 2 * e.nrys_roots)
    (hT : IdxT T idx (e.nfj*e.nfi) (adr2 e))
    (hR : RysExact e.nrys_roots (nucX (d.ai + d.aj) (nucTau (d.ai + d.aj) S.zeta) d.rij S.r)
      (R.u e.nrys_roots (nucX (d.ai + d.aj) (nucTau (d.ai + d.aj) S.zeta) d.rij S.r))
      (R.w e.nrys_roots (nucX (d.ai + d.aj) (nucTau (d.ai + d.aj) S.zeta) d.rij S.r))) :
    KernelSpec T (g1eNuc R realK e d S g) (fun _ gout em => gout1eNuc (e.nfj*e.nfi) e.nrys_roots idx g gout em)
      (Blk g leng) (e.nfj*e.nfi) true (fun n => S.q * ∫ r, pg (d.ai + d.aj) (fun k => d.rij k)
        (fun k => pq (d.ri k) (d.rj k) (pw e.i_l k (n % e.nfi)) (pw e.j_l k (n / e.nfi))) r *
          potential S.zeta (fun k => S.r k) r) := by
  intro fac gout em u h hRO hGs hA hd hE
  let p := d.ai + d.aj
  let τ := nucTau p S.zeta
  let x := nucX p τ d.rij S.r
  have hpos : ∀ n, n < e.nfj*e.nfi → n % e.nfi < e.nfi ∧ n / e.nfi < e.nfj := by
    intro n hn
    have : 0 < e.nfi := by
      rcases Nat.eq_zero_or_pos e.nfi with h0 | h0
      · rw [h0, Nat.mul_zero] at hn; omega
      · exact h0
    exact ⟨Nat.mod_lt _ this, (Nat.div_lt_iff_lt_mul this).2 hn⟩
  have hadr : ∀ n c r, g + adr2 e c n + r = gAx g e c (slab2 e (pw e.i_l c (n % e.nfi)) (pw e.j_l c (n / e.nfi)) r) := by
    intro n c r
    rw [Ptr.add_assoc]
    unfold adr2 gAx slab2
    congr 1
    omega
  have hpw : ∀ n c, n < e.nfj*e.nfi → pw e.i_l c (n % e.nfi) ≤ e.li_ceil ∧ pw e.j_l c (n / e.nfi) ≤ e.lj_ceil := by
    intro n c hn
    obtain ⟨h1, h2⟩ := hpos n hn
    rw [hnfi] at h1; rw [hnfj] at h2
    have a1 := pw_le (c := c) h1
    have a2 := pw_le (c := c) h2
    rw [← hnfi] at a1
    exact ⟨by omega, by omega⟩
  have hin : ∀ n c r, n < e.nfj*e.nfi → c < 3 → r < e.nrys_roots → Blk g leng (g + adr2 e c n + r) := by
    intro n c r hn hc hr
    rw [hadr]
    refine ⟨_, ?_, rfl⟩
    obtain ⟨a1, a2⟩ := hpw n c hn
    have := radix_lt hc (hS.range _ _ r a1 a2 hr)
    omega
  refine wp_mono (nuc_table B hl hGs hp rfl rfl (fun r hr => hR.nonneg r hr)) ?_
  rintro r h1 ⟨hr, hal, hag, hI, hT1⟩
  refine ⟨hr, hag, hI, fun _ => ?_⟩
  have hne : ∀ {q}, Blk gout (e.nfj*e.nfi) q → ¬ Blk g leng q := by
    rintro q ⟨i, hi, rfl⟩; exact hd i hi
  refine wp_mono (gout1eNuc_wp (T := T) (ad := adr2 e) (u := u)
    (x := fun c n r => nucFac (fun r => R.w e.nrys_roots x r * (2 * Real.pi * S.q * fac * τ / p)) c r *
          rootMom p (d.rij c) (S.r c) (rootRho τ (R.u e.nrys_roots x r)) (pq (d.ri c) (d.rj c)
      (pw e.i_l c (n % e.nfi)) (pw e.j_l c (n / e.nfi)))) ?_ hT ?_ ?_ ?_ ?_) ?_
  · intro q x hq; rw [hI]; exact hRO q x hq
  · intro i hi; rw [hag _ (hd i hi)]; exact hA i hi
  · intro he i hi; rw [hag _ (hd i hi)]; exact hE he i hi
  · intro n c r hn hc hr hb; exact hne hb (hin n c r hn hc hr)
  · intro n c r hn hc hr
    rw [hadr]
    obtain ⟨a1, a2⟩ := hpw n c hn
    exact hT1 c _ _ r hc a1 a2 hr
  · rintro _ h2 ⟨H2, hag2, hI2⟩
    refine ⟨?_, ?_, by rw [hI2, hI]⟩
    · intro n hn
      rw [H2 n hn]
      obtain ⟨q1, q2⟩ := hpos n hn
      rw [hnfi] at q1; rw [hnfj] at q2
      have hdeg : ∑ k : Fin 3, (pq (d.ri k) (d.rj k) (pw e.i_l k (n % e.nfi)) (pw e.j_l k (n / e.nfi))).natDegree < 2 * e.nrys_roots := by
        refine lt_of_le_of_lt (Finset.sum_le_sum fun k _ => pq_natDegree _ _ _ _) ?_
        rw [Fin.sum_univ_three]
        have s1 := psum q1
        have s2 := psum q2
        rw [← hnfi] at s1
        simp only [Fin.val_zero, Fin.val_one, Fin.val_two]
        show px e.i_l _ + px e.j_l _ + (py e.i_l _ + py e.j_l _) + (pz e.i_l _ + pz e.j_l _) < _
        omega
      have hq := quad_potential hp S.zeta (fun k => d.rij k) (fun k => S.r k)
        (fun k => pq (d.ri k) (d.rj k) (pw e.i_l k (n % e.nfi)) (pw e.j_l k (n / e.nfi))) (n := e.nrys_roots) (u := R.u e.nrys_roots x) (w := R.w e.nrys_roots x) hdeg
        (by rw [← nucX_eq]; exact hR)
      have hval : (∑ r ∈ Finset.range e.nrys_roots,
          nucFac (fun r => R.w e.nrys_roots x r * (2 * Real.pi * S.q * fac * τ / p)) 0 r *
            rootMom p (d.rij 0) (S.r 0) (rootRho τ (R.u e.nrys_roots x r)) (pq (d.ri 0) (d.rj 0) (pw e.i_l 0 (n % e.nfi)) (pw e.j_l 0 (n / e.nfi))) *
          (nucFac (fun r => R.w e.nrys_roots x r * (2 * Real.pi * S.q * fac * τ / p)) 1 r *
            rootMom p (d.rij 1) (S.r 1) (rootRho τ (R.u e.nrys_roots x r)) (pq (d.ri 1) (d.rj 1) (pw e.i_l 1 (n % e.nfi)) (pw e.j_l 1 (n / e.nfi)))) *
          (nucFac (fun r => R.w e.nrys_roots x r * (2 * Real.pi * S.q * fac * τ / p)) 2 r *
            rootMom p (d.rij 2) (S.r 2) (rootRho τ (R.u e.nrys_roots x r)) (pq (d.ri 2) (d.rj 2) (pw e.i_l 2 (n % e.nfi)) (pw e.j_l 2 (n / e.nfi))))) =
          fac * (S.q * ∫ r, pg p (fun k => d.rij k)
            (fun k => pq (d.ri k) (d.rj k) (pw e.i_l k (n % e.nfi)) (pw e.j_l k (n / e.nfi))) r * potential S.zeta (fun k => S.r k) r) := by
        rw [hq, Finset.mul_sum, Finset.mul_sum, Finset.mul_sum]
        refine Finset.sum_congr rfl (fun r _ => ?_)
        rw [Fin.prod_univ_three]
        unfold nucFac
        simp only [show ¬ (0 = 2) by decide, show ¬ (1 = 2) by decide, if_false, if_true, Fin.val_zero, Fin.val_one, Fin.val_two]
        generalize R.w e.nrys_roots x r = W
        generalize rootMom p (d.rij 0) _ _ _ = m0
        generalize rootMom p (d.rij 1) _ _ _ = m1
        generalize rootMom p (d.rij 2) _ _ _ = m2
        show 1 * m0 * (1 * m1) * (W * (2 * Real.pi * S.q * fac * τ / p) * m2) = fac * (S.q * (2 * Real.pi / p * τ * (W * (m0 * m1 * m2))))
        generalize τ = t
        generalize p = p'
        ring
      refine congrArg Cell.val ?_
      split
      · exact congrArg (u n + ·) hval
      · exact hval
    · exact hag.trans hag2 (fun q hq => Or.inl hq) (fun q hq => Or.inr hq)

end Verif.Lemmas
