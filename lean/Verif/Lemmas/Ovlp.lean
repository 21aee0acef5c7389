import Verif.Lemmas.Gout
import Mathlib.Analysis.SpecialFunctions.Sqrt

/-! Overlap intermediates are Gaussian moments. -/
namespace Verif.Lemmas
open Verif Verif.Model Verif.Prog Verif.Props

/-- the constants of the program in exact arithmetic -/
noncomputable def realK : Consts ℝ := ⟨Real.pi, Real.sqrt Real.pi, Real.sqrt⟩

/-- the factor carried by the slab of each direction -/
noncomputable def slabFac (fac p : ℝ) (c : Nat) : ℝ :=
  (if c = 2 then fac * Real.sqrt Real.pi * Real.pi / (p * Real.sqrt p) else 1) / Real.sqrt (Real.pi/p)

theorem slabFac_prod {fac p : ℝ} (hp : 0 < p) : slabFac fac p 0 * slabFac fac p 1 * slabFac fac p 2 = fac := by
  unfold slabFac
  have h1 : 0 < Real.sqrt p := Real.sqrt_pos.2 hp
  have h2 : 0 < Real.sqrt Real.pi := Real.sqrt_pos.2 Real.pi_pos
  have h3 : Real.sqrt p * Real.sqrt p = p := Real.mul_self_sqrt hp.le
  have h4 : Real.sqrt Real.pi * Real.sqrt Real.pi = Real.pi := Real.mul_self_sqrt Real.pi_pos.le
  rw [Real.sqrt_div Real.pi_pos.le]
  simp only [show ¬ (0 = 2) by decide, show ¬ (1 = 2) by decide, if_false, if_true]
  field_simp
  rw [show Real.sqrt Real.pi ^ 2 = Real.sqrt Real.pi * Real.sqrt Real.pi by ring, h4,
    show Real.sqrt p ^ 2 = Real.sqrt p * Real.sqrt p by ring, h3]
  try field_simp

/-- CINTg1e_ovlp: every intermediate is the moment of the product Gaussian -/
theorem ovlp_table {e : EnvG} {d : G1 ℝ} {g : Ptr} {fac : ℝ} {leng : Nat} {h : Heap ℝ}
    (B : BaseOK e) (hl : 3 * e.g_size ≤ leng) (ha : ∀ q, Blk g leng q → h.D q ≠ .oob)
    (hp : 0 < d.ai + d.aj) :
    wp (g1eOvlp realK e d g fac) (fun r h1 => r = true ∧ (∀ q, Blk g leng q → h1.D q ≠ .oob) ∧
      AgreeD h h1 (Blk g leng) ∧ h1.I = h.I ∧
      TabAB h1 g e e.li_ceil e.lj_ceil (fun c a b =>
        slabFac fac (d.ai + d.aj) c * moment (d.ai + d.aj) (d.rij c) (pq (d.ri c) (d.rj c) a b))) h := by
  let p := d.ai + d.aj
  let X : Nat → ℝ := baseR e d
  let Y : Nat → ℝ := if ibase e then d.rj else d.ri
  have hs : 0 < Real.sqrt (Real.pi/p) := Real.sqrt_pos.2 (div_pos Real.pi_pos hp)
  let z : Nat → ℝ := fun c => slabFac fac p c * Real.sqrt (Real.pi/p)
  let E : Nat → Nat → Nat → ℝ := fun c i j => moment p (d.rij c) (pq (X c) (Y c) i j) / Real.sqrt (Real.pi/p)
  have hz : ∀ c, z c = (if c = 2 then fac * Real.sqrt Real.pi * Real.pi / (p * Real.sqrt p) else 1) := by
    intro c
    show slabFac fac p c * _ = _
    unfold slabFac
    rw [div_mul_cancel₀ _ hs.ne']
  have hpq0 : ∀ (A C : ℝ) (i : ℕ), pq A C i 0 = (Polynomial.X - Polynomial.C A)^i := by
    intro A C i; unfold pq; rw [pow_zero, mul_one]
  have hE0 : ∀ c i, E c i 0 = moment p (d.rij c) ((Polynomial.X - Polynomial.C (X c))^i) / Real.sqrt (Real.pi/p) := by
    intro c i
    show moment p (d.rij c) (pq (X c) (Y c) i 0) / _ = _
    rw [hpq0]
  refine wp_mono (g1eOvlp_wp (z := z) (E := E) B hl ha ?_ ?_ ?_ ?_ ?_ ?_) ?_
  · rw [hz]; simp
  · rw [hz]; simp
  · rw [hz, if_pos rfl]; rfl
  · intro c _
    rw [hE0, pow_zero, moment_one]
    exact div_self hs.ne'
  · intro c i _
    rw [hE0, hE0, hE0, moment_vrr hp]
    have : (1:ℝ)/2/(d.ai + d.aj) = 1/(2*p) := by rw [div_div]
    rw [this]
    show _ = _ * _ * (_ / _) + (d.rij c - X c) * (_ / _)
    ring
  · intro c i j _
    show moment p (d.rij c) (pq (X c) (Y c) i (j+1)) / _ = moment p (d.rij c) (pq (X c) (Y c) (i+1) j) / _ +
      rirj e d c * (moment p (d.rij c) (pq (X c) (Y c) i j) / _)
    rw [moment_hrr hp]
    have : rirj e d c = X c - Y c := by
      show rirj e d c = baseR e d c - (if ibase e then d.rj else d.ri) c
      unfold rirj baseR
      by_cases hi : ibase e
      · simp only [if_pos hi]
      · simp only [if_neg hi]
    rw [this]
    ring
  · rintro r h1 ⟨hr, T⟩
    refine ⟨hr, T.alloc, T.frame, T.int, tabAB_of_base (w := fun c i j => z c * E c i j) T ?_⟩
    intro c a b _
    have hzE : ∀ i j, z c * E c i j = slabFac fac p c * moment p (d.rij c) (pq (X c) (Y c) i j) := by
      intro i j
      show slabFac fac p c * Real.sqrt (Real.pi/p) * (moment p (d.rij c) (pq (X c) (Y c) i j) / Real.sqrt (Real.pi/p)) = _
      field_simp
    rw [hzE, hzE]
    by_cases hi : ibase e
    · rw [if_pos hi]
      show slabFac fac p c * moment p (d.rij c) (pq (d.ri c) (d.rj c) a b) =
        slabFac fac p c * moment p (d.rij c) (pq (baseR e d c) ((if ibase e then d.rj else d.ri) c) a b)
      unfold baseR
      simp only [if_pos hi]
    · rw [if_neg hi]
      show slabFac fac p c * moment p (d.rij c) (pq (d.ri c) (d.rj c) a b) =
        slabFac fac p c * moment p (d.rij c) (pq (baseR e d c) ((if ibase e then d.rj else d.ri) c) b a)
      unfold baseR
      simp only [if_neg hi]
      rw [moment_pq_comm]

/-- address of direction `c` of pair `n = j*nfi + i` -/
def adr2 (e : EnvG) (c n : Nat) : Nat :=
  c*e.g_size + slab2 e (Spec.pw e.i_l c (n % e.nfi)) (Spec.pw e.j_l c (n / e.nfi)) 0

/-- the overlap evaluator meets the requirements of the loops -/
theorem ovlp_kernel {e : EnvG} {d : G1 ℝ} {g idx : Ptr} {leng : Nat} {T : Ptr → Option Int}
    (B : BaseOK e) (hl : 3 * e.g_size ≤ leng) (hp : 0 < d.ai + d.aj)
    (hS : SlabOK2 e e.li_ceil e.lj_ceil 1) (hi : e.i_l ≤ e.li_ceil) (hj : e.j_l ≤ e.lj_ceil)
    (hnfi : e.nfi = Spec.ncart e.i_l) (hnfj : e.nfj = Spec.ncart e.j_l)
    (hT : IdxT T idx (e.nfj*e.nfi) (adr2 e)) :
    KernelSpec T (g1eOvlp realK e d g) (fun _ gout em => gout1e (e.nfj*e.nfi) idx g gout em)
      (Blk g leng) (e.nfj*e.nfi) true (fun n => ∏ c ∈ Finset.range 3,
        moment (d.ai + d.aj) (d.rij c) (pq (d.ri c) (d.rj c) (Spec.pw e.i_l c (n % e.nfi))
          (Spec.pw e.j_l c (n / e.nfi)))) := by
  intro fac gout em u h hR hGs hA hd hE
  have hpos : ∀ n, n < e.nfj*e.nfi → n % e.nfi < e.nfi ∧ n / e.nfi < e.nfj := by
    intro n hn
    have : 0 < e.nfi := by
      rcases Nat.eq_zero_or_pos e.nfi with h0 | h0
      · rw [h0, Nat.mul_zero] at hn; omega
      · exact h0
    exact ⟨Nat.mod_lt _ this, (Nat.div_lt_iff_lt_mul this).2 hn⟩
  have hin : ∀ n c, n < e.nfj*e.nfi → c < 3 → Blk g leng (g + adr2 e c n) := by
    intro n c hn hc
    obtain ⟨h1, h2⟩ := hpos n hn
    rw [hnfi] at h1; rw [hnfj] at h2
    refine ⟨_, ?_, rfl⟩
    have a1 := pw_le (c := c) h1
    have a2 := pw_le (c := c) h2
    rw [← hnfi] at a1
    have := radix_lt hc (hS.range (Spec.pw e.i_l c (n % e.nfi)) (Spec.pw e.j_l c (n / e.nfi)) 0
      (by omega) (by omega) (by omega))
    unfold adr2; omega
  refine wp_mono (ovlp_table B hl hGs hp) ?_
  rintro r h1 ⟨hr, hal, hag, hI, hT1⟩
  refine ⟨hr, hag, hI, fun _ => ?_⟩
  have hne : ∀ {q}, Blk gout (e.nfj*e.nfi) q → ¬ Blk g leng q := by
    rintro q ⟨i, hi, rfl⟩; exact hd i hi
  refine wp_mono (gout1e_wp (T := T) (ad := adr2 e) (u := u)
    (x := fun c n => slabFac fac (d.ai+d.aj) c * moment (d.ai + d.aj) (d.rij c) (pq (d.ri c) (d.rj c)
      (Spec.pw e.i_l c (n % e.nfi)) (Spec.pw e.j_l c (n / e.nfi)))) ?_ hT ?_ ?_ ?_ ?_) ?_
  · intro q x hq; rw [hI]; exact hR q x hq
  · intro i hi; rw [hag _ (hd i hi)]; exact hA i hi
  · intro he i hi; rw [hag _ (hd i hi)]; exact hE he i hi
  · intro n c hn hc hb; exact hne hb (hin n c hn hc)
  · intro n c hn hc
    obtain ⟨q1, q2⟩ := hpos n hn
    have q1' := q1; have q2' := q2
    rw [hnfi] at q1; rw [hnfj] at q2
    have a1 := pw_le (c := c) q1
    have a2 := pw_le (c := c) q2
    rw [← hnfi] at a1
    exact hT1 c _ _ hc (by omega) (by omega)
  · rintro _ h2 ⟨H2, hag2, hI2⟩
    refine ⟨?_, ?_, by rw [hI2, hI]⟩
    · intro n hn
      rw [H2 n hn]
      have : ∀ x0 x1 x2 : ℝ, slabFac fac (d.ai+d.aj) 0 * x0 * (slabFac fac (d.ai+d.aj) 1 * x1) *
          (slabFac fac (d.ai+d.aj) 2 * x2) = fac * (x0 * x1 * x2) := by
        intro x0 x1 x2
        rw [← slabFac_prod (fac := fac) hp]
        rw [slabFac_prod (fac := fac) hp]
        have := slabFac_prod (fac := fac) hp
        linear_combination x0*x1*x2*this
      simp only [this, Finset.prod_range_succ, Finset.prod_range_zero, one_mul]
    · exact hag.trans hag2 (fun q hq => Or.inl hq) (fun q hq => Or.inr hq)

end Verif.Lemmas
