import Verif.Lemmas.G4c1e
import Verif.Lemmas.Kern3c1e
import Verif.Lemmas.DrvOut2

/-! One-electron four-centre integrals: the evaluator of a primitive. -/
namespace Verif.Lemmas
open Verif Verif.Model Verif.Prog Verif.Props Verif.Spec MeasureTheory Polynomial

/-- centre of the product of the four Gaussians -/
noncomputable def ctr4 (d : G2 ℝ) (c : Nat) : ℝ :=
  ((d.ai + d.aj) * d.rij c + (d.ak + d.al) * d.rkl c) / (d.ai + d.aj + (d.ak + d.al))

/-- the one-dimensional integrals -/
noncomputable def ovE (d : G2 ℝ) (z : ℝ) (c i j k l _r : Nat) : ℝ :=
  (if c = 2 then z else 1) * rootMom (d.ai + d.aj + (d.ak + d.al)) (ctr4 d c) 0 0
    (pq (d.ri c) (d.rj c) i j * pq (d.rk c) (d.rl c) k l)

section
variable {d : G2 ℝ} (hp : 0 < d.ai + d.aj + (d.ak + d.al)) (z : ℝ)
include hp

theorem ovE_hrr : Hrr4 d (ovE d z) := by
  constructor
  · intro c i j k l r _
    have : pq (d.ri c) (d.rj c) i (j+1) * pq (d.rk c) (d.rl c) k l =
        pq (d.ri c) (d.rj c) (i+1) j * pq (d.rk c) (d.rl c) k l +
          C (d.ri c - d.rj c) * (pq (d.ri c) (d.rj c) i j * pq (d.rk c) (d.rl c) k l) := by
      unfold pq; rw [C_sub]; ring
    unfold ovE
    rw [this, rootMom_add hp zero_lt_one, rootMom_C_mul]
    ring
  · intro c i j k l r _
    have : pq (d.ri c) (d.rj c) i j * pq (d.rk c) (d.rl c) k (l+1) =
        pq (d.ri c) (d.rj c) i j * pq (d.rk c) (d.rl c) (k+1) l +
          C (d.rk c - d.rl c) * (pq (d.ri c) (d.rj c) i j * pq (d.rk c) (d.rl c) k l) := by
      unfold pq; rw [C_sub]; ring
    unfold ovE
    rw [this, rootMom_add hp zero_lt_one, rootMom_C_mul]
    ring

omit hp in
theorem ovE_base (e : EnvG) (c n m r : Nat) : baseF e (ovE d z) c n m r = (if c = 2 then z else 1) *
    rootMom (d.ai + d.aj + (d.ak + d.al)) (ctr4 d c) 0 0 ((X - C (rxij e d c))^n * (X - C (rxkl e d c))^m) := by
  unfold baseF ovE rxij rxkl pq
  by_cases hi : ibase e <;> by_cases hk : kbase e <;> simp [hi, hk]

theorem ovE_zero (c : Nat) : ovE d z c 0 0 0 0 0 = if c = 2 then z else 1 := by
  unfold ovE
  have : pq (d.ri c) (d.rj c) 0 0 * pq (d.rk c) (d.rl c) 0 0 = pq3 0 0 0 0 0 0 := by unfold pq pq3; simp
  rw [this, (rootMom_pq3 hp zero_lt_one _ _ _ _ _).1, mul_one]

theorem rootMom_up (c : Nat) (A : ℝ) (n : Nat) :
    rootMom (d.ai + d.aj + (d.ak + d.al)) (ctr4 d c) 0 0 ((X - C A)^(n+1)) =
      1/2 * (n:ℝ) / (d.ai + d.aj + (d.ak + d.al)) * rootMom (d.ai + d.aj + (d.ak + d.al)) (ctr4 d c) 0 0 ((X - C A)^(n-1)) -
        (A - ctr4 d c) * rootMom (d.ai + d.aj + (d.ak + d.al)) (ctr4 d c) 0 0 ((X - C A)^n) := by
  have := (rootMom_pq3 hp zero_lt_one (ctr4 d c) 0 0 A 0).2.1 n
  unfold pq3 at this
  simp only [pow_zero, mul_one, one_mul, sub_zero, zero_mul, add_zero] at this
  rw [this]
  ring

theorem ovE_up1 (e : EnvG) (c n : Nat) : baseF e (ovE d z) c (n+1) 0 0 =
    1/2 * (n:ℝ) / (d.ai + d.aj + (d.ak + d.al)) * baseF e (ovE d z) c (n-1) 0 0 -
      (rxij e d c - ctr4 d c) * baseF e (ovE d z) c n 0 0 := by
  simp only [ovE_base, pow_zero, mul_one]
  rw [rootMom_up hp]
  ring

theorem ovE_up2 (e : EnvG) (c n : Nat) : baseF e (ovE d z) c 0 (n+1) 0 =
    1/2 * (n:ℝ) / (d.ai + d.aj + (d.ak + d.al)) * baseF e (ovE d z) c 0 (n-1) 0 -
      (rxkl e d c - ctr4 d c) * baseF e (ovE d z) c 0 n 0 := by
  simp only [ovE_base, pow_zero, one_mul]
  rw [rootMom_up hp]
  ring

theorem ovE_tr (e : EnvG) (c n m : Nat) : baseF e (ovE d z) c n (m+1) 0 =
    baseF e (ovE d z) c (n+1) m 0 + (rxij e d c - rxkl e d c) * baseF e (ovE d z) c n m 0 := by
  simp only [ovE_base]
  have : (X - C (rxij e d c))^n * (X - C (rxkl e d c))^(m+1) = (X - C (rxij e d c))^(n+1) * (X - C (rxkl e d c))^m +
      C (rxij e d c - rxkl e d c) * ((X - C (rxij e d c))^n * (X - C (rxkl e d c))^m) := by
    rw [C_sub]; ring
  rw [this, rootMom_add hp zero_lt_one, rootMom_C_mul]
  ring
end

/-- the polynomial factor of function `n` of the block -/
noncomputable def pol4 (e : EnvG) (d : G2 ℝ) (n : Nat) (k : Fin 3) : ℝ[X] :=
  pq (d.ri k) (d.rj k) (i4 e k n) (j4 e k n) * pq (d.rk k) (d.rl k) (k4 e k n) (l4 e k n)

/-- memory written by an evaluation -/
def Gs4 {α : Type} (s : Call2 α) (A : Arrays4c1e) (q : Ptr) : Prop := Blk A.g s.leng4 q ∨ Blk A.b (3 * bSize4 s.env4) q

/-- the evaluator gives `w` -/
def EvalOK4 {α : Type} [Field α] [LinearOrder α] (K : Consts α) (L : MathLib α) (s : Call2 α)
    (w : Nat → Nat → Nat → Nat → Nat → α) : Prop :=
  ∀ ip jp kp lp (A : Arrays4c1e) (T : Ptr → Option Int), ip < s.si.nprim → jp < s.sj.nprim → kp < s.sk.nprim →
    lp < s.sl.nprim → A.b.buf = A.g.buf → A.g.off + s.leng4 ≤ A.b.off →
    IdxT T A.idx s.env4.nf (adr4 s.env4 (i4 s.env4) (j4 s.env4) (k4 s.env4) (l4 s.env4)) →
    KernelSpec T ((s.quartet4 K L A).g0 ip jp kp lp) ((s.quartet4 K L A).gout ip jp kp lp) (Gs4 s A) s.env4.nf true
      (w ip jp kp lp)

/-- the contribution of a primitive per unit of the prefactor -/
noncomputable def w4c1e (L : MathLib ℝ) (s : Call2 ℝ) (ip jp kp lp n : Nat) : ℝ :=
  L.exp (-(s.eijkl4 ip jp kp lp)) * (1 / (Real.sqrt Real.pi * Real.pi) *
    ∫ r, pg (s.si.a ip + s.sj.a jp + (s.sk.a kp + s.sl.a lp)) (fun k => ctr4 (s.g4 ip jp kp lp) k)
      (pol4 s.env4 (s.g4 ip jp kp lp) n) r)

theorem pow4_le {e : EnvG} (hi : e.i_l ≤ e.li_ceil) (hj : e.j_l ≤ e.lj_ceil) (hk : e.k_l ≤ e.lk_ceil) (hl : e.l_l ≤ e.ll_ceil)
    (hnfi : e.nfi = ncart e.i_l) (hnfj : e.nfj = ncart e.j_l) (hnfk : e.nfk = ncart e.k_l) (hnfl : e.nfl = ncart e.l_l)
    (hnf : e.nf = e.nfi * e.nfk * e.nfl * e.nfj) {n : Nat} (hn : n < e.nf) (c : Nat) :
    i4 e c n ≤ e.li_ceil ∧ j4 e c n ≤ e.lj_ceil ∧ k4 e c n ≤ e.lk_ceil ∧ l4 e c n ≤ e.ll_ceil := by
  have p1 : 0 < e.nfi := by rw [hnfi]; exact ncart_pos _
  have p2 : 0 < e.nfk := by rw [hnfk]; exact ncart_pos _
  have p3 : 0 < e.nfl := by rw [hnfl]; exact ncart_pos _
  have b1 : n % e.nfi < ncart e.i_l := hnfi ▸ Nat.mod_lt _ p1
  have b2 : n / e.nfi % e.nfk < ncart e.k_l := hnfk ▸ Nat.mod_lt _ p2
  have b3 : n / e.nfi / e.nfk % e.nfl < ncart e.l_l := hnfl ▸ Nat.mod_lt _ p3
  have b4 : n / e.nfi / e.nfk / e.nfl < ncart e.j_l := by
    rw [← hnfj]
    refine (Nat.div_lt_iff_lt_mul p3).2 ((Nat.div_lt_iff_lt_mul p2).2 ((Nat.div_lt_iff_lt_mul p1).2 ?_))
    calc n < e.nf := hn
      _ = _ := by rw [hnf]; ring
  have a1 := pw_le (c := c) b1
  have a2 := pw_le (c := c) b2
  have a3 := pw_le (c := c) b3
  have a4 := pw_le (c := c) b4
  unfold i4 j4 k4 l4
  exact ⟨by omega, by omega, by omega, by omega⟩

theorem evalOK_4c1e {L : MathLib ℝ} {s : Call2 ℝ}
    (hp : ∀ ip jp kp lp, ip < s.si.nprim → jp < s.sj.nprim → kp < s.sk.nprim → lp < s.sl.nprim →
      0 < s.si.a ip + s.sj.a jp + (s.sk.a kp + s.sl.a lp)) :
    EvalOK4 realK L s (w4c1e L s) := by
  intro ip jp kp lp A T hip hjp hkp hlp hAb hAo hT fac gout em u h hRO hGs hA hd hE
  let e := s.env4
  let d := s.g4 ip jp kp lp
  let p := s.si.a ip + s.sj.a jp + (s.sk.a kp + s.sl.a lp)
  have hp0 : 0 < p := hp ip jp kp lp hip hjp hkp hlp
  have hp1 : 0 < d.ai + d.aj + (d.ak + d.al) := hp0
  have he : Shape4 e := shape4_int4c1e _ _ _ _ _
  have hl : 3 * e.g_size ≤ s.leng4 := by
    show _ ≤ e.g_size * 3 * (2^0 + 1)
    omega
  have hroot : e.nrys_roots = 1 := rfl
  have hpw : ∀ n c, n < e.nf → i4 e c n ≤ e.li_ceil ∧ j4 e c n ≤ e.lj_ceil ∧ k4 e c n ≤ e.lk_ceil ∧ l4 e c n ≤ e.ll_ceil :=
    fun n c hn => pow4_le (Nat.le_add_right _ _) (Nat.le_add_right _ _) (Nat.le_add_right _ _) (Nat.le_add_right _ _)
      rfl rfl rfl rfl rfl hn c
  let z := fac * L.exp (-(s.eijkl4 ip jp kp lp)) / (p * Real.sqrt p)
  show wp (do g4c1eOvlp realK e d A.g A.b (fac * L.exp (-(s.eijkl4 ip jp kp lp))); pure true) _ h
  rw [wp_mbind]
  have hdis : ∀ q : Ptr, (∃ n, n < 3 * bSize4 e ∧ q = A.b + n) → ¬ ∃ n, n < 3 * e.g_size ∧ q = A.g + n := by
    rintro q ⟨n, hn, rfl⟩ ⟨m, hm, hq⟩
    have : A.b.off + n = A.g.off + m := (Ptr.ext_iff'.1 hq).2
    omega
  refine wp_mono (g4c1eOvlp_wp (K := realK) (he := he) (E := ovE d z) hroot rfl hdis
    (fun n hn => hGs _ (Or.inl ⟨n, by omega, rfl⟩)) (fun n hn => hGs _ (Or.inr ⟨n, hn, rfl⟩)) (ovE_hrr hp1 z)
    (fun c _ => ovE_zero hp1 z c) (fun c n _ => ovE_up1 hp1 z e c n) (fun c n _ => ovE_up2 hp1 z e c n)
    (fun c n m _ => ovE_tr hp1 z e c n m)) ?_
  rintro _ h2 ⟨h1, a1, i1, T1⟩
  have a2 : AgreeD h h2 (Gs4 s A) := by
    refine AgreeD.trans a1 T1.frame (fun q hq => ?_) (fun q hq => ?_)
    · obtain ⟨n, hn, rfl⟩ := hq
      exact Or.inr ⟨n, hn, rfl⟩
    · obtain ⟨n, hn, rfl⟩ := hq
      exact Or.inl ⟨n, by omega, rfl⟩
  have i2 : h2.I = h.I := by rw [T1.int, i1]
  rw [wp_pure]
  refine ⟨rfl, a2, i2, fun _ => ?_⟩
  have hadr : ∀ n c, A.g + adr4 e (i4 e) (j4 e) (k4 e) (l4 e) c n =
      gAx A.g e c (slab4 e (i4 e c n) (j4 e c n) (k4 e c n) (l4 e c n) 0) := fun n c => rfl
  have hin : ∀ n c, n < e.nf → c < 3 → Gs4 s A (A.g + adr4 e (i4 e) (j4 e) (k4 e) (l4 e) c n) := by
    intro n c hn hc
    rw [hadr]
    obtain ⟨b1, b2, b3, b4⟩ := hpw n c hn
    have := radix_lt hc (slab4_lt he b1 b2 b3 b4 (r := 0) (by rw [hroot]; omega))
    exact Or.inl ⟨_, by omega, rfl⟩
  refine wp_mono (gout1e_wp (T := T) (ad := adr4 e (i4 e) (j4 e) (k4 e) (l4 e)) (u := u)
    (x := fun c n => ovE d z c (i4 e c n) (j4 e c n) (k4 e c n) (l4 e c n) 0) ?_ hT ?_ ?_ ?_ ?_) ?_
  · intro q x hq; rw [i2]; exact hRO q x hq
  · intro i hi; rw [a2 _ (hd i hi)]; exact hA i hi
  · intro he i hi; rw [a2 _ (hd i hi)]; exact hE he i hi
  · rintro n c hn hc ⟨i, hi, hb⟩
    exact hd i hi (by rw [← hb]; exact hin n c hn hc)
  · intro n c hn hc
    rw [hadr]
    obtain ⟨b1, b2, b3, b4⟩ := hpw n c hn
    exact cells4_val T1 hc b1 b2 b3 b4 (by rw [hroot]; omega)
  · rintro _ h3 ⟨H3, hag3, hI3⟩
    refine ⟨?_, a2.trans hag3 (fun q hq => Or.inl hq) (fun q hq => Or.inr hq), by rw [hI3, i2]⟩
    intro n hn
    rw [H3 n hn]
    have hval : ovE d z 0 (i4 e 0 n) (j4 e 0 n) (k4 e 0 n) (l4 e 0 n) 0 * ovE d z 1 (i4 e 1 n) (j4 e 1 n) (k4 e 1 n) (l4 e 1 n) 0 *
        ovE d z 2 (i4 e 2 n) (j4 e 2 n) (k4 e 2 n) (l4 e 2 n) 0 = fac * w4c1e L s ip jp kp lp n := by
      show _ = fac * (L.exp (-(s.eijkl4 ip jp kp lp)) * (1 / (Real.sqrt Real.pi * Real.pi) *
        ∫ r, pg p (fun k => ctr4 d k) (pol4 e d n) r))
      rw [integral_pg, Fin.prod_univ_three]
      have hsp : 0 < Real.sqrt p := Real.sqrt_pos.2 hp0
      have hsπ : 0 < Real.sqrt Real.pi := Real.sqrt_pos.2 Real.pi_pos
      have h3 : Real.sqrt p ^ 2 = p := Real.sq_sqrt hp0.le
      have h4 : Real.sqrt Real.pi ^ 2 = Real.pi := Real.sq_sqrt Real.pi_pos.le
      have : ∀ m0 m1 m2 : ℝ, 1 / (Real.sqrt Real.pi * Real.pi) * (m0 * m1 * m2) = 1/(p * Real.sqrt p) *
          (m0 / Real.sqrt (Real.pi/p) * (m1 / Real.sqrt (Real.pi/p)) * (m2 / Real.sqrt (Real.pi/p))) := by
        intro m0 m1 m2
        rw [Real.sqrt_div Real.pi_pos.le]
        field_simp
        rw [h3, h4]
      rw [this]
      simp only [← rootMom_zero _ (0:ℝ)]
      unfold ovE
      simp only [show ¬ (0 = 2) by decide, show ¬ (1 = 2) by decide, if_false, if_true, one_mul]
      show rootMom p (ctr4 d 0) 0 0 (pol4 e d n 0) * rootMom p (ctr4 d 1) 0 0 (pol4 e d n 1) *
        (z * rootMom p (ctr4 d 2) 0 0 (pol4 e d n 2)) = _
      show _ = fac * (L.exp (-(s.eijkl4 ip jp kp lp)) * (1/(p * Real.sqrt p) * (rootMom p (ctr4 d 0) 0 0 (pol4 e d n 0) *
        rootMom p (ctr4 d 1) 0 0 (pol4 e d n 1) * rootMom p (ctr4 d 2) 0 0 (pol4 e d n 2))))
      generalize rootMom p (ctr4 d 0) 0 0 _ = m0
      generalize rootMom p (ctr4 d 1) 0 0 _ = m1
      generalize rootMom p (ctr4 d 2) 0 0 _ = m2
      show m0 * m1 * (fac * L.exp (-(s.eijkl4 ip jp kp lp)) / (p * Real.sqrt p) * m2) = _
      ring
    refine congrArg Cell.val ?_
    split
    · exact congrArg (u n + ·) hval
    · exact hval

end Verif.Lemmas
