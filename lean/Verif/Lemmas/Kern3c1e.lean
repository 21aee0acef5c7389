import Verif.Lemmas.G3c1e
import Verif.Lemmas.Drv3c

/-! One-electron three-centre integrals: the evaluator of a primitive. -/
namespace Verif.Lemmas
open Verif Verif.Model Verif.Prog Verif.Props Verif.Spec MeasureTheory Polynomial

/-- position of direction `c` of function `n` -/
def adr3 (e : EnvG) (c n : Nat) : Nat := c * e.g_size + slab3 e (i4 e c n) (j4 e c n) (k4 e c n)

theorem pw_zero_shell (c : Nat) : pw 0 c 0 = 0 := by
  have : pw 0 c 0 ≤ 0 := pw_le (by decide)
  omega

theorem idxT_int3c1e {e : EnvG} (hl : e.l_l = 0) (hnl : e.nfl = 1) (hs : e.g_stride_i = 1) {idx : Ptr} {N : Nat}
    {T : Ptr → Option Int} (hT : ∀ k, k < 3*N → T (idx + k) = some (tblF e.nfi (g2eVal e) k)) :
    IdxT T idx N (adr3 e) := by
  intro n c hn hc
  rw [hT _ (by omega)]
  unfold tblF adr3 slab3 g2eVal i4 j4 k4
  rw [show (3*n+c)/3 = n by omega, show (3*n+c)%3 = c by omega, hl, hnl, hs, Nat.mod_one, pw_zero_shell]
  congr 1
  push_cast
  ring

section
variable {α : Type} [Field α]

/-- one evaluation of the intermediates followed by CINTgout1e -/
theorem rec_kernel {e : EnvG} {d : G2 α} {g idx : Ptr} {leng : Nat} {T : Ptr → Option Int} {κ a1 : α} {r0 : Nat → α}
    {E : Nat → Nat → Nat → Nat → α} {g0 : α → Prog α Bool}
    (hg0 : ∀ fac, g0 fac = (do g3c1eRec e d g (fac * κ) r0 a1; pure true))
    (H : Shape3 e) (hl : 3 * e.g_size ≤ leng) (hi : e.i_l ≤ e.li_ceil) (hj : e.j_l ≤ e.lj_ceil) (hk : e.k_l ≤ e.lk_ceil)
    (hnfi : e.nfi = ncart e.i_l) (hnfj : e.nfj = ncart e.j_l) (hnfk : e.nfk = ncart e.k_l) (hnfl : e.nfl = 1)
    (hnf : e.nf = e.nfi * e.nfj * e.nfk) (hT : IdxT T idx e.nf (adr3 e))
    (h00 : ∀ c, c < 3 → E c 0 0 0 = 1)
    (hv : ∀ c j, c < 3 → E c 0 (j+1) 0 = a1 * (j:α) * E c 0 (j-1) 0 - r0 c * E c 0 j 0)
    (hii : ∀ c i j, c < 3 → E c (i+1) j 0 = E c i (j+1) 0 - (d.ri c - d.rj c) * E c i j 0)
    (hkk : ∀ c i j k, c < 3 → E c i j (k+1) = E c i (j+1) k + (d.rj c - d.rk c) * E c i j k) :
    KernelSpec T g0 (fun _ gout em => gout1e e.nf idx g gout em) (Blk g leng) e.nf true
      (fun n => κ * (E 0 (i4 e 0 n) (j4 e 0 n) (k4 e 0 n) * E 1 (i4 e 1 n) (j4 e 1 n) (k4 e 1 n) *
        E 2 (i4 e 2 n) (j4 e 2 n) (k4 e 2 n))) := by
  intro fac gout em u h hRO hGs hA hd hE
  have hpw : ∀ n c, n < e.nf → i4 e c n ≤ e.li_ceil ∧ j4 e c n ≤ e.lj_ceil ∧ k4 e c n ≤ e.lk_ceil := by
    intro n c hn
    rw [hnf] at hn
    have pi : 0 < e.nfi := by
      rcases Nat.eq_zero_or_pos e.nfi with h0 | h0
      · rw [h0, Nat.zero_mul, Nat.zero_mul] at hn; omega
      · exact h0
    have pk : 0 < e.nfk := by
      rcases Nat.eq_zero_or_pos e.nfk with h0 | h0
      · rw [h0, Nat.mul_zero] at hn; omega
      · exact h0
    have b1 : n % e.nfi < ncart e.i_l := hnfi ▸ Nat.mod_lt _ pi
    have b2 : n / e.nfi % e.nfk < ncart e.k_l := hnfk ▸ Nat.mod_lt _ pk
    have b3 : n / e.nfi / e.nfk / e.nfl < ncart e.j_l := by
      rw [hnfl, Nat.div_one, ← hnfj]
      refine (Nat.div_lt_iff_lt_mul pk).2 ((Nat.div_lt_iff_lt_mul pi).2 ?_)
      calc n < e.nfi * e.nfj * e.nfk := hn
        _ = _ := by ring
    have a1 := pw_le (c := c) b1
    have a2 := pw_le (c := c) b2
    have a3 := pw_le (c := c) b3
    unfold i4 j4 k4
    exact ⟨by omega, by omega, by omega⟩
  have hin : ∀ n c, n < e.nf → c < 3 → Blk g leng (g + adr3 e c n) := by
    intro n c hn hc
    obtain ⟨x1, x2, x3⟩ := hpw n c hn
    exact keyAddr_mem (k := (c, i4 e c n, j4 e c n, k4 e c n)) (placesB H) hl hc ⟨x1, by dsimp only; omega, x3⟩
  rw [hg0, wp_mbind]
  refine wp_mono (g3c1eRec_wp (E := E) H hl hGs h00 hv hii hkk) ?_
  intro _ h1 T1
  rw [wp_pure]
  refine ⟨rfl, T1.frame, T1.int, fun _ => ?_⟩
  have hne : ∀ {q}, Blk gout e.nf q → ¬ Blk g leng q := by
    rintro q ⟨i, hi, rfl⟩; exact hd i hi
  refine wp_mono (gout1e_wp (T := T) (ad := adr3 e) (u := u)
    (x := fun c n => (if c = 2 then fac * κ else 1) * E c (i4 e c n) (j4 e c n) (k4 e c n)) ?_ hT ?_ ?_ ?_ ?_) ?_
  · intro q x hq; rw [T1.int]; exact hRO q x hq
  · intro i hi; rw [T1.frame _ (hd i hi)]; exact hA i hi
  · intro he i hi; rw [T1.frame _ (hd i hi)]; exact hE he i hi
  · intro n c hn hc hb; exact hne hb (hin n c hn hc)
  · intro n c hn hc
    obtain ⟨x1, x2, x3⟩ := hpw n c hn
    exact T1.val (c, i4 e c n, j4 e c n, k4 e c n) ⟨hc, x1, by dsimp only; omega, x3⟩
  · rintro _ h2 ⟨H2, hag2, hI2⟩
    refine ⟨?_, T1.frame.trans hag2 (fun q hq => Or.inl hq) (fun q hq => Or.inr hq), by rw [hI2, T1.int]⟩
    intro n hn
    rw [H2 n hn]
    refine congrArg Cell.val ?_
    simp only [show ¬ (0 = 2) by decide, show ¬ (1 = 2) by decide, if_false, if_true, one_mul]
    split <;> ring
end

/-- `(x-A)^i (x-B)^j (x-C)^k` -/
noncomputable def pq3 (A B D : ℝ) (i j k : ℕ) : ℝ[X] := (X - C A)^i * (X - C B)^j * (X - C D)^k

theorem pq3_natDegree (A B D : ℝ) (i j k : ℕ) : (pq3 A B D i j k).natDegree ≤ i + j + k := by
  unfold pq3
  refine natDegree_mul_le.trans (Nat.add_le_add (pq_natDegree A B i j) ?_)
  refine natDegree_pow_le.trans ?_
  rw [natDegree_X_sub_C, Nat.mul_one]

section
variable {p ρ : ℝ}

theorem rootMom_add (hp : 0 < p) (hρ : ρ < 1) (P c : ℝ) (q r : ℝ[X]) :
    rootMom p P c ρ (q + r) = rootMom p P c ρ q + rootMom p P c ρ r := by
  unfold rootMom
  rw [moment_add (div_pos hp (by linarith)), add_div]

theorem rootMom_C_mul (P c a : ℝ) (q : ℝ[X]) : rootMom p P c ρ (C a * q) = a * rootMom p P c ρ q := by
  unfold rootMom
  rw [moment_C_mul, mul_div_assoc]

/-- the moments solve the recursions -/
theorem rootMom_pq3 (hp : 0 < p) (hρ : ρ < 1) (P c A B D : ℝ) :
    rootMom p P c ρ (pq3 A B D 0 0 0) = 1 ∧
    (∀ j, rootMom p P c ρ (pq3 A B D 0 (j+1) 0) = 1/2*(1-ρ)/p * (j:ℝ) * rootMom p P c ρ (pq3 A B D 0 (j-1) 0) -
      (B - (P + ρ*(c - P))) * rootMom p P c ρ (pq3 A B D 0 j 0)) ∧
    (∀ i j, rootMom p P c ρ (pq3 A B D (i+1) j 0) = rootMom p P c ρ (pq3 A B D i (j+1) 0) -
      (A - B) * rootMom p P c ρ (pq3 A B D i j 0)) ∧
    (∀ i j k, rootMom p P c ρ (pq3 A B D i j (k+1)) = rootMom p P c ρ (pq3 A B D i (j+1) k) +
      (B - D) * rootMom p P c ρ (pq3 A B D i j k)) := by
  have h1 : 0 < 1 - ρ := by linarith
  have hp' : 0 < p/(1-ρ) := div_pos hp h1
  have hs : 0 < Real.sqrt (Real.pi/(p/(1-ρ))) := Real.sqrt_pos.2 (div_pos Real.pi_pos hp')
  refine ⟨?_, fun j => ?_, fun i j => ?_, fun i j k => ?_⟩
  · unfold rootMom pq3
    simp only [pow_zero, mul_one]
    rw [moment_one]
    exact div_self hs.ne'
  · unfold rootMom pq3
    simp only [pow_zero, mul_one, one_mul]
    rw [moment_vrr hp']
    have : 1/(2*(p/(1-ρ))) = 1/2*(1-ρ)/p := by field_simp
    rw [this]
    ring
  · have : pq3 A B D i (j+1) 0 = pq3 A B D (i+1) j 0 + C (A - B) * pq3 A B D i j 0 := by
      unfold pq3
      rw [C_sub]; ring
    rw [this, rootMom_add hp hρ, rootMom_C_mul]
    ring
  · have : pq3 A B D i j (k+1) = pq3 A B D i (j+1) k + C (B - D) * pq3 A B D i j k := by
      unfold pq3
      rw [C_sub]; ring
    rw [this, rootMom_add hp hρ, rootMom_C_mul]

theorem rootMom_zero (P c : ℝ) (q : ℝ[X]) : rootMom p P c 0 q = moment p P q / Real.sqrt (Real.pi/p) := by
  unfold rootMom
  simp
end

/-- what the integral is weighted with -/
noncomputable def opPot : Op3c1e ℝ → (Fin 3 → ℝ) → ℝ
  | .ovlp => fun _ => 1
  | .rinv zeta orig => potential zeta (fun k => orig k)

/-- the root finder is exact at the argument used for a primitive -/
def RysOK3 (R : Rys ℝ) (op : Op3c1e ℝ) (n : Nat) (p : ℝ) (P : Nat → ℝ) : Prop :=
  match op with
  | .ovlp => True
  | .rinv zeta orig => RysExact n (nucX p (nucTau p zeta) P orig) (R.u n (nucX p (nucTau p zeta) P orig))
      (R.w n (nucX p (nucTau p zeta) P orig))

/-- the polynomial factor of function `n` of the block -/
noncomputable def pol3 (e : EnvG) (d : G2 ℝ) (n : Nat) (k : Fin 3) : ℝ[X] :=
  pq3 (d.ri k) (d.rj k) (d.rk k) (i4 e k n) (j4 e k n) (k4 e k n)

theorem integral_pg {p : ℝ} (P : Fin 3 → ℝ) (q : Fin 3 → ℝ[X]) :
    ∫ r, pg p P q r = ∏ k, moment p (P k) (q k) := by
  unfold pg moment
  exact integral_fintype_prod_volume_eq_prod (fun k x => (q k).eval x * Real.exp (-p*(x - P k)^2))

theorem sum_list_range (f : Nat → ℝ) : ∀ n, ((List.range n).map f).sum = ∑ i ∈ Finset.range n, f i
  | 0 => by simp
  | n+1 => by rw [List.range_succ, List.map_append, List.sum_append, sum_list_range f n, Finset.sum_range_succ]; simp

/-- the evaluator gives `w` for the primitives it keeps -/
def EvalOK1 {α : Type} [Field α] [LinearOrder α] (R : Rys α) (K : Consts α) (L : MathLib α) (op : Op3c1e α) (X : Int2e α)
    (s : Call3 α) (keep : Nat → Nat → Nat → Bool) (w : Nat → Nat → Nat → Nat → α) : Prop :=
  ∀ ip jp kp (A : Arrays3c1e) (T : Ptr → Option Int), ip < s.si.nprim → jp < s.sj.nprim → kp < s.sk.nprim →
    IdxT T A.idx (s.env1 X).nf (adr3 (s.env1 X)) →
    KernelSpec T ((s.triple1 X R K L op A).g0 ip jp kp) ((s.triple1 X R K L op A).gout ip jp kp) (Blk A.g (s.leng1 X))
      ((s.env1 X).nf * X.nComp) (keep ip jp kp) (w ip jp kp)

/-- the contribution of a primitive per unit of the prefactor -/
noncomputable def w3c1e (op : Op3c1e ℝ) (s : Call3 ℝ) (ip jp kp n : Nat) : ℝ :=
  1 / (Real.sqrt Real.pi * Real.pi) * ∫ r, pg (s.aijk ip jp kp) (fun k => (s.g1 ip jp kp).rij k)
    (pol3 (s.env1 (int3c1eInt : Int2e ℝ)) (s.g1 ip jp kp) n) r * opPot op r

theorem psum3 {e : EnvG} (hnfi : e.nfi = ncart e.i_l) (hnfj : e.nfj = ncart e.j_l) (hnfk : e.nfk = ncart e.k_l)
    (hnfl : e.nfl = 1) (hnf : e.nf = e.nfi * e.nfj * e.nfk) {n : Nat} (hn : n < e.nf) :
    i4 e 0 n + i4 e 1 n + i4 e 2 n = e.i_l ∧ j4 e 0 n + j4 e 1 n + j4 e 2 n = e.j_l ∧
      k4 e 0 n + k4 e 1 n + k4 e 2 n = e.k_l := by
  rw [hnf] at hn
  have pi : 0 < e.nfi := by
    rcases Nat.eq_zero_or_pos e.nfi with h0 | h0
    · rw [h0, Nat.zero_mul, Nat.zero_mul] at hn; omega
    · exact h0
  have pk : 0 < e.nfk := by
    rcases Nat.eq_zero_or_pos e.nfk with h0 | h0
    · rw [h0, Nat.mul_zero] at hn; omega
    · exact h0
  have b1 : n % e.nfi < ncart e.i_l := hnfi ▸ Nat.mod_lt _ pi
  have b2 : n / e.nfi % e.nfk < ncart e.k_l := hnfk ▸ Nat.mod_lt _ pk
  have b3 : n / e.nfi / e.nfk / e.nfl < ncart e.j_l := by
    rw [hnfl, Nat.div_one, ← hnfj]
    refine (Nat.div_lt_iff_lt_mul pk).2 ((Nat.div_lt_iff_lt_mul pi).2 ?_)
    calc n < e.nfi * e.nfj * e.nfk := hn
      _ = _ := by ring
  exact ⟨psum b1, psum b3, psum b2⟩

theorem evalOK_3c1e {R : Rys ℝ} {L : MathLib ℝ} {op : Op3c1e ℝ} {s : Call3 ℝ}
    (hp : ∀ ip jp kp, ip < s.si.nprim → jp < s.sj.nprim → kp < s.sk.nprim → 0 < s.aijk ip jp kp)
    (hR : ∀ ip jp kp, ip < s.si.nprim → jp < s.sj.nprim → kp < s.sk.nprim →
      RysOK3 R op ((s.si.l + s.sj.l + s.sk.l)/2 + 1) (s.aijk ip jp kp) (s.g1 ip jp kp).rij) :
    EvalOK1 R realK L op int3c1eInt s (fun _ _ _ => true) (w3c1e op s) := by
  intro ip jp kp A T hip hjp hkp hT
  let e := s.env1 (int3c1eInt : Int2e ℝ)
  let d := s.g1 ip jp kp
  let p := s.aijk ip jp kp
  have hp0 : 0 < p := hp ip jp kp hip hjp hkp
  have H : Shape3 e := shape3_int3c1e _ _ _ _
  have hl : 3 * e.g_size ≤ s.leng1 (int3c1eInt : Int2e ℝ) := by
    show _ ≤ e.g_size * 3 * (2^0 + 1)
    omega
  have hsp : 0 < Real.sqrt p := Real.sqrt_pos.2 hp0
  have hsπ : 0 < Real.sqrt Real.pi := Real.sqrt_pos.2 Real.pi_pos
  have h3 : Real.sqrt p ^ 2 = p := Real.sq_sqrt hp0.le
  have h4 : Real.sqrt Real.pi ^ 2 = Real.pi := Real.sq_sqrt Real.pi_pos.le
  have hN : e.nf * (int3c1eInt : Int2e ℝ).nComp = e.nf := Nat.mul_one _
  rw [show (s.env1 (int3c1eInt : Int2e ℝ)).nf * (int3c1eInt : Int2e ℝ).nComp = e.nf from hN]
  cases op with
  | ovlp =>
    have hrm := fun c => rootMom_pq3 hp0 (zero_lt_one) (d.rij c) 0 (d.ri c) (d.rj c) (d.rk c)
    have := rec_kernel (e := e) (d := d) (g := A.g) (idx := A.idx) (leng := s.leng1 (int3c1eInt : Int2e ℝ)) (T := T)
      (κ := 1/(p * Real.sqrt p)) (a1 := 1/2/p) (r0 := fun c => d.rj c - d.rij c)
      (E := fun c i j k => rootMom p (d.rij c) 0 0 (pq3 (d.ri c) (d.rj c) (d.rk c) i j k))
      (g0 := (s.triple1 int3c1eInt R realK L .ovlp A).g0 ip jp kp)
      (fun fac => by
        show (do g3c1eRec e d A.g (fac / (p * Real.sqrt p)) _ _; pure true) = _
        rw [mul_one_div]; rfl) H hl (Nat.le_add_right _ _) (Nat.le_add_right _ _) (Nat.le_add_right _ _)
      rfl rfl rfl rfl rfl hT (fun c _ => (hrm c).1)
      (fun c j _ => by
        rw [(hrm c).2.1 j, sub_zero, mul_one, zero_mul, add_zero])
      (fun c i j _ => (hrm c).2.2.1 i j) (fun c i j k _ => (hrm c).2.2.2 i j k)
    have hw : ∀ n, w3c1e .ovlp s ip jp kp n = 1/(p * Real.sqrt p) *
        (rootMom p (d.rij 0) 0 0 (pq3 (d.ri 0) (d.rj 0) (d.rk 0) (i4 e 0 n) (j4 e 0 n) (k4 e 0 n)) *
          rootMom p (d.rij 1) 0 0 (pq3 (d.ri 1) (d.rj 1) (d.rk 1) (i4 e 1 n) (j4 e 1 n) (k4 e 1 n)) *
          rootMom p (d.rij 2) 0 0 (pq3 (d.ri 2) (d.rj 2) (d.rk 2) (i4 e 2 n) (j4 e 2 n) (k4 e 2 n))) := by
      intro n
      show 1 / (Real.sqrt Real.pi * Real.pi) * ∫ r, pg p (fun k => d.rij k) (pol3 e d n) r * 1 = _
      simp only [mul_one]
      rw [integral_pg, Fin.prod_univ_three]
      have : ∀ m0 m1 m2 : ℝ, 1 / (Real.sqrt Real.pi * Real.pi) * (m0 * m1 * m2) = 1/(p * Real.sqrt p) *
          (m0 / Real.sqrt (Real.pi/p) * (m1 / Real.sqrt (Real.pi/p)) * (m2 / Real.sqrt (Real.pi/p))) := by
        intro m0 m1 m2
        rw [Real.sqrt_div Real.pi_pos.le]
        field_simp
        rw [h3, h4]
      rw [this]
      simp only [← rootMom_zero _ (0:ℝ)]
      exact rfl
    rw [show w3c1e .ovlp s ip jp kp = fun n => _ from funext hw]
    exact this
  | rinv zeta cr =>
    let N := (s.si.l + s.sj.l + s.sk.l)/2 + 1
    have hroots : e.nrys_roots = N := rfl
    let τ := nucTau p zeta
    let x := nucX p τ d.rij cr
    have hRx : RysExact N x (R.u N x) (R.w N x) := hR ip jp kp hip hjp hkp
    obtain ⟨t0, t1⟩ := nucTau_bounds hp0 zeta
    have hx : p * rr2 d.rij cr * τ * τ = x := by
      show _ = nucX p τ d.rij cr
      unfold rr2 nucX
      ring
    let ρ : Nat → ℝ := fun r => rootRho τ (R.u N x r)
    have hρ : ∀ r, r < N → ρ r < 1 := fun r hr => rootRho_lt t0 t1 (hRx.nonneg r hr)
    have kern : ∀ r, r < N → KernelSpec T (nucRoot3 R realK e d zeta cr r A.g) (fun _ gout em => gout1e e.nf A.idx A.g gout em)
        (Blk A.g (s.leng1 (int3c1eInt : Int2e ℝ))) e.nf true (fun n => 2 / Real.sqrt Real.pi / p * R.w N x r * τ *
          ∏ k : Fin 3, rootMom p (d.rij k) (cr k) (ρ r) (pol3 e d n k)) := by
      intro r hr
      have hrm := fun c => rootMom_pq3 hp0 (hρ r hr) (d.rij c) (cr c) (d.ri c) (d.rj c) (d.rk c)
      have hu : R.u N x r / (1 + R.u N x r) * τ * τ = ρ r := by
        show _ = τ * τ * R.u N x r / (1 + R.u N x r)
        ring
      have := rec_kernel (e := e) (d := d) (g := A.g) (idx := A.idx) (leng := s.leng1 (int3c1eInt : Int2e ℝ)) (T := T)
        (κ := 2 / Real.sqrt Real.pi / p * R.w N x r * τ) (a1 := 1/2*(1 - ρ r)/p)
        (r0 := fun c => d.rj c - (d.rij c + ρ r * (cr c - d.rij c)))
        (E := fun c i j k => rootMom p (d.rij c) (cr c) (ρ r) (pq3 (d.ri c) (d.rj c) (d.rk c) i j k))
        (g0 := nucRoot3 R realK e d zeta cr r A.g)
        (fun fac => by
          show (g3c1eNuc realK e d cr (R.u N (p * rr2 d.rij cr * τ * τ) r / (1 + R.u N (p * rr2 d.rij cr * τ * τ) r) * τ * τ)
            A.g (fac / p * R.w N (p * rr2 d.rij cr * τ * τ) r * τ) >>= fun _ => pure true) = _
          rw [hx, hu]
          unfold g3c1eNuc
          rw [show fac * (2 / Real.sqrt Real.pi / p * R.w N x r * τ) = 2/realK.sqrtpi * (fac / p * R.w N x r * τ) by
            show _ = 2 / Real.sqrt Real.pi * _
            ring]
          rfl) H hl (Nat.le_add_right _ _) (Nat.le_add_right _ _) (Nat.le_add_right _ _)
        rfl rfl rfl rfl rfl hT (fun c _ => (hrm c).1) (fun c j _ => (hrm c).2.1 j)
        (fun c i j _ => (hrm c).2.2.1 i j) (fun c i j k _ => (hrm c).2.2.2 i j k)
      simp only [Fin.prod_univ_three]
      exact this
    let ws : List (Nat → ℝ) := (List.range N).map fun r n => 2 / Real.sqrt Real.pi / p * R.w N x r * τ *
          ∏ k : Fin 3, rootMom p (d.rij k) (cr k) (ρ r) (pol3 e d n k)
    have hF : List.Forall₂ (fun g0 w => KernelSpec T (g0 A.g) (fun _ gout em => gout1e e.nf A.idx A.g gout em)
        (Blk A.g (s.leng1 (int3c1eInt : Int2e ℝ))) e.nf true w)
        ((List.range N).map fun i => nucRoot3 R realK e d zeta cr i) ws := by
      show List.Forall₂ _ _ ((List.range N).map _)
      rw [List.forall₂_map_left_iff, List.forall₂_map_right_iff, List.forall₂_same]
      intro r hr
      exact kern r (List.mem_range.1 hr)
    intro fac gout em u h hRO hGs hA hd hE
    show wp (pure true) _ h
    rw [wp_pure]
    refine ⟨rfl, AgreeD.refl _ _, rfl, fun _ => ?_⟩
    refine wp_mono (makeGout_wp (N := e.nf) (T := T) _ ws hF em u h (fun h0 => ?_) hRO hGs hA hd hE) ?_
    · exact absurd h0 (by simp [N])
    · rintro _ h2 ⟨v2, a2, i2⟩
      refine ⟨fun n hn => ?_, a2, i2⟩
      have hval : (ws.map (fun w => w n)).sum = w3c1e (.rinv zeta cr) s ip jp kp n := by
        show (((List.range N).map _).map _).sum = 1 / (Real.sqrt Real.pi * Real.pi) *
          ∫ r, pg p (fun k => d.rij k) (pol3 e d n) r * potential zeta (fun k => cr k) r
        have hdeg : ∑ k : Fin 3, (pol3 e d n k).natDegree < 2 * N := by
          refine lt_of_le_of_lt (Finset.sum_le_sum fun k _ => pq3_natDegree _ _ _ _ _ _) ?_
          rw [Fin.sum_univ_three]
          obtain ⟨s1, s2, s3⟩ := psum3 (e := e) rfl rfl rfl rfl rfl hn
          have s1 : _ = s.si.l := s1
          have s2 : _ = s.sj.l := s2
          have s3 : _ = s.sk.l := s3
          simp only [Fin.val_zero, Fin.val_one, Fin.val_two]
          show _ < 2 * ((s.si.l + s.sj.l + s.sk.l)/2 + 1)
          omega
        rw [quad_potential hp0 zeta (fun k => d.rij k) (fun k => cr k) (pol3 e d n) (n := N) (u := R.u N x) (w := R.w N x) hdeg
          (by rw [← nucX_eq]; exact hRx)]
        rw [List.map_map, sum_list_range, Finset.mul_sum, Finset.mul_sum]
        refine Finset.sum_congr rfl (fun r _ => ?_)
        show 2 / Real.sqrt Real.pi / p * R.w N x r * τ * _ = 1 / (Real.sqrt Real.pi * Real.pi) *
          (2 * Real.pi / p * τ * (R.w N x r * _))
        have hπ := Real.pi_pos
        field_simp
        rfl
      rw [v2 n hn]
      refine congrArg Cell.val ?_
      beta_reduce
      rw [hval]

end Verif.Lemmas
