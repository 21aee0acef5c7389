import Verif.Lemmas.Unrolled
import Verif.Lemmas.Eri
import Verif.Lemmas.Nuc

/-! The two-electron intermediates are moments of two coupled Gaussians, one for each root. -/
namespace Verif.Lemmas
open Verif Verif.Model Verif.Spec Verif.Prog Verif.Props MeasureTheory Polynomial

/-- normalised moment -/
noncomputable def rm2 (a b V P Q : ℝ) (f g : ℝ[X]) : ℝ := mom2 a b V P Q f g / mom2 a b V P Q 1 1

theorem mom2_one_pos {a b V : ℝ} (ha : 0 < a) (hb : 0 < b) (hV : 0 ≤ V) (P Q : ℝ) : 0 < mom2 a b V P Q 1 1 := by
  rw [mom2_one ha hb hV]
  have := Real.pi_pos
  have : 0 < Real.sqrt (V*(a+b)+a*b) := Real.sqrt_pos.2 (by positivity)
  positivity

theorem rm2_one {a b V : ℝ} (ha : 0 < a) (hb : 0 < b) (hV : 0 ≤ V) (P Q : ℝ) : rm2 a b V P Q 1 1 = 1 :=
  div_self (mom2_one_pos ha hb hV P Q).ne'

theorem rm2_red2 {a b u : ℝ} (ha : 0 < a) (hb : 0 < b) (hu : 0 ≤ u) (P Q : ℝ) (f g : ℝ[X]) :
    rm2 a b (a*b/(a+b)*u) P Q f g = (red2 a b P Q f g).eval (u/(1+u)) := by
  have h1 : 0 < 1 + u := by linarith
  have hρ : u/(1+u) < 1 := by rw [div_lt_one h1]; linarith
  have e : a*b/(a+b)*u = a*b/(a+b)*(u/(1+u))/(1-u/(1+u)) := by
    have : 1 - u/(1+u) = 1/(1+u) := by field_simp; ring
    rw [this]
    field_simp
  have := mom2_red2 ha hb (div_nonneg hu h1.le) hρ P Q f g
  unfold rm2
  rw [e, this]
  have hp := mom2_one_pos ha hb (V := a*b/(a+b)*u) (by positivity) P Q
  rw [e] at hp
  exact mul_div_cancel_left₀ _ hp.ne'

theorem derivative_shift (R : ℝ) (n : ℕ) : derivative ((X - C R)^n : ℝ[X]) = C (n:ℝ) * (X - C R)^(n-1) :=
  derivative_X_sub_C_pow R n

section
variable {a b V : ℝ} (ha : 0 < a) (hb : 0 < b) (hV : 0 ≤ V) (P Q : ℝ)
include ha hb hV

theorem rm2_hrr_left (A B : ℝ) (i j : ℕ) (g : ℝ[X]) :
    rm2 a b V P Q (pq A B i (j+1)) g = rm2 a b V P Q (pq A B (i+1) j) g + (A-B) * rm2 a b V P Q (pq A B i j) g := by
  have : pq A B i (j+1) = pq A B (i+1) j + C (A-B) * pq A B i j := by
    unfold pq
    rw [C_sub]
    ring
  unfold rm2
  rw [this, mom2_add_left ha hb hV, mom2_C_left]
  ring

theorem rm2_hrr_right (A B : ℝ) (i j : ℕ) (f : ℝ[X]) :
    rm2 a b V P Q f (pq A B i (j+1)) = rm2 a b V P Q f (pq A B (i+1) j) + (A-B) * rm2 a b V P Q f (pq A B i j) := by
  have : pq A B i (j+1) = pq A B (i+1) j + C (A-B) * pq A B i j := by
    unfold pq
    rw [C_sub]
    ring
  unfold rm2
  rw [this, mom2_add_right ha hb hV, mom2_C_right]
  ring

theorem rm2_up (R S : ℝ) (n m : ℕ) :
    rm2 a b V P Q ((X - C R)^(n+1)) ((X - C S)^m) =
      ((P - R) - V*b/(V*(a+b)+a*b)*(P-Q)) * rm2 a b V P Q ((X - C R)^n) ((X - C S)^m) +
      (n:ℝ) * ((V+b)/(2*(V*(a+b)+a*b))) * rm2 a b V P Q ((X - C R)^(n-1)) ((X - C S)^m) +
      (m:ℝ) * (V/(2*(V*(a+b)+a*b))) * rm2 a b V P Q ((X - C R)^n) ((X - C S)^(m-1)) := by
  have e : (X - C R)^(n+1) = X * (X - C R)^n + C (-R) * (X - C R)^n := by
    rw [C_neg]; ring
  unfold rm2
  rw [e, mom2_add_left ha hb hV, mom2_C_left, mom2_stein ha hb hV, derivative_shift, derivative_shift, mom2_C_left,
    mom2_C_right]
  ring

theorem rm2_right (R S : ℝ) (n m : ℕ) :
    rm2 a b V P Q ((X - C R)^n) ((X - C S)^(m+1)) =
      ((Q - S) + V*a/(V*(a+b)+a*b)*(P-Q)) * rm2 a b V P Q ((X - C R)^n) ((X - C S)^m) +
      (m:ℝ) * ((V+a)/(2*(V*(a+b)+a*b))) * rm2 a b V P Q ((X - C R)^n) ((X - C S)^(m-1)) +
      (n:ℝ) * (V/(2*(V*(a+b)+a*b))) * rm2 a b V P Q ((X - C R)^(n-1)) ((X - C S)^m) := by
  have e : (X - C S)^(m+1) = X * (X - C S)^m + C (-S) * (X - C S)^m := by
    rw [C_neg]; ring
  unfold rm2
  rw [e, mom2_add_right ha hb hV, mom2_C_right, mom2_stein' ha hb hV, derivative_shift, derivative_shift, mom2_C_left,
    mom2_C_right]
  ring
end

/-- the value of every intermediate -/
noncomputable def eriE (d : G2 ℝ) (u z : Nat → ℝ) (c i j k l r : Nat) : ℝ :=
  (if c = 2 then z r else 1) * rm2 (d.ai+d.aj) (d.ak+d.al) ((d.ai+d.aj)*(d.ak+d.al)/(d.ai+d.aj+(d.ak+d.al))*|u r|) (d.rij c) (d.rkl c)
    (pq (d.ri c) (d.rj c) i j) (pq (d.rk c) (d.rl c) k l)

section
variable {d : G2 ℝ} (ha : 0 < d.ai+d.aj) (hb : 0 < d.ak+d.al) (u z : Nat → ℝ)
include ha hb

theorem eriV_nonneg (r : Nat) : 0 ≤ (d.ai+d.aj)*(d.ak+d.al)/(d.ai+d.aj+(d.ak+d.al))*|u r| := by
  have := abs_nonneg (u r)
  positivity

theorem eriE_hrr : Hrr4 d (eriE d u z) := by
  constructor
  · intro c i j k l r _
    unfold eriE
    rw [rm2_hrr_left ha hb (eriV_nonneg ha hb u r)]
    ring
  · intro c i j k l r _
    unfold eriE
    rw [rm2_hrr_right ha hb (eriV_nonneg ha hb u r)]
    ring

theorem eriE_zero (c r : Nat) : eriE d u z c 0 0 0 0 r = if c = 2 then z r else 1 := by
  unfold eriE
  have : ∀ A B : ℝ, pq A B 0 0 = 1 := fun A B => by unfold pq; simp
  rw [this, this, rm2_one ha hb (eriV_nonneg ha hb u r), mul_one]

theorem eriE_base (e : EnvG) (c n m r : Nat) : baseF e (eriE d u z) c n m r = (if c = 2 then z r else 1) *
    rm2 (d.ai+d.aj) (d.ak+d.al) ((d.ai+d.aj)*(d.ak+d.al)/(d.ai+d.aj+(d.ak+d.al))*|u r|) (d.rij c) (d.rkl c)
      ((X - C (rxij e d c))^n) ((X - C (rxkl e d c))^m) := by
  unfold baseF eriE rxij rxkl pq
  by_cases hi : ibase e <;> by_cases hk : kbase e <;> simp [hi, hk]

theorem eriE_rec (e : EnvG) {nr : Nat} (hu : ∀ r, r < nr → 0 ≤ u r) (nmax mmax : Nat) :
    Rec2 (bc2e e d u) nr nmax mmax (baseF e (eriE d u z)) := by
  have hs : 0 < d.ai+d.aj+(d.ak+d.al) := by positivity
  constructor
  · intro c n m r _ hr _ _
    simp only [eriE_base ha hb u z e]
    have hV := eriV_nonneg ha hb u r
    rw [rm2_up ha hb hV]
    have hD : 0 < (d.ai+d.aj)*(d.ak+d.al)/(d.ai+d.aj+(d.ak+d.al))*|u r| * (d.ai+d.aj+(d.ak+d.al)) + (d.ai+d.aj)*(d.ak+d.al) := by positivity
    unfold bc2e
    dsimp only
    rw [abs_of_nonneg (hu r hr)] at hV hD ⊢
    generalize (d.ai+d.aj)*(d.ak+d.al)/(d.ai+d.aj+(d.ak+d.al))*u r = V at *
    generalize rm2 _ _ _ _ _ ((X - C (rxij e d c))^n) ((X - C (rxkl e d c))^m) = x0
    generalize rm2 _ _ _ _ _ ((X - C (rxij e d c))^(n-1)) ((X - C (rxkl e d c))^m) = x1
    generalize rm2 _ _ _ _ _ ((X - C (rxij e d c))^n) ((X - C (rxkl e d c))^(m-1)) = x2
    generalize d.ai+d.aj = a at *
    generalize d.ak+d.al = b at *
    generalize V*(a+b)+a*b = D at *
    generalize (if c = 2 then z r else 1) = zz
    field_simp
  · intro c n m r _ hr _ _
    simp only [eriE_base ha hb u z e]
    have hV := eriV_nonneg ha hb u r
    rw [rm2_right ha hb hV]
    have hD : 0 < (d.ai+d.aj)*(d.ak+d.al)/(d.ai+d.aj+(d.ak+d.al))*|u r| * (d.ai+d.aj+(d.ak+d.al)) + (d.ai+d.aj)*(d.ak+d.al) := by positivity
    unfold bc2e
    dsimp only
    rw [abs_of_nonneg (hu r hr)] at hV hD ⊢
    generalize (d.ai+d.aj)*(d.ak+d.al)/(d.ai+d.aj+(d.ak+d.al))*u r = V at *
    generalize rm2 _ _ _ _ _ ((X - C (rxij e d c))^n) ((X - C (rxkl e d c))^m) = x0
    generalize rm2 _ _ _ _ _ ((X - C (rxij e d c))^(n-1)) ((X - C (rxkl e d c))^m) = x1
    generalize rm2 _ _ _ _ _ ((X - C (rxij e d c))^n) ((X - C (rxkl e d c))^(m-1)) = x2
    generalize d.ai+d.aj = a at *
    generalize d.ak+d.al = b at *
    generalize V*(a+b)+a*b = D at *
    generalize (if c = 2 then z r else 1) = zz
    field_simp
end

end Verif.Lemmas
