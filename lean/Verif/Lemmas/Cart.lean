import Verif.Spec.Cart
import Verif.Core.Assign
import Verif.Model.Bas

namespace Verif.Spec

theorem two_tri (a : Nat) : 2 * tri a = a * (a + 1) := by
  unfold tri
  have : a * (a + 1) % 2 = 0 := by
    rcases Nat.mod_two_eq_zero_or_one a with h | h <;> simp [Nat.mul_mod, Nat.add_mod, h]
  omega

theorem tri_succ (a : Nat) : tri (a + 1) = tri a + (a + 1) := by
  have h1 := two_tri a
  have h2 := two_tri (a + 1)
  have : (a + 1) * (a + 1 + 1) = a * (a + 1) + 2 * (a + 1) := by
    rw [Nat.mul_comm a (a + 1), Nat.mul_comm 2 (a + 1), ← Nat.mul_add]
  omega

theorem tri_mono {a b : Nat} (h : a ≤ b) : tri a ≤ tri b := by
  induction h with
  | refl => exact Nat.le_refl _
  | step _ ih => rw [tri_succ]; omega

theorem ncart_eq_tri (l : Nat) : ncart l = tri (l + 1) := rfl

theorem row_spec (k : Nat) : tri (row k) ≤ k ∧ k < tri (row k + 1) := by
  induction k with
  | zero => simp [row, tri]
  | succ k ih =>
    unfold row
    split
    · rename_i h
      refine ⟨h, ?_⟩
      rw [tri_succ]; omega
    · rename_i h
      exact ⟨by omega, by omega⟩

theorem row_unique {k r : Nat} (h1 : tri r ≤ k) (h2 : k < tri (r + 1)) : row k = r := by
  obtain ⟨h3, h4⟩ := row_spec k
  rcases Nat.lt_trichotomy (row k) r with h | h | h
  · have := tri_mono (a := row k + 1) (b := r) h; omega
  · exact h
  · have := tri_mono (a := r + 1) (b := row k) h; omega

theorem row_tri_add {a b : Nat} (h : b ≤ a) : row (tri a + b) = a :=
  row_unique (by omega) (by rw [tri_succ]; omega)

theorem col_tri_add {a b : Nat} (h : b ≤ a) : col (tri a + b) = b := by
  unfold col; rw [row_tri_add h]; omega

theorem col_le_row (k : Nat) : col k ≤ row k := by
  have := row_spec k
  rw [tri_succ] at this
  unfold col; omega

theorem row_le {k l : Nat} (h : k < ncart l) : row k ≤ l := by
  rw [ncart_eq_tri] at h
  rcases Nat.lt_or_ge l (row k) with h1 | h1
  · have := tri_mono (a := l + 1) (b := row k) h1
    have := row_spec k; omega
  · exact h1

theorem tri_row_col (k : Nat) : tri (row k) + col k = k := by
  have := row_spec k
  unfold col; omega

theorem psum {l k : Nat} (h : k < ncart l) : px l k + py l k + pz l k = l := by
  have h1 := row_le h
  have h2 := col_le_row k
  unfold px py pz; omega

/-- position of an exponent triple -/
def cpos (l a c : Nat) : Nat := tri (l - a) + c

theorem cpos_lt {l a b c : Nat} (h : a + b + c = l) : cpos l a c < ncart l := by
  unfold cpos
  rw [ncart_eq_tri]
  have h1 : tri (l - a + 1) ≤ tri (l + 1) := tri_mono (by omega)
  rw [tri_succ] at h1
  omega

theorem px_cpos {l a b c : Nat} (h : a + b + c = l) : px l (cpos l a c) = a := by
  unfold px cpos; rw [row_tri_add (by omega)]; omega
theorem py_cpos {l a b c : Nat} (h : a + b + c = l) : py l (cpos l a c) = b := by
  unfold py cpos; rw [row_tri_add (by omega), col_tri_add (by omega)]; omega
theorem pz_cpos {l a b c : Nat} (h : a + b + c = l) : pz l (cpos l a c) = c := by
  unfold pz cpos; rw [col_tri_add (by omega)]

theorem plex {l k k' : Nat} (hk : k < k') (hk' : k' < ncart l) :
    LexGt (px l k, py l k, pz l k) (px l k', py l k', pz l k') := by
  have h1 := row_le hk'
  have h2 := col_le_row k
  have h3 := col_le_row k'
  have h4 := tri_row_col k
  have h5 := tri_row_col k'
  have h6 := row_spec k
  have h7 : row k ≤ row k' := by
    rcases Nat.lt_or_ge (row k') (row k) with h | h
    · have := tri_mono (a := row k' + 1) (b := row k) h
      have := row_spec k'; omega
    · exact h
  unfold LexGt px py pz
  simp only
  rcases Nat.lt_or_eq_of_le h7 with h | h
  · left; omega
  · right
    refine ⟨by omega, ?_⟩
    left
    rw [h] at h4
    omega

end Verif.Spec

namespace Verif.Model
open Verif Prog Spec

/-- address map for the three component arrays -/
def cartAddr (nx ny nz : Ptr) : Nat × Nat → Ptr
  | (0, k) => nx + k
  | (1, k) => ny + k
  | (_, k) => nz + k

def cartVal (l : Nat) : Nat × Nat → Int
  | (0, k) => (px l k : Int)
  | (1, k) => (py l k : Int)
  | (_, k) => (pz l k : Int)

variable {α : Type}

theorem cartComp_wp (nx ny nz : Ptr) (l : Nat) (h : Heap α)
    (ax : ∀ k, k < ncart l → h.I (nx + k) ≠ .oob)
    (ay : ∀ k, k < ncart l → h.I (ny + k) ≠ .oob)
    (az : ∀ k, k < ncart l → h.I (nz + k) ≠ .oob)
    (dxy : ∀ i j, i < ncart l → j < ncart l → nx + i ≠ ny + j)
    (dxz : ∀ i j, i < ncart l → j < ncart l → nx + i ≠ nz + j)
    (dyz : ∀ i j, i < ncart l → j < ncart l → ny + i ≠ nz + j) :
    wp (cartComp nx ny nz l) (fun n h' => n = ncart l ∧
      AssignedI h h' (fun p : Nat × Nat => p.1 < 3 ∧ p.2 < ncart l)
        (cartAddr nx ny nz) (cartVal l)) h := by
  unfold cartComp
  refine wp_forS (fun a inc h' => inc = tri a ∧
    AssignedI h h' (fun p : Nat × Nat => p.1 < 3 ∧ p.2 < tri a) (cartAddr nx ny nz) (cartVal l))
    ?_ ?_ ?_
  · refine ⟨rfl, AssignedI.init _ _ _ (fun k hk => ?_)⟩
    have : tri 0 = 0 := rfl
    omega
  · rintro a ha inc h1 ⟨rfl, H1⟩
    have hal : l - (l - a) = a := by omega
    simp only [hal]
    refine wp_forS (fun b inc h' => inc = tri a + b ∧
      AssignedI h h' (fun p : Nat × Nat => p.1 < 3 ∧ p.2 < tri a + b)
        (cartAddr nx ny nz) (cartVal l)) ⟨rfl, H1⟩ ?_ ?_
    · rintro b hb inc h2 ⟨rfl, H2⟩
      have hN : tri a + b < ncart l := by
        rw [ncart_eq_tri]
        have := tri_mono (a := a + 1) (b := l + 1) (by omega)
        rw [tri_succ] at this; omega
      have hb' : b ≤ a := by omega
      have e1 : a - (a - b) = b := by omega
      have inj : ∀ (c c' k k' : Nat), c < 3 → c' < 3 → k < ncart l → k' < ncart l →
          cartAddr nx ny nz (c, k) = cartAddr nx ny nz (c', k') → c = c' ∧ k = k' := by
        intro c c' k k' hc hc' hk hk' e
        rcases c with _ | _ | _ | c
        all_goals rcases c' with _ | _ | _ | c'
        all_goals first | omega | skip
        all_goals simp only [cartAddr] at e
        all_goals first
          | exact ⟨rfl, by simpa using e⟩
          | exact absurd e (dxy _ _ hk hk')
          | exact absurd e (dxz _ _ hk hk')
          | exact absurd e (dyz _ _ hk hk')
          | exact absurd e.symm (dxy _ _ hk' hk)
          | exact absurd e.symm (dxz _ _ hk' hk)
          | exact absurd e.symm (dyz _ _ hk' hk)
      have stepset : ∀ (c k : Nat) (P : Nat × Nat → Prop), c < 3 → k < ncart l →
          (∀ p, P p → p.1 < 3 ∧ p.2 < ncart l) →
          ∀ k', P k' → cartAddr nx ny nz k' = cartAddr nx ny nz (c, k) →
            cartVal l k' = cartVal l (c, k) := by
        intro c k P hc hk hP k' hPk' e
        obtain ⟨c', kk'⟩ := k'
        have h3 := hP _ hPk'
        obtain ⟨rfl, rfl⟩ := inj c' c kk' k h3.1 hc h3.2 hk e
        rfl
      have v0 : cartVal l (0, tri a + b) = ((l - a : Nat) : Int) := by
        simp [cartVal, px, row_tri_add hb']
      have v1 : cartVal l (1, tri a + b) = ((a - b : Nat) : Int) := by
        simp [cartVal, py, row_tri_add hb', col_tri_add hb']
      have v2 : cartVal l (2, tri a + b) = ((b : Nat) : Int) := by
        simp [cartVal, pz, col_tri_add hb']
      simp only [wp_mbind, wp_stI, wp_pure, e1]
      have H3 := H2.set (P' := fun p => (p.1 < 3 ∧ p.2 < tri a + b) ∨ p = (0, tri a + b))
        (0, tri a + b) (stepset 0 _ _ (by omega) hN (fun p hp => ⟨hp.1, by omega⟩)) (fun _ => Iff.rfl)
      have H4 := H3.set (P' := fun p => ((p.1 < 3 ∧ p.2 < tri a + b) ∨ p = (0, tri a + b)) ∨
          p = (1, tri a + b))
        (1, tri a + b) (stepset 1 _ _ (by omega) hN (fun p hp => by
          rcases hp with hp | hp
          · exact ⟨hp.1, by omega⟩
          · subst hp; exact ⟨by simp, hN⟩)) (fun _ => Iff.rfl)
      have H5 := H4.set (P' := fun p => (((p.1 < 3 ∧ p.2 < tri a + b) ∨ p = (0, tri a + b)) ∨
          p = (1, tri a + b)) ∨ p = (2, tri a + b))
        (2, tri a + b) (stepset 2 _ _ (by omega) hN (fun p hp => by
          rcases hp with (hp | hp) | hp
          · exact ⟨hp.1, by omega⟩
          · subst hp; exact ⟨by simp, hN⟩
          · subst hp; exact ⟨by simp, hN⟩)) (fun _ => Iff.rfl)
      rw [v0] at H3 H4 H5
      rw [v1] at H4 H5
      rw [v2] at H5
      refine ⟨H2.ne_oob (ax _ hN), H3.ne_oob (ay _ hN), H4.ne_oob (az _ hN), by omega, ?_⟩
      refine H5.congr ?_ (fun _ _ => rfl)
      rintro ⟨c, k⟩
      simp only [Prod.mk.injEq]
      omega
    · rintro inc h2 ⟨rfl, H2⟩
      rw [tri_succ]
      exact ⟨rfl, H2⟩
  · rintro inc h1 ⟨rfl, H1⟩
    exact ⟨rfl, H1⟩

end Verif.Model
