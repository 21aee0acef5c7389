import Mathlib.Algebra.Field.Basic
import Mathlib.Tactic.Ring
import Mathlib.Tactic.LinearCombination

/-! The relations that define the intermediates of two-electron integrals at one quadrature node, as mathematics. -/
namespace Verif.Spec

variable {α : Type} [Field α]

/-- recursion coefficients for one direction and one node -/
structure RecCoeff (α : Type) where
  c00 : α
  c0p : α
  b00 : α
  b10 : α
  b01 : α

/-- the two-dimensional intermediates: `F 0 0 = z`,
`F (n+1) m = c00 F n m + n b10 F (n-1) m + m b00 F n (m-1)`, `F 0 (m+1) = c0p F 0 m + m b01 F 0 (m-1)` -/
def vrr (k : RecCoeff α) (z : α) : Nat → Nat → α
  | 0, 0 => z
  | 0, 1 => k.c0p * z
  | 0, m+2 => k.c0p * vrr k z 0 (m+1) + ((m+1 : Nat):α) * k.b01 * vrr k z 0 m
  | 1, m => k.c00 * vrr k z 0 m + (m:α) * k.b00 * vrr k z 0 (m-1)
  | n+2, m => k.c00 * vrr k z (n+1) m + ((n+1 : Nat):α) * k.b10 * vrr k z n m + (m:α) * k.b00 * vrr k z (n+1) (m-1)

theorem vrr_up (k : RecCoeff α) (z : α) (n m : Nat) : vrr k z (n+1) m =
    k.c00 * vrr k z n m + (n:α) * k.b10 * vrr k z (n-1) m + (m:α) * k.b00 * vrr k z n (m-1) := by
  cases n with
  | zero => simp [vrr]
  | succ n => rw [vrr]; rfl

/-- the same recursion holds in the other index -/
theorem vrr_right (k : RecCoeff α) (z : α) (n m : Nat) : vrr k z n (m+1) =
    k.c0p * vrr k z n m + (m:α) * k.b01 * vrr k z n (m-1) + (n:α) * k.b00 * vrr k z (n-1) m := by
  induction n using Nat.strong_induction_on generalizing m with
  | _ n ih =>
    match n with
    | 0 =>
      cases m with
      | zero => simp [vrr]
      | succ m => rw [vrr]; simp
    | n+1 =>
      have u0 := vrr_up k z n (m+1)
      have u1 := vrr_up k z n m
      have r0 := ih n (by omega) m
      rw [u0, r0, u1]
      cases m with
      | zero =>
        cases n with
        | zero => simp; ring
        | succ n =>
          have r1 := ih n (by omega) 0
          have u2 := vrr_up k z n 0
          simp at r1 u2 ⊢
          rw [r1, u2]; ring
      | succ m =>
        have u3 := vrr_up k z n m
        cases n with
        | zero =>
          simp at u3 ⊢
          have r2 := ih 0 (by omega) m
          simp at r2
          rw [u3, r2]; ring
        | succ n =>
          have r1 := ih n (by omega) (m+1)
          have u2 := vrr_up k z n (m+1)
          have r2 := ih (n+1) (by omega) m
          simp only [Nat.add_sub_cancel] at *
          rw [r1, u3]
          push_cast
          push_cast at u2 r2
          linear_combination (-(((n:α)+1) * k.b00)) * u2 + (((m:α)+1) * k.b00) * r2

/-- the recursion determines the values -/
theorem vrr_unique {k : RecCoeff α} {F : Nat → Nat → α}
    (hu : ∀ n m, F (n+1) m = k.c00 * F n m + (n:α) * k.b10 * F (n-1) m + (m:α) * k.b00 * F n (m-1))
    (hr : ∀ m, F 0 (m+1) = k.c0p * F 0 m + (m:α) * k.b01 * F 0 (m-1)) (n m : Nat) : F n m = vrr k (F 0 0) n m := by
  have h0 : ∀ m, F 0 m = vrr k (F 0 0) 0 m := by
    intro m
    induction m using Nat.strong_induction_on with
    | _ m ih =>
      match m with
      | 0 => simp [vrr]
      | m+1 =>
        rw [hr, vrr_right, ih m (by omega), ih (m-1) (by omega)]
        simp
  induction n using Nat.strong_induction_on generalizing m with
  | _ n ih =>
    match n with
    | 0 => exact h0 m
    | n+1 => rw [hu, vrr_up, ih n (by omega), ih (n-1) (by omega), ih n (by omega) (m-1)]

theorem vrr_mul (k : RecCoeff α) (z : α) (n m : Nat) : vrr k z n m = z * vrr k 1 n m := by
  have := vrr_unique (k := k) (F := fun n m => z * vrr k 1 n m) (fun n m => by rw [vrr_up]; ring)
    (fun m => by rw [vrr_right]; simp; ring) n m
  simpa [vrr] using this.symm

/-- raising the second of two indices: `T 0 i = base i`, `T (j+1) i = T j (i+1) + v T j i` -/
def transfer (v : α) (base : Nat → α) : Nat → Nat → α
  | 0, i => base i
  | j+1, i => transfer v base j (i+1) + v * transfer v base j i

/-- the transfer relations between the four indices (direction `c`): the centres of the four functions enter only
through the differences -/
structure Transfers (ri rj rk rl : Nat → α) (E : Nat → Nat → Nat → Nat → Nat → Nat → α) : Prop where
  ij : ∀ c i j k l r, c < 3 → E c i (j+1) k l r = E c (i+1) j k l r + (ri c - rj c) * E c i j k l r
  kl : ∀ c i j k l r, c < 3 → E c i j k (l+1) r = E c i j (k+1) l r + (rk c - rl c) * E c i j k l r

theorem transfer_lin (v x : α) (f g : Nat → α) (j i : Nat) :
    transfer v (fun n => f n + x * g n) j i = transfer v f j i + x * transfer v g j i := by
  induction j generalizing i with
  | zero => rfl
  | succ j ih => unfold transfer; rw [ih, ih]; ring

/-- raising two indices: from the values `base n m` with the first (if `ib`) or second index of the pair raised -/
def inter4 (ib kb : Bool) (vij vkl : α) (base : Nat → Nat → α) (i j k l : Nat) : α :=
  let inner := fun n => if kb then transfer vkl (base n) l k else transfer (-vkl) (base n) k l
  if ib then transfer vij inner j i else transfer (-vij) inner i j

theorem inter4_ij (ib kb : Bool) (vij vkl : α) (base : Nat → Nat → α) (i j k l : Nat) :
    inter4 ib kb vij vkl base i (j+1) k l = inter4 ib kb vij vkl base (i+1) j k l + vij * inter4 ib kb vij vkl base i j k l := by
  cases ib
  · simp only [inter4, transfer, Bool.false_eq_true, if_false]; ring
  · simp only [inter4, transfer, if_true]

theorem inter4_kl (ib kb : Bool) (vij vkl : α) (base : Nat → Nat → α) (i j k l : Nat) :
    inter4 ib kb vij vkl base i j k (l+1) = inter4 ib kb vij vkl base i j (k+1) l + vkl * inter4 ib kb vij vkl base i j k l := by
  have h : ∀ f : Nat → α, ∀ g : Nat → α, ∀ v i j, transfer v f j i + vkl * transfer v g j i =
      transfer v (fun n => f n + vkl * g n) j i := fun f g v i j => (transfer_lin v vkl f g j i).symm
  cases ib <;> simp only [inter4, Bool.false_eq_true, if_false, if_true] <;> rw [h] <;> congr 1 <;> funext n <;>
    cases kb <;> simp only [transfer, Bool.false_eq_true, if_false, if_true] <;> ring

end Verif.Spec
