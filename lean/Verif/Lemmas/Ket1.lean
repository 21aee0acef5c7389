import Verif.Lemmas.Sph

/-! The exported transformation with a leading dimension of the output (CINTc2s_ket_sph1). -/
namespace Verif.Lemmas
open Verif Verif.Model Verif.Prog Verif.Spec

variable {α : Type} [Field α]

/-- element `(i, m)` of the output -/
def ld1 (gsph : Ptr) (lds : Nat) (p : Nat × Nat) : Ptr := gsph + (p.2*lds + p.1)

/-- what the transformation stores -/
def Ket1Out (l : Nat) (h h' : Heap α) (gsph : Ptr) (lds nbra : Nat) (X : Nat → α) : Prop :=
  AssignedD h h' (fun p : Nat × Nat => p.1 < nbra ∧ p.2 < l*2+1) (ld1 gsph lds) (fun p => sphV l p.2 fun k => X (k*nbra+p.1))

theorem ld1_inj {gsph : Ptr} {lds nbra : Nat} (hld : nbra ≤ lds) {i m i' m' : Nat} (hi : i < nbra) (hi' : i' < nbra)
    (e : gsph + (m*lds+i) = gsph + (m'*lds+i')) : i = i' ∧ m = m' :=
  (radix_inj (lt_of_lt_of_le hi hld) (lt_of_lt_of_le hi' hld) ((Ptr.add_right_inj _ _ _).1 e)).symm

theorem rowsKet1_wp {l : Nat} (hl : l < 16) {rows : List (Nat × List (Nat × Nat))} (hr : kernOK l rows = true)
    {tab gsph gcart : Ptr} {lds nbra : Nat} {h : Heap α} {X : Nat → α} (hT : HoldsTab h tab) (hld : nbra ≤ lds)
    (hX : HoldsD h gcart (nbra * ncart l) X) (hS : ∀ i m, i < nbra → m < l*2+1 → h.D (gsph + (m*lds+i)) ≠ .oob)
    (ht : tab.buf ≠ gsph.buf)
    (hd : ∀ x i m, x < nbra * ncart l → i < nbra → m < l*2+1 → gcart + x ≠ gsph + (m*lds+i)) :
    wp (rowsKet rows (c2sAt tab l) gsph gcart lds nbra) (fun r h' => r = gsph ∧ Ket1Out l h h' gsph lds nbra X) h := by
  unfold rowsKet
  rw [wp_mbind]
  have hr' : rows = (List.range' (l*2+1-(l*2+1)) (l*2+1)).map fun m => (m, rowTerms l m) := by
    rw [← range_eq']; exact of_decide_eq_true hr
  rw [hr']
  have key := rows2 (n := nbra) (nd := l*2+1) (h := h)
    (f := fun i => stRows (c2sAt tab l) gsph gcart (fun m => m*lds+i) (fun b => b*nbra+i)
      ((List.range' (l*2+1-(l*2+1)) (l*2+1)).map fun m => (m, rowTerms l m)))
    (addr := fun i m => gsph + (m*lds+i)) (v := fun i m => sphV l m fun k => X (k*nbra+i))
    (fun i m i' m' hi _ hi' _ e => ld1_inj hld hi hi' e) (by
      intro i hi h1 ha hm
      refine wp_mono (stRows_wp hl (n := l*2+1) (nsrc := nbra * ncart l) (X' := X)
        (X := fun k => X (k*nbra+i)) (fun b hb => ⟨digit_lt hi hb, rfl⟩) ?_ ?_ ?_ ?_ ?_ ?_ (le_refl _)) ?_
      · exact (holdsTab_agree hT ha (by rintro q ⟨_, _, _, _, rfl⟩; exact fun e => ht e.symm)) l hl
      · intro k hk
        rw [ha]
        · exact hX _ hk
        · rintro ⟨i', m', hi', hm', e⟩
          exact hd _ _ _ hk hi' hm' e
      · intro x m _ _ e
        exact ht (by have := congrArg Ptr.buf e; exact this)
      · intro x m hx hm'
        exact hd _ _ _ hx hi hm'
      · intro m hm'
        exact hm _ (hS _ _ hi hm')
      · intro m m' _ _ e
        exact (ld1_inj (gsph := gsph) hld hi hi (by rw [e])).2
      · rintro _ h2 H2
        exact H2.congr (P' := fun m => m < l*2+1) (v' := fun m => sphV l m fun k => X (k*nbra+i))
          (fun k => by omega) (fun _ _ => rfl))
  refine wp_mono key ?_
  rintro _ h' H
  rw [wp_pure]
  exact ⟨rfl, H⟩

/-- copying a row at a time -/
theorem copyKet1_wp {l : Nat} (hl : l ≤ 1) {gsph gcart : Ptr} {lds nbra : Nat} {h : Heap α} {X : Nat → α} (hld : nbra ≤ lds)
    (hX : HoldsD h gcart (nbra * ncart l) X) (hS : ∀ i m, i < nbra → m < l*2+1 → h.D (gsph + (m*lds+i)) ≠ .oob)
    (hd : ∀ x i m, x < nbra * ncart l → i < nbra → m < l*2+1 → gcart + x ≠ gsph + (m*lds+i)) {f : Nat → Prog α Unit}
    (H : ∀ i, i < nbra → ∀ h1 : Heap α, (∀ m, m < l*2+1 → h1.D (gcart + (m*nbra+i)) = .val (X (m*nbra+i))) →
      (∀ m, m < l*2+1 → h1.D (gsph + (m*lds+i)) ≠ .oob) →
      (∀ m m', m < l*2+1 → m' < l*2+1 → gcart + (m*nbra+i) ≠ gsph + (m'*lds+i)) →
      wp (f i) (fun _ h2 => AssignedD h1 h2 (fun m => m < l*2+1) (fun m => gsph + (m*lds+i)) (fun m => X (m*nbra+i))) h1) :
    wp (forN nbra f) (fun _ h' => Ket1Out l h h' gsph lds nbra X) h := by
  have key := rows2 (n := nbra) (nd := l*2+1) (h := h) (f := f) (addr := fun i m => gsph + (m*lds+i))
    (v := fun i m => X (m*nbra+i)) (fun i m i' m' hi _ hi' _ e => ld1_inj hld hi hi' e) (by
      intro i hi h1 ha hm
      refine H i hi h1 (fun m hm' => ?_) (fun m hm' => hm _ (hS _ _ hi hm'))
        (fun m m' hm1 hm2 => hd _ _ _ (digit_lt hi (by rw [ncart_le1 hl]; exact hm1)) hi hm2)
      have hx : m*nbra+i < nbra * ncart l := digit_lt hi (by rw [ncart_le1 hl]; exact hm')
      rw [ha]
      · exact hX _ hx
      · rintro ⟨i', m', hi', hm', e⟩
        exact hd _ _ _ hx hi' hm' e)
  refine wp_mono key ?_
  rintro _ h' K
  refine K.congr (fun k => Iff.rfl) (fun p hp => ?_)
  rw [sphV_id hl hp.2]

/-- copying element by element -/
theorem copyTo_wp {n l : Nat} {gsph gcart : Ptr} {lds nbra i : Nat} {h h1 : Heap α} {X : Nat → α} (hld : nbra ≤ lds)
    (hi : i < nbra)
    (H : AssignedD h h1 (fun m => m < n) (fun m => gsph + (m*lds+i)) (fun m => X (m*nbra+i))) (hn : n < l*2+1)
    (v : ∀ m, m < l*2+1 → h.D (gcart + (m*nbra+i)) = .val (X (m*nbra+i)))
    (a : ∀ m, m < l*2+1 → h.D (gsph + (m*lds+i)) ≠ .oob)
    (d : ∀ m m', m < l*2+1 → m' < l*2+1 → gcart + (m*nbra+i) ≠ gsph + (m'*lds+i)) :
    wp (Prog.cpy (gsph + (n*lds+i)) (gcart + (n*nbra+i)))
      (fun _ h2 => AssignedD h h2 (fun m => m < n+1) (fun m => gsph + (m*lds+i)) (fun m => X (m*nbra+i))) h1 := by
  refine H.cpy_step n rfl (v n hn) (fun k hk => d _ _ hn (by omega)) (a n hn) ?_ ?_
  · intro k hk e
    obtain ⟨_, rfl⟩ := ld1_inj (gsph := gsph) hld hi hi e
    rfl
  · intro h2 H2
    exact H2.congr (fun k => by omega) (fun _ _ => rfl)

theorem ketSph1_wp {l : Nat} (hl : l < 16)
    {tab gsph gcart : Ptr} {lds nbra : Nat} {h : Heap α} {X : Nat → α} (hT : HoldsTab h tab) (hld : nbra ≤ lds)
    (hX : HoldsD h gcart (nbra * ncart l) X) (hS : ∀ i m, i < nbra → m < l*2+1 → h.D (gsph + (m*lds+i)) ≠ .oob)
    (ht : tab.buf ≠ gsph.buf)
    (hd : ∀ x i m, x < nbra * ncart l → i < nbra → m < l*2+1 → gcart + x ≠ gsph + (m*lds+i)) :
    wp (ketSph1 tab l gsph gcart lds nbra) (fun r h' => r = gsph ∧ Ket1Out l h h' gsph lds nbra X) h := by
  unfold ketSph1
  split
  · rw [wp_mbind]
    refine wp_mono (copyKet1_wp (l := 0) (by omega) hld hX hS hd ?_) ?_
    · intro i hi h1 v a d
      have := copyTo_wp (n := 0) (l := 0) (h := h1) (h1 := h1) (X := X) hld hi
        (AssignedD.init _ _ _ (by intro k; omega)) (by omega) v a d
      simpa only [Nat.zero_mul, Nat.zero_add] using this
    · rintro _ h' H
      rw [wp_pure]
      exact ⟨rfl, H⟩
  · rw [wp_mbind]
    refine wp_mono (copyKet1_wp (l := 1) (by omega) hld hX hS hd ?_) ?_
    · intro i hi h1 v a d
      rw [wp_mbind]
      refine wp_mono (copyTo_wp (n := 0) (l := 1) (h := h1) (h1 := h1) (X := X) hld hi
        (AssignedD.init _ _ _ (by intro k; omega)) (by omega) v a d) fun _ h2 H2 => ?_
      rw [wp_mbind]
      refine wp_mono (copyTo_wp (n := 1) (l := 1) (h := h1) (h1 := h2) (X := X) hld hi
        H2 (by omega) v a d) fun _ h3 H3 => ?_
      exact copyTo_wp (n := 2) (l := 1) (h := h1) (h1 := h3) (X := X) hld hi H3 (by omega) v a d
    · rintro _ h' H
      rw [wp_pure]
      exact ⟨rfl, H⟩
  · rename_i h0 h1
    unfold ketSph
    split
    · exact absurd rfl h0
    · exact absurd rfl h1
    · exact rowsKet1_wp hl kern_d_ket hT hld hX hS ht hd
    · exact rowsKet1_wp hl kern_f_ket hT hld hX hS ht hd
    · exact rowsKet1_wp hl kern_g_ket hT hld hX hS ht hd
    · rw [wp_mbind]
      have hc : ∀ i j, gsph + (i+lds*j) = gsph + (j*lds+i) := fun i j => by rw [Nat.add_comm, Nat.mul_comm lds j]
      refine wp_mono (gemmAcc_wp (m := nbra) (ldc := lds) (c := gsph) (bidx := fun kp j => kp+lenCart l*j) hld hX (hT l hl)
        (fun kp j hk hj => by rw [Nat.add_comm, Nat.mul_comm (lenCart l)]; exact digit_lt hk hj)
        (fun j i hj hi => by rw [hc]; exact hS _ _ hi hj)
        (fun x j i hx hj hi => by rw [hc]; exact hd _ _ _ hx hi hj)
        (fun x j i _ _ _ e => ht (congrArg Ptr.buf e :))) ?_
      rintro _ h' H
      rw [wp_pure]
      refine ⟨rfl, ?_, ?_, H.int⟩
      · rintro ⟨i, m⟩ ⟨hi, hm⟩
        have h1 := H.val (m, i) ⟨hm, hi⟩
        dsimp only [cAddr] at h1
        rw [hc] at h1
        unfold ld1
        rw [h1, lsum_eq_sum]
        unfold sphV
        congr 1
        refine Finset.sum_congr rfl fun k hk => ?_
        have hk' := Finset.mem_range.1 hk
        rw [Nat.add_comm k, Nat.mul_comm (lenCart l), lenCart_eq, (digit hk').1, (digit hk').2, Nat.add_comm i,
          Nat.mul_comm nbra, mul_comm]
      · intro q hq
        refine H.frame q (fun k hk e => hq (k.2, k.1) ⟨hk.2, hk.1⟩ ?_)
        unfold ld1
        rw [← hc]
        exact e
end Verif.Lemmas
