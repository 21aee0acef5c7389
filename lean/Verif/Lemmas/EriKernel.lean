import Verif.Model.Int2e
import Verif.Lemmas.EriQuad
import Verif.Lemmas.Nuc

/-! The evaluator of primitive electron repulsion integrals. -/
namespace Verif.Lemmas
open Verif Verif.Model Verif.Spec Verif.Prog Verif.Props MeasureTheory Polynomial

/-- position of the intermediates with the given powers -/
def adr4 (e : EnvG) (I J K L : Nat → Nat → Nat) (c n : Nat) : Nat :=
  c * e.g_size + slab4 e (I c n) (J c n) (K c n) (L c n) 0

theorem slab4_lt {e : EnvG} (he : Shape4 e) {i j k l r : Nat} (hi : i ≤ e.li_ceil) (hj : j ≤ e.lj_ceil)
    (hk : k ≤ e.lk_ceil) (hl : l ≤ e.ll_ceil) (hr : r < e.nrys_roots) : slab4 e i j k l r < e.g_size :=
  (slabOK4_of (A := dimA e.li_ceil e.lj_ceil) (B := dimB e.li_ceil e.lj_ceil)
    (K := dimA e.lk_ceil e.ll_ceil) (L := dimB e.lk_ceil e.ll_ceil) he.si he.sk he.sl he.sj he.gs
    (dimA_gt _ _) (dimB_gt _ _) (dimA_gt _ _) (dimB_gt _ _)).range i j k l r hi hj hk hl hr

theorem cells4_val {e : EnvG} {he : Shape4 e} {g : Ptr} {E : Nat → Nat → Nat → Nat → Nat → Nat → ℝ} {h0 h : Heap ℝ}
    (H : (cells4 e he g E).T h0 (full4 e) h) {c i j k l r : Nat} (hc : c < 3) (hi : i ≤ e.li_ceil) (hj : j ≤ e.lj_ceil)
    (hk : k ≤ e.lk_ceil) (hl : l ≤ e.ll_ceil) (hr : r < e.nrys_roots) :
    h.D (gAx g e c (slab4 e i j k l r)) = .val (E c i j k l r) := by
  refine T_val H (k := (i,j,k,l,r)) hc ⟨hi, hj, hk, hl⟩ ⟨?_, ?_, ?_, ?_, hr⟩
  all_goals
    dsimp only
    first | unfold dimA | unfold dimB
    split <;> omega

/-- the number a primitive evaluation gives for unit prefactor -/
noncomputable def eriW (d : G2 ℝ) (i j k l : Nat → Nat) : ℝ :=
  repulsion (interaction d.omega) (pg (d.ai+d.aj) (fun k => d.rij k) fun c => pq (d.ri c) (d.rj c) (i c) (j c))
    (pg (d.ak+d.al) (fun k => d.rkl k) fun c => pq (d.rk c) (d.rl c) (k c) (l c)) / (2 / Real.sqrt Real.pi * Real.pi^3)

open Classical in
theorem eri_kernel {R : Rys2 ℝ} {e : EnvG} {d : G2 ℝ} {cutoff : ℝ} {g idx : Ptr} {leng nf : Nat}
    {T : Ptr → Option Int} {I J K L : Nat → Nat → Nat} (he : Shape4 e) (hl : 3 * e.g_size ≤ leng)
    (hord : e.rys_order = (e.li_ceil + e.lj_ceil + e.lk_ceil + e.ll_ceil)/2 + 1)
    (hn : e.nrys_roots = e.rys_order ∨ e.nrys_roots = 2*e.rys_order) (hR : Rys2OK R e.nrys_roots)
    (ha : 0 < d.ai+d.aj) (hb : 0 < d.ak+d.al)
    (hI : ∀ n c, n < nf → c < 3 → I c n ≤ e.li_ceil ∧ J c n ≤ e.lj_ceil ∧ K c n ≤ e.lk_ceil ∧ L c n ≤ e.ll_ceil)
    (hdeg : ∀ n, n < nf → ∑ c : Fin 3, (I c n + J c n + (K c n + L c n)) < 2 * e.rys_order)
    (hT : IdxT T idx nf (adr4 e I J K L)) :
    KernelSpec T (fun fac => g0_2e R realK e d cutoff g fac) (fun _ gout em => gout2e nf e.nrys_roots idx g gout em)
      (Blk g leng) nf (decide (G2.kept d cutoff))
      (fun n => eriW d (fun c => I c n) (fun c => J c n) (fun c => K c n) (fun c => L c n)) := by
  intro fac gout em u h hRO hGs hA hd hE
  have hreg : ∀ {q}, regG e g q → Blk g leng q := by
    rintro q ⟨n, hn, rfl⟩; exact ⟨n, by omega, rfl⟩
  have hadr : ∀ n c r, g + adr4 e I J K L c n + r = gAx g e c (slab4 e (I c n) (J c n) (K c n) (L c n) r) := by
    intro n c r
    rw [Ptr.add_assoc]
    unfold adr4 gAx slab4
    congr 1
    omega
  have hin : ∀ n c r, n < nf → c < 3 → r < e.nrys_roots → Blk g leng (g + adr4 e I J K L c n + r) := by
    intro n c r hn hc hr
    rw [hadr]
    refine ⟨_, ?_, rfl⟩
    obtain ⟨a1, a2, a3, a4⟩ := hI n c hn hc
    have := radix_lt hc (slab4_lt he a1 a2 a3 a4 hr)
    omega
  refine wp_mono (g0_2e_wp (he := he) hord hn ha hb (fun r hr => nodeU_nonneg ha hb hn hR r hr) (fun q hq => hGs q (hreg hq))) ?_
  rintro r h1 ⟨hr, hag, hI1, hT1⟩
  have hag' := hag.mono (W := Blk g leng) (fun q hq => hreg hq)
  refine ⟨hr, hag', hI1, fun hr1 => ?_⟩
  have hT2 := hT1 hr1
  have hne : ∀ {q}, Blk gout nf q → ¬ Blk g leng q := by
    rintro q ⟨i, hi, rfl⟩; exact hd i hi
  refine wp_mono (gout1eNuc_wp (T := T) (ad := adr4 e I J K L) (u := u)
    (x := fun c n r => eriE d (nodeU R e d) (fun r => nodeW R e d r * (G2.norm d * fac)) c (I c n) (J c n) (K c n) (L c n) r)
    ?_ hT ?_ ?_ ?_ ?_) ?_
  · intro q x hq; rw [hI1]; exact hRO q x hq
  · intro i hi; rw [hag' _ (hd i hi)]; exact hA i hi
  · intro he i hi; rw [hag' _ (hd i hi)]; exact hE he i hi
  · intro n c r hn hc hr hb; exact hne hb (hin n c r hn hc hr)
  · intro n c r hn hc hr
    rw [hadr]
    obtain ⟨a1, a2, a3, a4⟩ := hI n c hn hc
    exact cells4_val hT2 hc a1 a2 a3 a4 hr
  · rintro _ h2 ⟨H2, hag2, hI2⟩
    refine ⟨?_, hag'.trans hag2 (fun q hq => Or.inl hq) (fun q hq => Or.inr hq), by rw [hI2, hI1]⟩
    intro n hn'
    rw [H2 n hn']
    have hval : (∑ r ∈ Finset.range e.nrys_roots,
        eriE d (nodeU R e d) (fun r => nodeW R e d r * (G2.norm d * fac)) 0 (I 0 n) (J 0 n) (K 0 n) (L 0 n) r *
        eriE d (nodeU R e d) (fun r => nodeW R e d r * (G2.norm d * fac)) 1 (I 1 n) (J 1 n) (K 1 n) (L 1 n) r *
        eriE d (nodeU R e d) (fun r => nodeW R e d r * (G2.norm d * fac)) 2 (I 2 n) (J 2 n) (K 2 n) (L 2 n) r) =
        fac * eriW d (fun c => I c n) (fun c => J c n) (fun c => K c n) (fun c => L c n) := by
      have hq := eri_sum ha hb hn hR (fun c => pq (d.ri c) (d.rj c) (I c n) (J c n))
        (fun c => pq (d.rk c) (d.rl c) (K c n) (L c n))
        (lt_of_le_of_lt (Finset.sum_le_sum fun c _ => Nat.add_le_add (pq_natDegree _ _ _ _) (pq_natDegree _ _ _ _)) (hdeg n hn'))
      have hpos : 2 / Real.sqrt Real.pi * Real.pi^3 ≠ 0 := by positivity
      unfold eriW
      rw [← hq, mul_div_cancel_left₀ _ hpos, Finset.mul_sum, Finset.mul_sum]
      refine Finset.sum_congr rfl (fun r _ => ?_)
      rw [Fin.prod_univ_three]
      unfold eriE G2.a0
      simp only [show ¬ (0 = 2) by decide, show ¬ (1 = 2) by decide, if_false, if_true, Fin.val_zero, Fin.val_one, Fin.val_two]
      generalize rm2 _ _ _ (d.rij 0) _ _ _ = m0
      generalize rm2 _ _ _ (d.rij 1) _ _ _ = m1
      generalize rm2 _ _ _ (d.rij 2) _ _ _ = m2
      ring
    refine congrArg Cell.val ?_
    split
    · exact congrArg (u n + ·) hval
    · exact hval

end Verif.Lemmas
