import Verif.Model.StgRoots
import Verif.Lemmas.PolyFits

/-! The programs of src/stg_roots.c sum a series over the table. -/
namespace Verif.Lemmas.StgRoots
open Verif Prog Verif.Model Verif.Model.PolyFits Verif.Model.StgRoots Verif.Lemmas.PolyFits

variable {α : Type} [Field α]

section
attribute [local irreducible] Verif.Prog.forN Verif.Prog.forS StgRoots.o7

/-- a double loop of stores `p[j + 14*i] = f i j` -/
theorem wp_square {f : Nat → Nat → Prog α α} {p : Ptr} {v : Nat → Nat → α} {n N : Nat} (hN : N ≤ 14) (h : Heap α)
    (hok : ∀ i j, i < n → j < N → h.D (p + (j+14*i)) ≠ .oob)
    (A : ∀ i j, i < n → j < N → ∀ h2 : Heap α, (∀ q : Ptr, q.buf ≠ p.buf → h2.D q = h.D q) → wp (f i j) (fun y h3 => y = v i j ∧ h3 = h2) h2) :
    wp (forN n fun i => forN N fun j => do
      let y ← f i j
      st (p + (j + 14*i)) y) (fun _ h' => AssignedD h h' (fun k : Nat × Nat => k.1 < n ∧ k.2 < N) (fun k => p + (k.2 + 14*k.1))
        (fun m => v m.1 m.2)) h := by
  refine wp_forN (fun i h1 => AssignedD h h1 (fun k : Nat × Nat => k.1 < i ∧ k.2 < N) (fun k => p + (k.2 + 14*k.1))
      (fun m => v m.1 m.2)) (AssignedD.init _ _ _ (fun k hk => by omega)) ?_ (fun _ x => x)
  intro i hi h1 H1
  have ne : ∀ (q : Ptr) (m : Nat), q.buf ≠ p.buf → q ≠ p + m := fun q m hq e => hq (by rw [e]; rfl)
  refine wp_mono (wp_stores (v := fun j => v i j) (addr := fun j => p + (j + 14*i)) (fun a b e => by simpa using e) (fun j hj => H1.ne_oob (hok i j hi hj))
    (fun j hj h2 H2 => A i j hi hj h2 (fun q hq => by rw [H2 q (fun _ _ => ne q _ hq), H1.frame q (fun _ _ => ne q _ hq)]))) ?_
  intro _ h2 H2
  have Cc : AssignedD h1 h2 (fun k : Nat × Nat => k.1 = i ∧ k.2 < N) (fun k => p + (k.2 + 14*k.1)) (fun m => v m.1 m.2) := by
    refine H2.reindex ?_ ?_
    · rintro ⟨a, b⟩ ⟨e, hb'⟩
      simp only at e hb'
      subst e
      exact ⟨b, hb', rfl, rfl⟩
    · intro j hj; exact ⟨(i, j), ⟨rfl, hj⟩, rfl⟩
  refine H1.comp Cc ?_ ?_
  · intro k k' hk hk' e
    have e' : k.2 + 14*k.1 = k'.2 + 14*k'.1 := (Ptr.add_right_inj _ _ _).1 e
    exact absurd e' (by omega)
  · intro k; omega

theorem wp_dc (rr x : Ptr) (u : α) (n : Nat) (c : Nat → Nat → Nat → α) (h : Heap α)
    (hok : ∀ i j, i < n → j < 14 → h.D (rr + (j+14*i)) ≠ .oob) (hb : x.buf ≠ rr.buf)
    (hc : ∀ i j k, i < n → j < 14 → k < 14 → h.D (x + (196*i + 14*j + k)) = .val (c i j k)) :
    wp (StgRoots.clenshawDc rr x u n) (fun _ h' => AssignedD h h' (fun k : Nat × Nat => k.1 < n ∧ k.2 < 14) (fun k => rr + (k.2 + 14*k.1))
      (fun m => cheb (c m.1 m.2) u)) h := by
  unfold StgRoots.clenshawDc
  refine wp_square (v := fun i j => cheb (c i j) u) le_rfl h hok ?_
  intro i j hi hj h2 H2
  refine wp_clenshaw (x + (196*i+14*j)) 1 u (fun k => c i j k) h2 (fun k hk => ?_)
  rw [Ptr.add_assoc, Nat.mul_one, H2 _ (by simpa only [Ptr.add_buf] using hb)]
  exact hc i j k hi hj hk

theorem wp_cosSum (C : Nat → Nat → α) (im : Ptr) (i k : Nat) (y : Nat → α) (h : Heap α) (hy : ∀ j, j < 14 → h.D (im + (j + 14*i)) = .val (y j)) :
    wp (cosSum C im i k) (fun d h' => d = ∑ j ∈ Finset.range 14, y j * C j k ∧ h' = h) h := by
  unfold cosSum
  refine wp_forS (fun m d h' => d = ∑ j ∈ Finset.range m, y j * C j k ∧ h' = h) ⟨by simp, rfl⟩ ?_ (fun d h' x => x)
  rintro m hm d h' ⟨rfl, rfl⟩
  rw [wp_mbind, wp_ld]
  refine ⟨_, hy m hm, ?_⟩
  rw [wp_pure, Finset.sum_range_succ]
  exact ⟨rfl, rfl⟩

theorem wp_matmul (C : Nat → Nat → α) (imc im : Ptr) (n : Nat) (y : Nat → Nat → α) (h : Heap α)
    (hok : ∀ i j, i < n → j < 14 → h.D (imc + (j+14*i)) ≠ .oob) (hb : im.buf ≠ imc.buf)
    (hy : ∀ i j, i < n → j < 14 → h.D (im + (j+14*i)) = .val (y i j)) :
    wp (matmul C imc im n) (fun _ h' => AssignedD h h' (fun k : Nat × Nat => k.1 < n ∧ k.2 < 14) (fun k => imc + (k.2 + 14*k.1))
      (fun m => o7 * ∑ j ∈ Finset.range 14, y m.1 j * C j m.2)) h := by
  unfold matmul
  refine wp_square (v := fun i k => o7 * ∑ j ∈ Finset.range 14, y i j * C j k) le_rfl h hok ?_
  intro i j hi hj h2 H2
  unfold cosVal
  rw [wp_mbind]
  refine wp_mono (wp_cosSum C im i j (y i) h2 (fun k hk => ?_)) ?_
  · rw [H2 _ (by simpa only [Ptr.add_buf] using hb)]; exact hy i k hi hk
  · rintro d h3 ⟨rfl, rfl⟩
    exact ⟨rfl, rfl⟩
end

/-- the value of the fit: for each of the 14 nodes a Chebyshev series in `uu`, from the 14 values the coefficients of a series in `tt` -/
noncomputable def fit (C : Nat → Nat → α) (c : Nat → Nat → α) (uu tt : α) : α :=
  cheb (fun k => o7 * ∑ j ∈ Finset.range 14, cheb (c j) uu * C j k) tt

theorem wp_pass (C : Nat → Nat → α) (n : Nat) (uu tt : α) (p im imc o : Ptr) (c : Nat → Nat → Nat → α) (h : Heap α)
    (oim : ∀ i, i < 14*n → h.D (im + i) ≠ .oob) (oimc : ∀ i, i < 14*n → h.D (imc + i) ≠ .oob) (oo : ∀ i, i < n → h.D (o + i) ≠ .oob)
    (hpi : p.buf ≠ im.buf) (hii : im.buf ≠ imc.buf) (hoi : imc.buf ≠ o.buf)
    (hc : ∀ i j k, i < n → j < 14 → k < 14 → h.D (p + (196*i + 14*j + k)) = .val (c i j k)) :
    wp (pass C n uu tt p im imc o) (fun _ h' => (∀ i, i < n → h'.D (o + i) = .val (fit C (c i) uu tt)) ∧
      (∀ q : Ptr, (∀ i, i < n → q ≠ o + i) → q.buf ≠ im.buf → q.buf ≠ imc.buf → h'.D q = h.D q) ∧ (∀ q, h.D q ≠ .oob → h'.D q ≠ .oob) ∧ h'.I = h.I) h := by
  unfold pass
  rw [wp_mbind]
  refine wp_mono (wp_dc im p uu n c h (fun i j hi hj => oim _ (by omega)) hpi hc) ?_
  intro _ h1 H1
  rw [wp_mbind]
  refine wp_mono (wp_matmul C imc im n (fun i j => cheb (c i j) uu) h1 (fun i j hi hj => H1.ne_oob (oimc _ (by omega))) hii
    (fun i j hi hj => H1.val (i, j) ⟨hi, hj⟩)) ?_
  intro _ h2 H2
  refine wp_mono (wp_clenshawD1 o imc tt n (fun i k => o7 * ∑ j ∈ Finset.range 14, cheb (c i j) uu * C j k) h2
    (fun i hi => H2.ne_oob (H1.ne_oob (oo i hi))) (fun i j k _ _ _ e => hoi (by simpa only [Ptr.add_buf] using congrArg Ptr.buf e)) (fun i k hi hk => ?_)) ?_
  · rw [Nat.add_comm]; exact H2.val (i, k) ⟨hi, hk⟩
  · intro _ h3 H3
    refine ⟨fun i hi => H3.val i hi, fun q q1 q2 q3 => ?_, fun q hq => H3.ne_oob (H2.ne_oob (H1.ne_oob hq)), H3.int.trans (H2.int.trans H1.int)⟩
    rw [H3.frame q (fun i hi => q1 i hi), H2.frame q (fun k _ e => q3 (by rw [e]; rfl)), H1.frame q (fun k _ e => q2 (by rw [e]; rfl))]

end Verif.Lemmas.StgRoots
