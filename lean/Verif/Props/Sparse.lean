import Verif.Lemmas.Contrib
import Verif.Props.Fblas

/-
Property C06: the sparse contraction tables and kernels (src/optimizer.c:436-458,
src/g1e.c:508-559) are equivalent to dense contraction.
-/
namespace Verif.Props
open Verif Verif.Model Prog

variable {α : Type}

/-- **C06** The non-zero tables.  For every primitive `ip` the row `sortedidx[ip*ictr ..]` is
a permutation of all contraction indices, whose first `non0ctr[ip]` entries are, in
increasing order, exactly the indices with non-zero coefficient.  No coefficient is missed or
listed twice, nothing else is written and nothing undefined is read. -/
theorem C06_table [Zero α] [DecidableEq α] (sortedidx non0ctr : Ptr) (ci : Nat → α)
    (iprim ictr : Nat) (h : Heap α)
    (ha : ∀ i, i < iprim*ictr → h.I (sortedidx + i) ≠ .oob)
    (hb : ∀ i, i < iprim → h.I (non0ctr + i) ≠ .oob)
    (hd : ∀ i j, i < iprim*ictr → j < iprim → sortedidx + i ≠ non0ctr + j) :
    ∃ h', run (non0coeffByshell sortedidx non0ctr ci iprim ictr) h = some ((), h') ∧
      (∀ ip, ip < iprim → ∃ nz z : List Nat,
        h'.I (non0ctr + ip) = .val (nz.length : Int) ∧
        (∀ i, i < ictr → h'.I (sortedidx + (ip*ictr+i)) = .val (((nz ++ z).getD i 0 : Nat) : Int)) ∧
        (∀ j, j ∈ nz ↔ j < ictr ∧ ci (iprim*j+ip) ≠ 0) ∧ nz.Pairwise (· < ·) ∧
        (nz ++ z).Perm (List.range ictr)) ∧
      (∀ q, (∀ i, i < iprim*ictr → q ≠ sortedidx + i) → (∀ i, i < iprim → q ≠ non0ctr + i) →
        h'.I q = h.I q) ∧ h'.D = h.D := by
  obtain ⟨_, h', hr, H⟩ := run_of_wp (non0coeff_wp sortedidx non0ctr ci iprim ictr h ha hb hd)
  refine ⟨h', hr, fun ip hip => ⟨nzList (fun j => ci (iprim*j+ip)) ictr,
    zList (fun j => ci (iprim*j+ip)) ictr, H.val (.inr ip) hip, fun i hi => H.val (.inl (ip, i)) ⟨hip, hi⟩,
    fun j => mem_nzList, nzList_sorted _ _, ?_⟩, ?_, H.dbl⟩
  · unfold nzList zList
    have := List.filter_append_perm (fun j => decide (ci (iprim*j+ip) ≠ 0)) (List.range ictr)
    simpa using this
  · intro q h1 h2
    refine H.frame q ?_
    rintro (⟨a, b⟩ | a) hx
    · exact h1 _ (radix_lt hx.1 hx.2)
    · exact h2 _ hx

/-- **C06** First contribution (`CINTprim_to_ctr_0`): the block is overwritten by the dense
outer product of the primitive's coefficient column with the primitive integrals. -/
theorem C06_first [Mul α] (gc gp : Ptr) (c : Nat → α) (nf nprim nctr ip : Nat)
    (v : Nat → α) (h : Heap α) (hgp : HoldsD h gp nf v) (hgc : AllocD h gc (nf*nctr))
    (hd : Disj gp nf gc (nf*nctr)) :
    ∃ h', run (primToCtr0 gc gp (fun k => c (k + ip)) nf nprim nctr) h = some ((), h') ∧
      (∀ j n, j < nctr → n < nf → h'.D (gc + (nf*j+n)) = .val (c (nprim*j+ip) * v n)) ∧
      (∀ q, (∀ k, k < nf*nctr → q ≠ gc + k) → h'.D q = h.D q) ∧ h'.I = h.I := by
  obtain ⟨_, h', hr, H⟩ := run_of_wp (primToCtr0_wp (coeff := fun k => c (k+ip)) (nprim := nprim)
    hgp hgc hd)
  exact ⟨h', hr, fun j n hj hn => H.val (j, n) ⟨hj, hn⟩,
    fun q hq => H.frame q (fun k hk => hq _ (ctr_lt hk.1 hk.2)), H.int⟩

/-- **C06** Building the tables and then accumulating with `CINTprim_to_ctr_1` is dense
contraction: every one of the `nctr` rows receives `coefficient * primitive`, also the rows
the sparse kernel skips. -/
theorem C06_sparse_is_dense [CommRing α] [DecidableEq α] (sortedidx non0ctr gc gp : Ptr)
    (c : Nat → α) (nf nprim nctr ip : Nat) (u v : Nat → α) (h : Heap α) (hip : ip < nprim)
    (ha : ∀ i, i < nprim*nctr → h.I (sortedidx + i) ≠ .oob)
    (hb : ∀ i, i < nprim → h.I (non0ctr + i) ≠ .oob)
    (hdt : ∀ i j, i < nprim*nctr → j < nprim → sortedidx + i ≠ non0ctr + j)
    (hgp : HoldsD h gp nf v) (hgc : HoldsD h gc (nf*nctr) u) (hd : Disj gp nf gc (nf*nctr)) :
    ∃ h', run (do
        non0coeffByshell sortedidx non0ctr c nprim nctr
        let k ← ldI (non0ctr + ip)
        primToCtr1 gc gp (fun k => c (k + ip)) nf nprim k.toNat (sortedidx + ip*nctr)) h
        = some ((), h') ∧
      (∀ j n, j < nctr → n < nf →
        h'.D (gc + (nf*j+n)) = .val (u (nf*j+n) + c (nprim*j+ip) * v n)) ∧
      (∀ q, (∀ k, k < nf*nctr → q ≠ gc + k) → h'.D q = h.D q) := by
  suffices hw : wp (do
        non0coeffByshell sortedidx non0ctr c nprim nctr
        let k ← ldI (non0ctr + ip)
        primToCtr1 gc gp (fun k => c (k + ip)) nf nprim k.toNat (sortedidx + ip*nctr) : Prog α Unit)
      (fun _ h' => (∀ j n, j < nctr → n < nf →
        h'.D (gc + (nf*j+n)) = .val (u (nf*j+n) + c (nprim*j+ip) * v n)) ∧
      (∀ q, (∀ k, k < nf*nctr → q ≠ gc + k) → h'.D q = h.D q)) h by
    obtain ⟨_, h', hr, H⟩ := run_of_wp hw
    exact ⟨h', hr, H⟩
  simp only [wp_mbind, wp_ldI]
  refine wp_mono (non0coeff_wp sortedidx non0ctr c nprim nctr h ha hb hdt) (fun _ h1 H1 => ?_)
  refine ⟨_, H1.val (.inr ip) hip, ?_⟩
  simp only [tblVal, Int.toNat_natCast]
  have hD1 : h1.D = h.D := H1.dbl
  refine wp_mono (primToCtr1_wp (coeff := fun k => c (k+ip)) (nprim := nprim) (nctr := nctr)
    (L := nzList (fun j => c (nprim*j+ip)) nctr) (fun j hj => (mem_nzList.1 hj).1)
    (nzList_nodup _ _) ?_ (u := u) (v := v) (gp := gp) (gc := gc) (nf := nf) ?_ ?_ hd)
    (fun _ h2 H2 => ?_)
  · intro i hi
    have hle : (nzList (fun j => c (nprim*j+ip)) nctr).length ≤ nctr := by
      have := nz_add_z_length (fun j => c (nprim*j+ip)) nctr; omega
    have h2 := H1.val (.inl (ip, i)) ⟨hip, by simp only; omega⟩
    simp only [tblAddr, tblVal] at h2
    rw [Ptr.add_assoc]
    rw [h2, List.getD_append _ _ _ _ hi]
  · intro i hi; rw [hD1]; exact hgp i hi
  · intro i hi; rw [hD1]; exact hgc i hi
  · refine ⟨fun j n hj hn => ?_, fun q hq => ?_⟩
    · rw [H2.val (j, n) ⟨hj, hn⟩]
      dsimp only
      by_cases hz : c (nprim*j+ip) = 0
      · have hm : j ∉ nzList (fun j => c (nprim*j+ip)) nctr := fun hm => (mem_nzList.1 hm).2 hz
        rw [if_neg hm, hz, zero_mul, add_zero]
      · have hm : j ∈ nzList (fun j => c (nprim*j+ip)) nctr := mem_nzList.2 ⟨hj, hz⟩
        rw [if_pos hm]
    · rw [H2.frame q (fun k hk => hq _ (ctr_lt hk.1 hk.2)), hD1]

/-- **C06** The dense kernel `CINTprim_to_ctr` (strided source: component `i` of the
primitive integrals is `gp[k*inc+i]`) also skips zero coefficients without changing the
result. -/
theorem C06_dense [CommRing α] [DecidableEq α] (gc gp : Ptr) (c : Nat → α)
    (nf inc nprim nctr : Nat) (u v : Nat → α) (h : Heap α)
    (hgp : HoldsD h gp (nf*inc) v) (hgc : HoldsD h gc (inc*nctr*nf) u)
    (hd : Disj gp (nf*inc) gc (inc*nctr*nf)) :
    ∃ h', run (primToCtr gc nf gp inc nprim nctr c) h = some ((), h') ∧
      (∀ i j k, i < inc → j < nctr → k < nf →
        h'.D (gc + ((i*nctr+j)*nf+k)) =
          .val (u ((i*nctr+j)*nf+k) + c (nprim*j) * v (k*inc+i))) ∧
      (∀ q, (∀ k, k < inc*nctr*nf → q ≠ gc + k) → h'.D q = h.D q) ∧ h'.I = h.I := by
  -- state: all cells (i',j',k') lexicographically before the current one are final
  let A : Nat × Nat × Nat → Ptr := fun p => gc + ((p.1*nctr+p.2.1)*nf+p.2.2)
  let W : Nat × Nat × Nat → α := fun p =>
    u ((p.1*nctr+p.2.1)*nf+p.2.2) + c (nprim*p.2.1) * v (p.2.2*inc+p.1)
  have hinj : ∀ p q : Nat × Nat × Nat, p.2.1 < nctr → p.2.2 < nf → q.2.1 < nctr → q.2.2 < nf →
      A p = A q → p = q := by
    intro p q h1 h2 h3 h4 e
    obtain ⟨e1, e2⟩ := radix_inj h2 h4 ((Ptr.add_right_inj _ _ _).1 e)
    obtain ⟨e3, e4⟩ := radix_inj h1 h3 e1
    exact Prod.ext e3 (Prod.ext e4 e2)
  have hlt : ∀ p : Nat × Nat × Nat, p.1 < inc → p.2.1 < nctr → p.2.2 < nf →
      (p.1*nctr+p.2.1)*nf+p.2.2 < inc*nctr*nf := fun p h1 h2 h3 => radix_lt (radix_lt h1 h2) h3
  let D (i j k : Nat) : Nat × Nat × Nat → Prop := fun p => p.2.1 < nctr ∧ p.2.2 < nf ∧
    (p.1 < i ∨ (p.1 = i ∧ (p.2.1 < j ∨ (p.2.1 = j ∧ p.2.2 < k))))
  have hAinj : ∀ {i j k i' j' k'} p q, D i j k p → D i' j' k' q → A p = A q → p = q :=
    fun p q hp hq e => hinj p q hp.1 hp.2.1 hq.1 hq.2.1 e
  suffices hw : wp (primToCtr gc nf gp inc nprim nctr c)
      (fun _ h' => AssignedD h h' (D inc 0 0) A W) h by
    obtain ⟨_, h', hr, H⟩ := run_of_wp hw
    refine ⟨h', hr, fun i j k hi hj hk => H.val (i, j, k) ⟨hj, hk, Or.inl hi⟩,
      fun q hq => H.frame q (fun p hp => hq _ (hlt p ?_ hp.1 hp.2.1)), H.int⟩
    obtain ⟨_, _, h3⟩ := hp
    omega
  unfold primToCtr
  refine wp_forN (fun i h1 => AssignedD h h1 (D i 0 0) A W) ?_ ?_ (fun h1 H1 => H1)
  · exact AssignedD.init _ _ _ (by rintro p ⟨_, _, h3⟩; omega)
  intro i hi h1 H1
  refine wp_forN (fun j h2 => AssignedD h h2 (D i j 0) A W) H1 ?_ ?_
  · intro j hj h2 H2
    have hcell : ∀ k, k < nf → ∀ h3, AssignedD h h3 (D i j k) A W →
        h3.D (A (i, j, k)) = .val (u ((i*nctr+j)*nf+k)) := by
      intro k hk h3 H3
      rw [H3.frame _ (fun p hp e => ?_)]
      · exact hgc _ (hlt (i, j, k) hi hj hk)
      · have := hinj (i, j, k) p hj hk hp.1 hp.2.1 e
        obtain ⟨_, _, h4⟩ := hp
        rw [← this] at h4
        simp only at h4
        omega
    have hsrc : ∀ k, k < nf → ∀ k' h3, AssignedD h h3 (D i j k') A W →
        h3.D (gp + (k*inc+i)) = .val (v (k*inc+i)) := by
      intro k hk k' h3 H3
      rw [H3.frame _ (fun p hp e => hd _ _ (radix_lt hk hi) (hlt p ?_ hp.1 hp.2.1) e)]
      · exact hgp _ (radix_lt hk hi)
      · obtain ⟨_, _, h4⟩ := hp
        omega
    by_cases hz : c (nprim*j) = 0
    · simp only [ne_eq, hz, not_true_eq_false, if_false, wp_pure]
      -- skipped row: its cells already hold the right value
      refine ⟨?_, ?_, H2.int⟩
      · rintro p ⟨h3, h4, h5⟩
        by_cases hp : D i j 0 p
        · exact H2.val p hp
        · have hpe : p.1 = i ∧ p.2.1 = j := by
            by_contra hne
            exact hp ⟨h3, h4, by omega⟩
          obtain ⟨e1, e2⟩ := hpe
          rw [H2.frame _ (fun q hq e => hp (hinj p q h3 h4 hq.1 hq.2.1 e ▸ hq))]
          rw [hgc _ (hlt p (e1 ▸ hi) h3 h4)]
          simp only [W, e2, hz, zero_mul, add_zero]
      · intro q hq
        refine H2.frame q (fun p hp => hq p ⟨hp.1, hp.2.1, ?_⟩)
        obtain ⟨_, _, h4⟩ := hp
        omega
    · simp only [ne_eq, hz, not_false_eq_true, if_true]
      refine wp_forN (fun k h3 => AssignedD h h3 (D i j k) A W) H2 ?_ ?_
      · intro k hk h3 H3
        simp only [wp_mbind, wp_ld, wp_st]
        refine ⟨_, hcell k hk h3 H3, _, hsrc k hk k h3 H3, by rw [hcell k hk h3 H3]; simp, ?_⟩
        refine ⟨?_, ?_, H3.int⟩
        · rintro p ⟨h4, h5, h6⟩
          by_cases hp : p = (i, j, k)
          · subst hp; exact Heap.setD_D_self _ _ _
          · have hpD : D i j k p := ⟨h4, h5, by
              have : ¬ (p.1 = i ∧ p.2.1 = j ∧ p.2.2 = k) := fun ⟨a, b, d⟩ =>
                hp (Prod.ext a (Prod.ext b d))
              omega⟩
            rw [Heap.setD_D_ne _ _ (fun e => hp (hinj p (i, j, k) h4 h5 hj hk e))]
            exact H3.val p hpD
        · intro q hq
          rw [Heap.setD_D_ne _ _ (hq (i, j, k) ⟨hj, hk, Or.inr ⟨rfl, Or.inr ⟨rfl, Nat.lt_succ_self _⟩⟩⟩)]
          refine H3.frame q (fun p hp => hq p ⟨hp.1, hp.2.1, ?_⟩)
          obtain ⟨_, _, h6⟩ := hp
          omega
      · intro h3 H3
        refine H3.congr (fun p => ?_) (fun _ _ => rfl)
        simp only [D]
        constructor <;> (rintro ⟨a, b, d⟩; exact ⟨a, b, by omega⟩)
  · intro h2 H2
    refine H2.congr (fun p => ?_) (fun _ _ => rfl)
    simp only [D]
    constructor <;> (rintro ⟨a, b, d⟩; exact ⟨a, b, by omega⟩)

/-- Non-vacuity: 2 primitives, 3 contractions, one zero coefficient. -/
example : ∃ h : Heap ℤ, (∀ i, i < 2*3 → h.I ((⟨0,0⟩ : Ptr) + i) ≠ .oob) ∧
    (∀ i, i < 2 → h.I ((⟨1,0⟩ : Ptr) + i) ≠ .oob) ∧
    (∀ i j, i < 2*3 → j < 2 → (⟨0,0⟩ : Ptr) + i ≠ (⟨1,0⟩ : Ptr) + j) ∧
    HoldsD h ⟨3,0⟩ 4 (fun i => (i : ℤ)) ∧ HoldsD h ⟨2,0⟩ (4*3) (fun i => (i : ℤ)) ∧
    Disj ⟨3,0⟩ 4 ⟨2,0⟩ (4*3) := by
  refine ⟨⟨fun q => .val (q.off : ℤ), fun _ => .undef⟩, ?_, ?_, ?_, ?_, ?_, ?_⟩
  · intros; simp
  · intros; simp
  · intro i j _ _ e; have := congrArg Ptr.buf e; simp at this
  · intro i _; simp
  · intro i _; simp
  · intro i j _ _ e; have := congrArg Ptr.buf e; simp at this

end Verif.Props
