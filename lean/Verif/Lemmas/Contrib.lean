import Verif.Lemmas.Sparse
import Verif.Model.Level
import Mathlib.Algebra.BigOperators.Group.Finset.Basic
import Mathlib.Algebra.BigOperators.Ring.Finset
import Mathlib.Tactic.Ring

/-
Reasoning about the contraction loops.  Every loop level accumulates into a block guarded
by an `empty` flag: while the flag is 1 the contents of the block are meaningless, once it
is 0 the block holds the sum of all contributions so far.
-/
namespace Verif.Model
open Verif Prog

variable {α : Type} [CommRing α] [DecidableEq α]

/-- Accumulator state: block `p[0..N)` guarded by the integer flag cell.
`b = false`: nothing accumulated yet (flag is 1, sum is zero); `b = true`: flag is 0 and the
block holds `v`. -/
structure AccSt (h : Heap α) (flag p : Ptr) (N : Nat) (b : Bool) (v : Nat → α) : Prop where
  flag : h.I flag = .val (if b then 0 else 1)
  alloc : AllocD h p N
  holds : b = true → HoldsD h p N v
  zero : b = false → ∀ i, i < N → v i = 0

theorem AccSt.congr {h : Heap α} {flag p : Ptr} {N : Nat} {b : Bool} {v w : Nat → α}
    (H : AccSt h flag p N b v) (hvw : ∀ i, i < N → v i = w i) : AccSt h flag p N b w :=
  ⟨H.flag, H.alloc, fun hb i hi => by rw [H.holds hb i hi, hvw i hi],
    fun hb i hi => by rw [← hvw i hi, H.zero hb i hi]⟩

theorem AccSt.agree {h h' : Heap α} {flag p : Ptr} {N : Nat} {b : Bool} {v : Nat → α}
    (H : AccSt h flag p N b v) {WD WI : Ptr → Prop} (hD : AgreeD h h' WD) (hI : AgreeI h h' WI)
    (hm : AllocMono h h') (h1 : ∀ i, i < N → ¬ WD (p + i)) (h2 : ¬ WI flag) :
    AccSt h' flag p N b v :=
  ⟨by rw [hI _ h2, H.flag], fun i hi => hm.D _ (H.alloc i hi),
    fun hb => (H.holds hb).agree hD h1, H.zero⟩

/-- `op` adds the contribution `(b, v)` to the accumulator `(flag, p, N)`, using double
scratch `SD` and integer scratch `SI`, reading the index tables `T`, touching nothing else. -/
def Contrib (T : Ptr → Option Int) (op : Prog α Unit) (flag p : Ptr) (N : Nat) (b : Bool)
    (v : Nat → α) (SD SI : Ptr → Prop) : Prop :=
  ∀ h b1 v1, RO T h → AccSt h flag p N b1 v1 → (∀ q, SD q → h.D q ≠ .oob) →
    (∀ q, SI q → h.I q ≠ .oob) →
    wp op (fun _ h' => AccSt h' flag p N (b1 || b) (fun i => v1 i + v i) ∧
      AgreeD h h' (fun q => Blk p N q ∨ SD q) ∧ AgreeI h h' (fun q => q = flag ∨ SI q)) h

section
variable {T : Ptr → Option Int} {flag p : Ptr} {N : Nat} {SD SI : Ptr → Prop}

theorem Contrib.weaken {op : Prog α Unit} {b : Bool} {v : Nat → α} {SD' SI' : Ptr → Prop}
    (H : Contrib T op flag p N b v SD SI) (hD : ∀ q, SD q → SD' q) (hI : ∀ q, SI q → SI' q) :
    Contrib T op flag p N b v SD' SI' := by
  intro h b1 v1 hT hA hSD hSI
  refine wp_mono (H h b1 v1 hT hA (fun q hq => hSD q (hD q hq)) (fun q hq => hSI q (hI q hq))) ?_
  rintro _ h' ⟨h1, h2, h3⟩
  exact ⟨h1, h2.mono (fun q hq => hq.imp id (hD q)), h3.mono (fun q hq => hq.imp id (hI q))⟩

theorem Contrib.congr {op : Prog α Unit} {b b' : Bool} {v v' : Nat → α}
    (H : Contrib T op flag p N b v SD SI) (hb : b = b') (hv : ∀ i, i < N → v i = v' i) :
    Contrib T op flag p N b' v' SD SI := by
  subst hb
  intro h b1 v1 hT hA hSD hSI
  refine wp_mono (H h b1 v1 hT hA hSD hSI) ?_
  rintro _ h' ⟨h1, h2, h3⟩
  exact ⟨h1.congr (fun i hi => by rw [hv i hi]), h2, h3⟩

/-- contributing nothing -/
theorem Contrib.skip : Contrib T (pure () : Prog α Unit) flag p N false (fun _ => 0) SD SI := by
  intro h b1 v1 _ hA _ _
  simp only [wp_pure, Bool.or_false]
  exact ⟨hA.congr (fun i _ => by rw [add_zero]), AgreeD.refl _ _, AgreeI.refl _ _⟩

/-- a loop adds up the contributions of its iterations -/
theorem Contrib.loop {n : Nat} {op : Nat → Prog α Unit} {b : Nat → Bool} {v : Nat → Nat → α}
    (hTf : T flag = none) (hTS : ∀ q, SI q → T q = none)
    (H : ∀ t, t < n → Contrib T (op t) flag p N (b t) (v t) SD SI) :
    Contrib T (forN n op) flag p N ((List.range n).any b)
      (fun i => ∑ t ∈ Finset.range n, v t i) SD SI := by
  intro h b1 v1 hT hA hSD hSI
  have hW : ∀ q, (q = flag ∨ SI q) → T q = none := by
    rintro q (rfl | hq)
    · exact hTf
    · exact hTS q hq
  refine wp_forN (fun t h1 => AccSt h1 flag p N (b1 || (List.range t).any b)
      (fun i => v1 i + ∑ s ∈ Finset.range t, v s i) ∧
      AgreeD h h1 (fun q => Blk p N q ∨ SD q) ∧ AgreeI h h1 (fun q => q = flag ∨ SI q) ∧
      AllocMono h h1) ?_ ?_ ?_
  · simp only [List.range_zero, List.any_nil, Bool.or_false, Finset.range_zero, Finset.sum_empty]
    exact ⟨hA.congr (fun i _ => by rw [add_zero]), AgreeD.refl _ _, AgreeI.refl _ _,
      AllocMono.refl _⟩
  · rintro t ht h1 ⟨hA1, hD1, hI1, hm1⟩
    refine wp_mono (wp_allocMono (H t ht h1 _ _ (hT.agree hI1 hW) hA1
      (fun q hq => hm1.D q (hSD q hq)) (fun q hq => hm1.I q (hSI q hq)))) ?_
    rintro _ h2 ⟨⟨hA2, hD2, hI2⟩, hm2⟩
    refine ⟨?_, hD1.trans hD2 (fun _ x => x) (fun _ x => x),
      hI1.trans hI2 (fun _ x => x) (fun _ x => x), hm1.trans hm2⟩
    rw [List.range_succ, List.any_append, List.any_cons, List.any_nil, Bool.or_false,
      ← Bool.or_assoc]
    exact hA2.congr (fun i _ => by rw [Finset.sum_range_succ, add_assoc])
  · rintro h1 ⟨hA1, hD1, hI1, _⟩
    exact ⟨hA1, hD1, hI1⟩

/-- the non-zero coefficient tables of a shell are part of the read-only memory -/
def TblRO (T : Ptr → Option Int) (non0ctr non0idx : Ptr) (c : Nat → α) (prim ctr : Nat) : Prop :=
  ∀ x, tblDom prim ctr x → T (tblAddr non0idx non0ctr ctr x) = some (tblVal c prim ctr x)

/-- one PRIM2CTR step with `ctr > 1` -/
theorem prim2ctr_acc {ctr prim ngp : Nat} {gp non0ctr non0idx : Ptr} {c : Nat → α} {pi : Nat}
    (hctr : 1 < ctr) (hpi : pi < prim) (htbl : TblRO T non0ctr non0idx c prim ctr)
    {h : Heap α} {b1 : Bool} {v1 v : Nat → α} (hT : RO T h)
    (hx : AccSt h flag p (ngp*ctr) b1 v1) (hy : HoldsD h gp ngp v)
    (hd : Disj gp ngp p (ngp*ctr)) :
    wp (prim2ctr ctr prim flag p gp c pi ngp non0ctr non0idx) (fun _ h' =>
      AccSt h' flag p (ngp*ctr) true
        (fun m => v1 m + c (prim*(m/ngp)+pi) * v (m%ngp)) ∧
      AgreeD h h' (Blk p (ngp*ctr)) ∧ AgreeI h h' (fun q => q = flag)) h := by
  have key : ∀ (h1 : Heap α) (w : Nat × Nat → α),
      AssignedD h h1 (fun p : Nat × Nat => p.1 < ctr ∧ p.2 < ngp) (ctrAddr p ngp) w →
      (∀ i n, i < ctr → n < ngp → w (i, n) = v1 (ngp*i+n) + c (prim*i+pi) * v n) →
      wp (stI flag 0 : Prog α Unit) (fun _ h' => AccSt h' flag p (ngp*ctr) true
        (fun m => v1 m + c (prim*(m/ngp)+pi) * v (m%ngp)) ∧
        AgreeD h h' (Blk p (ngp*ctr)) ∧ AgreeI h h' (fun q => q = flag)) h1 := by
    intro h1 w H1 hw
    simp only [wp_stI]
    refine ⟨by rw [H1.int, hx.flag]; simp, ⟨by simp, ?_, ?_, by simp⟩, ?_, ?_⟩
    · intro i hi; rw [Heap.setI_D]; exact H1.ne_oob (hx.alloc i hi)
    · intro _ i hi
      have hn : 0 < ngp := Nat.pos_of_ne_zero (by rintro rfl; simp at hi)
      have h2 : i / ngp < ctr := Nat.div_lt_of_lt_mul hi
      have h3 := H1.val (i / ngp, i % ngp) ⟨h2, Nat.mod_lt _ hn⟩
      rw [hw _ _ h2 (Nat.mod_lt _ hn)] at h3
      simp only [ctrAddr, Nat.div_add_mod] at h3
      rw [Heap.setI_D]; exact h3
    · intro q hq
      rw [Heap.setI_D]
      exact H1.agree (fun k hk => ⟨_, ctr_lt hk.1 hk.2, rfl⟩) q hq
    · intro q hq
      rw [Heap.setI_I_ne _ _ hq, H1.int]
  unfold prim2ctr
  rw [if_pos hctr]
  simp only [wp_mbind, wp_ldI]
  refine ⟨_, hx.flag, ?_⟩
  cases b1 with
  | false =>
    simp only [Bool.false_eq_true, if_false, ne_eq, one_ne_zero, not_false_eq_true, if_true, wp_mbind]
    refine wp_mono (primToCtr0_wp hy hx.alloc hd) (fun _ h1 H1 => key h1 _ H1 ?_)
    intro i n hi hn
    rw [hx.zero rfl _ (ctr_lt hi hn), zero_add]
  | true =>
    simp only [if_true, ne_eq, not_true_eq_false, if_false, wp_mbind, wp_ldI]
    have hk := hT _ _ (htbl (.inr pi) hpi)
    refine ⟨_, hk, ?_⟩
    simp only [tblVal, Int.toNat_natCast]
    refine wp_mono (primToCtr1_wp (coeff := fun k => c (k+pi)) (nprim := prim) (nctr := ctr)
      (L := nzList (fun j => c (prim*j+pi)) ctr) (fun j hj => (mem_nzList.1 hj).1)
      (nzList_nodup _ _) ?_ hy (hx.holds rfl) hd) (fun _ h1 H1 => key h1 _ H1 ?_)
    · intro i hi
      have hle : (nzList (fun j => c (prim*j+pi)) ctr).length ≤ ctr := by
        have := nz_add_z_length (fun j => c (prim*j+pi)) ctr; omega
      have h2 := hT _ _ (htbl (.inl (pi, i)) ⟨hpi, by simp only; omega⟩)
      simp only [tblAddr, tblVal] at h2
      rw [List.getD_append _ _ _ _ hi] at h2
      rw [Ptr.add_assoc]; exact h2
    · intro i n hi hn
      simp only [mem_nzList, hi, true_and]
      by_cases hz : c (prim*i+pi) = 0
      · simp [hz]
      · simp [hz]

/-- One iteration of a contraction level. -/
theorem Contrib.level {ctr prim Ny t : Nat} {yflag gy non0ctr non0idx : Ptr} {c : Nat → α}
    {inner : α → Prog α Unit} {b : Bool} {w : Nat → α} {SD' SI' : Ptr → Prop}
    (hctr : 1 ≤ ctr) (ht : t < prim) (htbl : ctr ≠ 1 → TblRO T non0ctr non0idx c prim ctr)
    (hal : ctr = 1 → yflag = flag ∧ gy = p)
    (hne : ctr ≠ 1 → flag ≠ yflag ∧ Disj gy Ny p (Ny*ctr) ∧ T yflag = none ∧ SI' yflag ∧
      ∀ q, Blk gy Ny q → SD' q)
    (hTS : ∀ q, SI q → T q = none) (hSf : ¬ SI flag) (hSp : ∀ i, i < Ny*ctr → ¬ SD (p + i))
    (hSD : ∀ q, SD q → SD' q) (hSI : ∀ q, SI q → SI' q)
    (H : ∀ fac, Contrib T (inner fac) yflag gy Ny b (fun m => fac * w m) SD SI) (fac : α) :
    Contrib T (levelBody ctr prim flag yflag p gy c Ny non0ctr non0idx t inner fac)
      flag p (Ny*ctr) b (fun m => fac * (c (prim*(m/Ny)+t) * w (m%Ny))) SD' SI' := by
  by_cases h1 : ctr = 1
  · subst h1
    obtain ⟨rfl, rfl⟩ := hal rfl
    intro h b1 v1 hT hA hSD1 hSI1
    simp only [levelBody, if_true, wp_mbind, wp_pure, wp_ldI]
    rw [Nat.mul_one] at hA hSp
    refine wp_mono (H (fac * c t) h b1 v1 hT hA (fun q hq => hSD1 q (hSD q hq))
      (fun q hq => hSI1 q (hSI q hq))) ?_
    rintro _ h2 ⟨hA2, hD2, hI2⟩
    have hA3 : AccSt h2 yflag gy (Ny*1) (b1 || b)
        (fun m => v1 m + fac * (c (prim*(m/Ny)+t) * w (m%Ny))) := by
      rw [Nat.mul_one]
      refine hA2.congr (fun i hi => ?_)
      rw [Nat.div_eq_of_lt hi, Nat.mod_eq_of_lt hi, Nat.mul_zero, Nat.zero_add]; ring
    have hD3 : AgreeD h h2 (fun q => Blk gy (Ny*1) q ∨ SD' q) := by
      rw [Nat.mul_one]; exact hD2.mono (fun q hq => hq.imp id (hSD q))
    have hI3 : AgreeI h h2 (fun q => q = yflag ∨ SI' q) :=
      hI2.mono (fun q hq => hq.imp id (hSI q))
    refine ⟨_, hA2.flag, ?_⟩
    cases hb : (b1 || b) with
    | false =>
      simp only [Bool.false_eq_true, if_false, one_ne_zero, wp_pure]
      rw [hb] at hA3
      exact ⟨hA3, hD3, hI3⟩
    | true =>
      rw [hb] at hA3
      have hfl : h2.I yflag = .val 0 := by have := hA3.flag; simpa using this
      simp only [if_true, prim2ctr, Nat.lt_irrefl, if_false, wp_stI]
      refine ⟨by rw [hfl]; simp, ?_⟩
      have hset : h2.setI yflag 0 = h2 := by
        refine Heap.ext' (fun _ => rfl) (fun q => ?_)
        rw [Heap.setI_I]; split
        · rename_i e; rw [e, hfl]
        · rfl
      rw [hset]
      exact ⟨hA3, hD3, hI3⟩
  · obtain ⟨hfy, hd, hTy, hSy, hBlk⟩ := hne h1
    intro h b1 v1 hT hA hSD1 hSI1
    simp only [levelBody, h1, if_false, wp_mbind, wp_stI, wp_ldI]
    refine ⟨hSI1 _ hSy, ?_⟩
    have hIset : AgreeI h (h.setI yflag 1) (fun q => q = yflag) :=
      fun q hq => Heap.setI_I_ne _ _ hq
    have hT1 : RO T (h.setI yflag 1) := hT.agree hIset (by rintro q rfl; exact hTy)
    have hm0 : AllocMono h (h.setI yflag 1) := by
      refine ⟨fun q hq => hq, fun q hq => ?_⟩
      rw [Heap.setI_I]; split
      · simp
      · exact hq
    have hA1 : AccSt (h.setI yflag 1) yflag gy Ny false (fun _ => 0) :=
      ⟨by simp, fun i hi => hSD1 _ (hBlk _ ⟨i, hi, rfl⟩), by simp, fun _ _ _ => rfl⟩
    refine wp_mono (wp_allocMono (H fac _ false _ hT1 hA1 (fun q hq => hSD1 q (hSD q hq))
      (fun q hq => hm0.I q (hSI1 q (hSI q hq))))) ?_
    rintro _ h2 ⟨⟨hA2, hD2, hI2⟩, hm2⟩
    simp only [Bool.false_or, zero_add] at hA2
    have hD2' : AgreeD h h2 (fun q => Blk gy Ny q ∨ SD q) := hD2
    have hI2' : AgreeI h h2 (fun q => q = yflag ∨ SI q) :=
      hIset.trans hI2 (fun q hq => Or.inl hq) (fun _ hq => hq)
    have hT2 : RO T h2 := hT.agree hI2' (by
      rintro q (rfl | hq)
      · exact hTy
      · exact hTS q hq)
    have hA3 : AccSt h2 flag p (Ny*ctr) b1 v1 := hA.agree hD2' hI2' (hm0.trans hm2)
      (by
        rintro i hi (⟨j, hj, e⟩ | hq)
        · exact hd j i hj hi e.symm
        · exact hSp i hi hq)
      (by rintro (h3 | h3); exacts [hfy h3, hSf h3])
    have hDW : ∀ q, (Blk gy Ny q ∨ SD q) → (Blk p (Ny*ctr) q ∨ SD' q) := by
      rintro q (hq | hq)
      · exact Or.inr (hBlk q hq)
      · exact Or.inr (hSD q hq)
    have hIW : ∀ q, (q = yflag ∨ SI q) → (q = flag ∨ SI' q) := by
      rintro q (rfl | hq)
      · exact Or.inr hSy
      · exact Or.inr (hSI q hq)
    refine ⟨_, hA2.flag, ?_⟩
    cases hb : b with
    | false =>
      simp only [Bool.false_eq_true, if_false, one_ne_zero, wp_pure, Bool.or_false]
      refine ⟨hA3.congr ?_, hD2'.mono hDW, hI2'.mono hIW⟩
      intro i hi
      have hn : 0 < Ny := Nat.pos_of_ne_zero (by rintro rfl; simp at hi)
      have h4 := hA2.zero hb _ (Nat.mod_lt i hn)
      rw [show fac * (c (prim*(i/Ny)+t) * w (i%Ny)) = c (prim*(i/Ny)+t) * (fac * w (i%Ny)) by ring,
        h4, mul_zero, add_zero]
    | true =>
      simp only [if_true, Bool.or_true]
      refine wp_mono (prim2ctr_acc (by omega) ht (htbl h1) hT2 hA3 (hA2.holds hb) hd) ?_
      rintro _ h3 ⟨hA4, hD4, hI4⟩
      exact ⟨hA4.congr (fun i _ => by ring), hD2'.trans hD4 hDW (fun q hq => Or.inl hq),
        hI2'.trans hI4 hIW (fun q hq => Or.inl hq)⟩

/-- What a primitive evaluator must do: `g0 fac` fills its scratch `Gs` and reports `keep`;
after that `fgout fac` stores into (empty) or adds to (not empty) the block the values
`fac * w n`. -/
def KernelSpec (T : Ptr → Option Int) (g0 : α → Prog α Bool)
    (fgout : α → Ptr → Int → Prog α Unit) (Gs : Ptr → Prop) (N : Nat) (keep : Bool)
    (w : Nat → α) : Prop :=
  ∀ (fac : α) (gout : Ptr) (e : Int) (u : Nat → α) (h : Heap α), RO T h →
    (∀ q, Gs q → h.D q ≠ .oob) → AllocD h gout N → (∀ i, i < N → ¬ Gs (gout + i)) →
    (e = 0 → HoldsD h gout N u) →
    wp (g0 fac) (fun r h1 => r = keep ∧ AgreeD h h1 Gs ∧ h1.I = h.I ∧
      (r = true → wp (fgout fac gout e) (fun _ h2 =>
        HoldsD h2 gout N (fun n => if e = 0 then u n + fac * w n else fac * w n) ∧
        AgreeD h h2 (fun q => Gs q ∨ Blk gout N q) ∧ h2.I = h.I) h1)) h

theorem KernelSpec.mono {T T' : Ptr → Option Int} {g0 : α → Prog α Bool}
    {fgout : α → Ptr → Int → Prog α Unit} {Gs : Ptr → Prop} {N : Nat} {keep : Bool}
    {w : Nat → α} (H : KernelSpec T g0 fgout Gs N keep w)
    (hT : ∀ q v, T q = some v → T' q = some v) : KernelSpec T' g0 fgout Gs N keep w :=
  fun fac gout e u h hR => H fac gout e u h (fun q v hq => hR q v (hT q v hq))

/-- The innermost step contributes the primitive integral. -/
theorem Contrib.prim {ctr prim Ng t : Nat} {gout non0ctr non0idx : Ptr} {c : Nat → α}
    {rdE : Prog α Int} {g0 : α → Prog α Bool} {fgout : α → Ptr → Int → Prog α Unit} {expo : α} {keep : Bool}
    {w : Nat → α} {Gs : Ptr → Prop}
    (hctr : 1 ≤ ctr) (ht : t < prim) (htbl : ctr ≠ 1 → TblRO T non0ctr non0idx c prim ctr)
    (hal : ctr = 1 → rdE = ldI flag ∧ gout = p)
    (hne : ctr ≠ 1 → (∀ h, RO T h → wp rdE (fun e h' => e = 1 ∧ h' = h) h) ∧ Disj gout Ng p (Ng*ctr) ∧ (∀ q, Blk gout Ng q → SD q))
    (hgGs : ∀ i, i < Ng → ¬ Gs (gout + i))
    (hGs : ∀ q, Gs q → SD q) (hSp : ∀ i, i < Ng*ctr → ¬ Gs (p + i))
    (hK : KernelSpec T g0 fgout Gs Ng keep w) (fac fac1i : α)
    (hfac : fac1i = if ctr = 1 then fac * c t * expo else fac * expo) :
    Contrib T (primBodyE rdE ctr prim flag p gout c Ng non0ctr non0idx t fac1i g0 fgout)
      flag p (Ng*ctr) keep
      (fun m => fac * (if keep then c (prim*(m/Ng)+t) * (expo * w (m%Ng)) else 0)) SD SI := by
  subst hfac
  intro h b1 v1 hT hA hSD1 hSI1
  unfold primBodyE
  simp only [wp_mbind]
  by_cases h1 : ctr = 1
  · subst h1
    obtain ⟨rfl, rfl⟩ := hal rfl
    rw [Nat.mul_one] at hA hSp
    simp only [if_true, wp_mbind]
    refine wp_mono (hK (fac * c t * expo) gout (if b1 then 0 else 1) v1 h hT
      (fun q hq => hSD1 q (hGs q hq)) hA.alloc hgGs ?_) ?_
    · intro he; cases hb1 : b1 with
      | false => rw [hb1] at he; simp at he
      | true => exact hA.holds hb1
    rintro r h2 ⟨rfl, hD2, hI2, hg⟩
    cases r with
    | false =>
      simp only [Bool.false_eq_true, if_false, wp_pure, Bool.or_false, mul_zero, add_zero]
      rw [Nat.mul_one]
      refine ⟨⟨by rw [hI2, hA.flag], fun i hi => ?_, fun hb => (hA.holds hb).agree hD2 hSp,
        hA.zero⟩, hD2.mono (fun q hq => Or.inr (hGs q hq)), AgreeI.of_eq hI2 _⟩
      rw [hD2 _ (hSp i hi)]; exact hA.alloc i hi
    | true =>
      simp only [if_true, wp_mbind, wp_ldI]
      refine ⟨_, by rw [hI2]; exact hA.flag, ?_⟩
      refine wp_mono (hg rfl) ?_
      rintro _ h3 ⟨hv3, hD3, hI3⟩
      simp only [prim2ctr, Nat.lt_irrefl, if_false, wp_stI, Bool.or_true]
      refine ⟨by rw [hI3, hA.flag]; simp, ⟨by simp, ?_, ?_, by simp⟩, ?_, ?_⟩
      · rw [Nat.mul_one]; intro i hi; rw [Heap.setI_D, hv3 i hi]; simp
      · rw [Nat.mul_one]; intro _ i hi
        rw [Heap.setI_D, hv3 i hi]
        dsimp only
        rw [Nat.div_eq_of_lt hi, Nat.mod_eq_of_lt hi, Nat.mul_zero, Nat.zero_add]
        cases hb1 : b1 with
        | false => simp [hA.zero hb1 i hi, mul_assoc]
        | true => simp [mul_assoc]
      · rw [Nat.mul_one]
        exact hD3.mono (fun q hq => hq.elim (fun x => Or.inr (hGs q x)) Or.inl)
      · intro q hq
        rw [Heap.setI_I_ne _ _ (fun e => hq (Or.inl e)), hI3]
  · obtain ⟨hg1, hd, hBlk⟩ := hne h1
    simp only [h1, if_false]
    refine wp_mono (wp_allocMono (hK (fac * expo) gout 1 (fun _ => 0) h hT
      (fun q hq => hSD1 q (hGs q hq)) (fun i hi => hSD1 _ (hBlk _ ⟨i, hi, rfl⟩)) hgGs
      (by simp))) ?_
    rintro r h2 ⟨⟨rfl, hD2, hI2, hg⟩, hm2⟩
    cases r with
    | false =>
      simp only [Bool.false_eq_true, if_false, wp_pure, Bool.or_false, mul_zero, add_zero]
      refine ⟨hA.agree hD2 (WI := fun _ => False) (AgreeI.of_eq hI2 _) hm2 hSp id,
        hD2.mono (fun q hq => Or.inr (hGs q hq)), AgreeI.of_eq hI2 _⟩
    | true =>
      simp only [if_true, wp_mbind]
      have hT2 : RO T h2 := hT.agree (W := fun _ => False) (AgreeI.of_eq hI2 _) (fun _ x => x.elim)
      refine wp_mono (hg1 h2 hT2) ?_
      rintro _ _ ⟨rfl, rfl⟩
      refine wp_mono (wp_allocMono (hg rfl)) ?_
      rintro _ h3 ⟨⟨hv3, hD3, hI3⟩, hm3⟩
      have hA3 : AccSt h3 flag p (Ng*ctr) b1 v1 := hA.agree hD3 (WI := fun _ => False)
        (AgreeI.of_eq hI3 _) (hm2.trans hm3)
        (by
          rintro i hi (hq | ⟨j, hj, e⟩)
          · exact hSp i hi hq
          · exact hd j i hj hi e.symm) id
      have hT3 : RO T h3 := hT.agree (W := fun _ => False) (AgreeI.of_eq hI3 _) (fun _ x => x.elim)
      simp only [one_ne_zero, if_false] at hv3
      refine wp_mono (prim2ctr_acc (by omega) ht (htbl h1) hT3 hA3 hv3 hd) ?_
      rintro _ h4 ⟨hA4, hD4, hI4⟩
      simp only [Bool.or_true]
      refine ⟨hA4.congr (fun i _ => by ring), hD3.trans hD4 ?_ (fun q hq => Or.inl hq), ?_⟩
      · rintro q (hq | hq)
        · exact Or.inr (hGs q hq)
        · exact Or.inr (hBlk q hq)
      · intro q hq
        rw [hI4 q (fun e => hq (Or.inl e)), hI3]

end

end Verif.Model
