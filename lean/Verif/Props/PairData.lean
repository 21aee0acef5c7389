import Verif.Lemmas.PairData
import Verif.Spec.Pair
import Verif.Props.Loop1e
import Mathlib.Analysis.SpecialFunctions.Log.Basic
import Mathlib.Analysis.SpecialFunctions.Pow.Real
import Mathlib.Tactic.Positivity
import Mathlib.Tactic.Linarith
import Mathlib.Tactic.NormNum

/-
Properties C12 (pair table of an optimizer) and C13 (screening).
-/
namespace Verif.Props
open Verif Verif.Model Prog Spec

variable {α : Type} [Field α] [LinearOrder α]

/-- the size estimate of primitives `ip`, `jp` of two shells -/
def est (L : MathLib α) (si sj : PShell α) (mi mj : Nat → α) (rr omega : α) (l ip jp : Nat) : α :=
  pairEstimate L.log L.sqrt (si.a ip) (sj.a jp) (si.a (si.nprim-1) + sj.a (sj.nprim-1)) (mi ip) (mj jp)
    rr omega l

theorem maxAbsC_spec [IsOrderedRing α] (s : PShell α) (ip : Nat) :
    IsMaxAbs (fun i => s.c (i*s.nprim+ip)) s.nctr (maxAbsC s.c s.nprim ip s.nctr) := by
  have key : ∀ n, (∀ i, i < n → s.c (i*s.nprim+ip) ≤ maxAbsC s.c s.nprim ip n ∧
      -s.c (i*s.nprim+ip) ≤ maxAbsC s.c s.nprim ip n) ∧ 0 ≤ maxAbsC s.c s.nprim ip n ∧
      ((n = 0 ∧ maxAbsC s.c s.nprim ip n = 0) ∨ ∃ i, i < n ∧ (maxAbsC s.c s.nprim ip n = s.c (i*s.nprim+ip) ∨
        maxAbsC s.c s.nprim ip n = -s.c (i*s.nprim+ip))) := by
    intro n
    induction n with
    | zero => exact ⟨fun i hi => absurd hi (by omega), le_refl _, Or.inl ⟨rfl, rfl⟩⟩
    | succ n ih =>
      obtain ⟨h1, h2, h3⟩ := ih
      let x := s.c (n*s.nprim+ip)
      let m := maxAbsC s.c s.nprim ip n
      let f := if x < 0 then -x else x
      have hf : x ≤ f ∧ -x ≤ f ∧ 0 ≤ f ∧ (f = x ∨ f = -x) := by
        by_cases hx : x < 0
        · have : f = -x := if_pos hx
          rw [this]; refine ⟨by linarith, le_refl _, by linarith, Or.inr rfl⟩
        · have : f = x := if_neg hx
          rw [this]; refine ⟨le_refl _, by linarith, by linarith, Or.inl rfl⟩
      have hm : maxAbsC s.c s.nprim ip (n+1) = if m > f then m else f := rfl
      rw [hm]
      by_cases hgt : m > f
      · rw [if_pos hgt]
        refine ⟨?_, h2, Or.inr ?_⟩
        · intro i hi
          by_cases e : i = n
          · subst e; exact ⟨by linarith [hf.1], by linarith [hf.2.1]⟩
          · exact h1 i (by omega)
        · rcases h3 with ⟨h3, h4⟩ | ⟨i, hi, h3⟩
          · exfalso
            have : m = 0 := h4
            linarith [hf.2.2.1]
          · exact ⟨i, by omega, h3⟩
      · rw [if_neg hgt]
        have hle : m ≤ f := not_lt.1 hgt
        refine ⟨?_, hf.2.2.1, Or.inr ⟨n, by omega, hf.2.2.2⟩⟩
        intro i hi
        by_cases e : i = n
        · subst e; exact ⟨hf.1, hf.2.1⟩
        · exact ⟨le_trans (h1 i (by omega)).1 hle, le_trans (h1 i (by omega)).2 hle⟩
  obtain ⟨h1, _, h3⟩ := key s.nctr
  exact ⟨h1, h3⟩

theorem isMaxAbs_unique [IsOrderedRing α] {f : Nat → α} {n : Nat} {m m' : α} (H : IsMaxAbs f n m)
    (H' : IsMaxAbs f n m') : m = m' := by
  have le : ∀ {m m' : α}, IsMaxAbs f n m → IsMaxAbs f n m' → m ≤ m' := by
    intro m m' H H'
    rcases H.att with ⟨h1, h2⟩ | ⟨i, hi, h1 | h1⟩
    · rcases H'.att with ⟨_, h4⟩ | ⟨i, hi, _⟩
      · rw [h2, h4]
      · omega
    · rw [h1]; exact (H'.ub i hi).1
    · rw [h1]; exact (H'.ub i hi).2
  exact le_antisymm (le H H') (le H' H)

theorem logRR_eq (L : MathLib α) (p : PairArgs α) :
    logRR L p = logBound L.log L.sqrt (p.si.a (p.si.nprim-1) + p.sj.a (p.sj.nprim-1)) (p.li+p.lj) p.rr p.omega := by
  unfold logRR logBound
  by_cases h : p.li + p.lj = 0
  · simp [h]
  · have h' : p.li + p.lj > 0 := by omega
    simp only [h, h', if_true, if_false]
    by_cases ho : p.omega < 0 <;> simp [ho]

section
variable [IsOrderedRing α] {L : MathLib α} {p : PairArgs α} {mi mj : Nat → α}

/-- maxima of the coefficients of all primitives -/
def MaxCoeff (s : PShell α) (m : Nat → α) : Prop :=
  ∀ ip, ip < s.nprim → IsMaxAbs (fun i => s.c (i*s.nprim+ip)) s.nctr (m ip)

theorem pairCC_eq (hi : MaxCoeff p.si mi) (hj : MaxCoeff p.sj mj) {ip jp : Nat}
    (hip : ip < p.si.nprim) (hjp : jp < p.sj.nprim) :
    pairCC L p ip jp = est L p.si p.sj mi mj p.rr p.omega (p.li+p.lj) ip jp := by
  unfold pairCC est pairEstimate prodExponent logMaxC
  rw [logRR_eq, isMaxAbs_unique (maxAbsC_spec p.si ip) (hi ip hip),
    isMaxAbs_unique (maxAbsC_spec p.sj jp) (hj jp hjp)]
  dsimp only
  congr 3
  ring

theorem pairVal_entry (hi : MaxCoeff p.si mi) (hj : MaxCoeff p.sj mj) {ip jp : Nat}
    (hip : ip < p.si.nprim) (hjp : jp < p.sj.nprim) (h0 : p.si.a ip + p.sj.a jp ≠ 0) :
    IsPairEntry L.exp (p.si.a ip) (p.sj.a jp) p.si.r p.sj.r p.rr
      (est L p.si p.sj mi mj p.rr p.omega (p.li+p.lj) ip jp) p.cutoff (fun k => pairVal L p ip jp k) := by
  rw [← pairCC_eq hi hj hip hjp]
  refine ⟨rfl, ?_, ?_⟩
  · intro hc
    refine ⟨?_, ?_⟩
    · intro k hk
      unfold pairVal prodCentre
      simp only [hc, if_true]
      rw [if_neg (by omega), if_neg (by omega)]
      field_simp
      ring
    · unfold pairVal prodExponent
      simp only [hc, if_true]
      rw [if_neg (by omega)]
      congr 2
      ring
  · intro hc
    unfold pairVal
    simp [hc]

theorem est_symm (si sj : PShell α) (rr omega : α) (l ip jp : Nat) :
    est L si sj mi mj rr omega l ip jp = est L sj si mj mi rr omega l jp ip := by
  unfold est pairEstimate prodExponent
  rw [add_comm (si.a ip), add_comm (si.a _), mul_comm (si.a ip)]
  ring

theorem entry_symm {exp : α → α} {a b rr cc cutoff : α} {A B : Nat → α} {V : Nat → α}
    (H : IsPairEntry exp a b A B rr cc cutoff V) : IsPairEntry exp b a B A rr cc cutoff V := by
  unfold IsPairEntry prodCentre prodExponent at *
  rw [add_comm b a, mul_comm b a]
  refine ⟨H.1, fun hc => ⟨fun k hk => ?_, (H.2.1 hc).2⟩, H.2.2⟩
  rw [(H.2.1 hc).1 k hk, add_comm (b * _)]
end

theorem rr2_symm (r s : Nat → α) : rr2 r s = rr2 s r := by unfold rr2; ring

/-- The table at `tbl`, `pool` serves the ordered pair of shells (i, j) of a basis of `nbas`
shells: either the marker, and then every primitive pair is beyond the cutoff, or the position
of a block inside the pool holding, for all primitives, what recomputation for the pair in this
order gives. -/
def Served (L : MathLib α) (B : Nat → PShell α) (m : Nat → Nat → α) (nbas inc : Nat) (cutoff omega : α)
    (tbl pool : Ptr) (poolLen : Nat) (h : Heap α) (i j : Nat) : Prop :=
  let e := est L (B i) (B j) (m i) (m j) (rr2 (B i).r (B j).r) omega ((B i).l + (B j).l + inc)
  (h.I (tbl + (i*nbas+j)) = .val (-1) ∧
    ∀ ip jp, ip < (B i).nprim → jp < (B j).nprim → cutoff ≤ e ip jp) ∨
  ∃ o : Nat, h.I (tbl + (i*nbas+j)) = .val (o : Int) ∧ o + (B i).nprim*(B j).nprim ≤ poolLen ∧
    ((i = 0 ∧ j = 0) ∨ ∃ ip jp, ip < (B i).nprim ∧ jp < (B j).nprim ∧ e ip jp < cutoff) ∧
    ∀ ip jp, ip < (B i).nprim → jp < (B j).nprim → ∃ V : Nat → α,
      (∀ k, k < 5 → h.D (pool + (5*(o + (jp*(B i).nprim+ip)) + k)) = .val (V k)) ∧
      IsPairEntry L.exp ((B i).a ip) ((B j).a jp) (B i).r (B j).r (rr2 (B i).r (B j).r) (e ip jp) cutoff V

/-- **C12** Building the pair table for any basis (1 to 2048 primitives in total): no write
outside the pool of tot_prim² entries and the table of nbas² pointers, and the table serves
every ordered pair of shells. -/
theorem C12_pair_table [IsOrderedRing α] {L : MathLib α} {B : Nat → PShell α} {nbas inc : Nat}
    {cutoff omega : α} {tbl pool : Ptr} {h : Heap α} {m : Nat → Nat → α}
    (h0 : 0 < totPrim B nbas) (h2048 : totPrim B nbas ≤ 2048)
    (hm : ∀ i, i < nbas → MaxCoeff (B i) (m i))
    (hpos : ∀ i j ip jp, i < nbas → j < nbas → ip < (B i).nprim → jp < (B j).nprim →
      (B i).a ip + (B j).a jp ≠ 0)
    (haD : AllocD h pool (5*(totPrim B nbas*totPrim B nbas)))
    (haI : ∀ q, q < nbas*nbas → h.I (tbl + q) ≠ .oob) :
    ∃ h', run (setij L B nbas inc cutoff omega tbl pool) h = some (true, h') ∧
      (∀ i j, i < nbas → j < nbas →
        Served L B m nbas inc cutoff omega tbl pool (totPrim B nbas*totPrim B nbas) h' i j) ∧
      AgreeD h h' (Blk pool (5*(totPrim B nbas*totPrim B nbas))) ∧
      AgreeI h h' (Blk tbl (nbas*nbas)) := by
  have hn : 0 < nbas := by
    rcases Nat.eq_zero_or_pos nbas with e | e
    · subst e; exact absurd h0 (by simp [totPrim])
    · exact e
  have W : wp (setij L B nbas inc cutoff omega tbl pool) (fun r h' => r = true ∧
      ∃ c, c ≤ totPrim B nbas*totPrim B nbas ∧
      SetijInv L B nbas inc cutoff omega tbl pool (totPrim B nbas) h h' c (fun _ _ => True)) h := by
    unfold setij
    rw [if_neg (by omega), wp_mbind]
    refine wp_mono (setijLoop_wp hn haD haI) ?_
    intro _ h' hh
    rw [wp_pure]
    exact ⟨rfl, hh⟩
  obtain ⟨r, h', hr, hr1, c, hc, H⟩ := run_of_wp W
  subst hr1
  refine ⟨h', hr, ?_, H.frameD, H.frameI⟩
  intro i j hi hj
  have E := H.ent i j hi hj True.intro
  have key : ∀ ip jp, ip < (B i).nprim → jp < (B j).nprim →
      IsPairEntry L.exp ((B i).a ip) ((B j).a jp) (B i).r (B j).r (rr2 (B i).r (B j).r)
        (est L (B i) (B j) (m i) (m j) (rr2 (B i).r (B j).r) omega ((B i).l + (B j).l + inc) ip jp) cutoff
        (fun k => pairTblVal L B inc cutoff omega i j ip jp k) := by
    intro ip jp hip hjp
    unfold pairTblVal
    by_cases hij : j ≤ i
    · simp only [hij, if_true]
      have := pairVal_entry (L := L) (p := setijArgs B inc cutoff omega i j) (hm i hi) (hm j hj) hip hjp
        (hpos i j ip jp hi hj hip hjp)
      rw [show (B i).l + (B j).l + inc = (B i).l + inc + (B j).l by omega]
      exact this
    · simp only [hij, if_false]
      have := pairVal_entry (L := L) (p := setijArgs B inc cutoff omega j i) (hm j hj) (hm i hi) hjp hip
        (hpos j i jp ip hj hi hjp hip)
      rw [show (B i).l + (B j).l + inc = (B j).l + inc + (B i).l by omega, est_symm, rr2_symm]
      exact entry_symm this
  have emp : pairTblEmpty L B inc cutoff omega i j ↔ ∀ ip jp, ip < (B i).nprim → jp < (B j).nprim →
      ¬ est L (B i) (B j) (m i) (m j) (rr2 (B i).r (B j).r) omega ((B i).l + (B j).l + inc) ip jp < cutoff := by
    unfold pairTblEmpty PairEmpty
    by_cases hij : j ≤ i
    · rw [if_pos hij]
      refine forall_congr' fun ip => forall_congr' fun jp => ?_
      refine forall_congr' fun hip => forall_congr' fun hjp => ?_
      rw [pairCC_eq (p := setijArgs B inc cutoff omega i j) (hm i hi) (hm j hj) hip hjp,
        show (B i).l + (B j).l + inc = (B i).l + inc + (B j).l by omega]
      exact Iff.rfl
    · rw [if_neg hij]
      have e : ∀ ip jp, ip < (B i).nprim → jp < (B j).nprim →
          pairCC L (setijArgs B inc cutoff omega j i) jp ip =
          est L (B i) (B j) (m i) (m j) (rr2 (B i).r (B j).r) omega ((B i).l + (B j).l + inc) ip jp := by
        intro ip jp hip hjp
        rw [pairCC_eq (p := setijArgs B inc cutoff omega j i) (hm j hj) (hm i hi) hjp hip, est_symm,
          show (B i).l + (B j).l + inc = (B j).l + inc + (B i).l by omega, rr2_symm]
        rfl
      constructor
      · intro H ip jp hip hjp
        rw [← e ip jp hip hjp]; exact H jp ip hjp hip
      · intro H jp ip hjp hip
        have := H ip jp hip hjp
        rw [← e ip jp hip hjp] at this; exact this
  rcases E with ⟨h1, h2, _⟩ | ⟨o, h1, h2, h3, h4⟩
  · left
    exact ⟨h1, fun ip jp hip hjp => not_lt.1 (emp.1 h2 ip jp hip hjp)⟩
  · right
    refine ⟨o, h1, by omega, ?_, ?_⟩
    · rcases h4 with h4 | h4
      · right
        by_contra hne
        refine h4 (emp.2 fun ip jp hip hjp hlt => hne ⟨ip, jp, hip, hjp, hlt⟩)
      · exact Or.inl h4
    · intro ip jp hip hjp
      refine ⟨_, fun k hk => ?_, key ip jp hip hjp⟩
      have := h3 ip jp k hip hjp hk
      rw [Ptr.add_assoc] at this
      rw [← this]
      congr 2
      ring

/-- **C12** Without primitives, or with more than 2048, no table is built and memory is left
alone (callers then recompute). -/
theorem C12_no_table (L : MathLib α) (B : Nat → PShell α) (nbas inc : Nat) (cutoff omega : α)
    (tbl pool : Ptr) (h : Heap α) (hb : totPrim B nbas = 0 ∨ 2048 < totPrim B nbas) :
    run (setij L B nbas inc cutoff omega tbl pool) h = some (false, h) := by
  unfold setij
  rw [if_pos (by omega)]
  rfl

/-- **C12** Recomputation for one pair of shells, which the table is compared with: all entries
are written, nothing outside the block, and the pair is reported empty exactly if every primitive
pair is beyond the cutoff. -/
theorem C12_recompute [IsOrderedRing α] {L : MathLib α} {pd : Ptr} {p : PairArgs α} {h : Heap α}
    {mi mj : Nat → α} (hmi : MaxCoeff p.si mi) (hmj : MaxCoeff p.sj mj)
    (hpos : ∀ ip jp, ip < p.si.nprim → jp < p.sj.nprim → p.si.a ip + p.sj.a jp ≠ 0)
    (ha : AllocD h pd (5*(p.sj.nprim*p.si.nprim))) :
    ∃ e h', run (setPairdata L pd p) h = some (e, h') ∧
      (e = true ↔ ∀ ip jp, ip < p.si.nprim → jp < p.sj.nprim →
        p.cutoff ≤ est L p.si p.sj mi mj p.rr p.omega (p.li+p.lj) ip jp) ∧
      (∀ ip jp, ip < p.si.nprim → jp < p.sj.nprim → ∃ V : Nat → α,
        (∀ k, k < 5 → h'.D (pd + (5*(jp*p.si.nprim+ip) + k)) = .val (V k)) ∧
        IsPairEntry L.exp (p.si.a ip) (p.sj.a jp) p.si.r p.sj.r p.rr
          (est L p.si p.sj mi mj p.rr p.omega (p.li+p.lj) ip jp) p.cutoff V) ∧
      AgreeD h h' (Blk pd (5*(p.sj.nprim*p.si.nprim))) ∧ h'.I = h.I := by
  obtain ⟨e, h', hr, h1, h2, h3, h4⟩ := run_of_wp (setPairdata_wp (L := L) (p := p) ha)
  refine ⟨e, h', hr, ?_, ?_, h3, h4⟩
  · rw [h1]
    unfold PairEmpty
    refine forall_congr' fun ip => forall_congr' fun jp => ?_
    refine forall_congr' fun hip => forall_congr' fun hjp => ?_
    rw [pairCC_eq hmi hmj hip hjp, not_lt]
  · intro ip jp hip hjp
    exact ⟨_, fun k hk => h2 ip jp k hip hjp hk, pairVal_entry hmi hmj hip hjp (hpos ip jp hip hjp)⟩

/-! ### C13: screening, over the real numbers -/

/-- the library functions are the real ones (nothing is assumed about log of 0) -/
structure IsReal (L : MathLib ℝ) : Prop where
  log : ∀ x, 0 < x → L.log x = Real.log x
  exp : ∀ x, L.exp x = Real.exp x
  sqrt : ∀ x, 0 ≤ x → L.sqrt x = Real.sqrt x

/-- The estimate of the polynomial part of a primitive pair: e^1.7 / s^1.5 * (d + 1)^l, where
`s` is the sum of the most diffuse exponents and d the distance (slightly increased for
short-range operators). -/
noncomputable def polyBound (s : ℝ) (l : Nat) (rr omega : ℝ) : ℝ :=
  Real.exp (17/10) * s ^ (-(3/2) : ℝ) *
    (Real.sqrt rr + (if omega < 0 then omega*omega/(omega*omega+s)*8 else 0) + 1) ^ l

theorem polyBound_pos {s rr omega : ℝ} (hs : 0 < s) (l : Nat) : 0 < polyBound s l rr omega := by
  unfold polyBound
  have h1 : 0 ≤ (if omega < 0 then omega*omega/(omega*omega+s)*8 else 0) := by
    split
    · have := mul_self_nonneg omega
      positivity
    · exact le_refl _
  have h2 := Real.sqrt_nonneg rr
  have h3 := Real.rpow_pos_of_pos hs (-(3/2))
  have h4 := Real.exp_pos (17/10)
  positivity

theorem exp_logBound {L : MathLib ℝ} (hL : IsReal L) {s rr omega : ℝ} (hs : 0 < s) (hrr : 0 ≤ rr) (l : Nat) :
    Real.exp (logBound L.log L.sqrt s l rr omega) = polyBound s l rr omega := by
  unfold logBound polyBound
  rw [hL.log s hs, hL.sqrt rr hrr]
  have e1 : Real.exp (17/10 - 15/10 * Real.log s) = Real.exp (17/10) * s ^ (-(3/2) : ℝ) := by
    rw [Real.rpow_def_of_pos hs, ← Real.exp_add]
    congr 1; ring
  have hpow : ∀ x : ℝ, 0 < x → ∀ n : Nat, Real.exp (n * Real.log x) = x ^ n := by
    intro x hx n
    rw [← Real.log_pow, Real.exp_log (pow_pos hx n)]
  have h2 := Real.sqrt_nonneg rr
  rw [Real.exp_add, e1]
  by_cases h0 : l = 0
  · subst h0; simp
  · rw [if_neg h0]
    by_cases ho : omega < 0
    · simp only [ho, if_true]
      have h3 := mul_self_nonneg omega
      have hx : 0 < Real.sqrt rr + omega*omega/(omega*omega+s)*8 + 1 := by positivity
      rw [hL.log _ hx, hpow _ hx]
    · simp only [ho, if_false]
      have hx : 0 < Real.sqrt rr + 1 := by positivity
      rw [hL.log _ hx, hpow _ hx, add_zero]

/-- **C13** A primitive pair whose estimate reaches the cutoff (so that it is skipped or entered
with prefactor 0) is negligible: for all contractions, coefficients times Gaussian prefactor
times the polynomial estimate is at most e^-cutoff. -/
theorem C13_dropped_negligible {L : MathLib ℝ} (hL : IsReal L) {si sj : PShell ℝ} {mi mj : Nat → ℝ}
    {rr omega cutoff : ℝ} {l ip jp : Nat} (hmi : MaxCoeff si mi) (hmj : MaxCoeff sj mj)
    (hip : ip < si.nprim) (hjp : jp < sj.nprim)
    (hs : 0 < si.a (si.nprim-1) + sj.a (sj.nprim-1)) (hrr : 0 ≤ rr)
    (hdrop : cutoff ≤ est L si sj mi mj rr omega l ip jp) {ic jc : Nat} (hic : ic < si.nctr) (hjc : jc < sj.nctr) :
    |si.c (ic*si.nprim+ip)| * |sj.c (jc*sj.nprim+jp)| * Real.exp (-prodExponent (si.a ip) (sj.a jp) rr) *
      polyBound (si.a (si.nprim-1) + sj.a (sj.nprim-1)) l rr omega ≤ Real.exp (-cutoff) := by
  have h1 : |si.c (ic*si.nprim+ip)| ≤ mi ip := by
    have := (hmi ip hip).ub ic hic
    exact abs_le.2 ⟨by linarith [this.2], this.1⟩
  have h2 : |sj.c (jc*sj.nprim+jp)| ≤ mj jp := by
    have := (hmj jp hjp).ub jc hjc
    exact abs_le.2 ⟨by linarith [this.2], this.1⟩
  have n1 := abs_nonneg (si.c (ic*si.nprim+ip))
  have n2 := abs_nonneg (sj.c (jc*sj.nprim+jp))
  have hB := polyBound_pos (rr := rr) (omega := omega) hs l
  have hE := Real.exp_pos (-prodExponent (si.a ip) (sj.a jp) rr)
  rcases eq_or_lt_of_le (le_trans n1 h1) with h0 | p1
  · have : |si.c (ic*si.nprim+ip)| = 0 := by linarith
    rw [this]; simp; exact (Real.exp_pos _).le
  rcases eq_or_lt_of_le (le_trans n2 h2) with h0 | p2
  · have : |sj.c (jc*sj.nprim+jp)| = 0 := by linarith
    rw [this]; simp; exact (Real.exp_pos _).le
  calc _ ≤ mi ip * mj jp * Real.exp (-prodExponent (si.a ip) (sj.a jp) rr) *
        polyBound (si.a (si.nprim-1) + sj.a (sj.nprim-1)) l rr omega := by gcongr
    _ = Real.exp (-est L si sj mi mj rr omega l ip jp) := by
      unfold est pairEstimate
      rw [hL.log _ p1, hL.log _ p2, ← exp_logBound hL hs hrr,
        show -(prodExponent (si.a ip) (sj.a jp) rr -
          logBound L.log L.sqrt (si.a (si.nprim-1) + sj.a (sj.nprim-1)) l rr omega - Real.log (mi ip) -
          Real.log (mj jp)) = Real.log (mi ip) + Real.log (mj jp) +
          -prodExponent (si.a ip) (sj.a jp) rr +
          logBound L.log L.sqrt (si.a (si.nprim-1) + sj.a (sj.nprim-1)) l rr omega by ring,
        Real.exp_add, Real.exp_add, Real.exp_add, Real.exp_log p1, Real.exp_log p2]
    _ ≤ _ := Real.exp_le_exp.2 (by linarith)

/-- **C13** A shell pair is reported as negligible as a whole only if each of its primitive
pairs is. -/
theorem C13_empty_pair_negligible {L : MathLib ℝ} (hL : IsReal L) {pd : Ptr} {p : PairArgs ℝ} {h : Heap ℝ}
    (hs : ∀ ip jp, ip < p.si.nprim → jp < p.sj.nprim → 0 < p.si.a ip + p.sj.a jp) (hrr : 0 ≤ p.rr)
    (ha : AllocD h pd (5*(p.sj.nprim*p.si.nprim)))
    {h' : Heap ℝ} (hrun : run (setPairdata L pd p) h = some (true, h'))
    {ip jp ic jc : Nat} (hip : ip < p.si.nprim) (hjp : jp < p.sj.nprim) (hic : ic < p.si.nctr)
    (hjc : jc < p.sj.nctr) :
    |p.si.c (ic*p.si.nprim+ip)| * |p.sj.c (jc*p.sj.nprim+jp)| *
      Real.exp (-prodExponent (p.si.a ip) (p.sj.a jp) p.rr) *
      polyBound (p.si.a (p.si.nprim-1) + p.sj.a (p.sj.nprim-1)) (p.li+p.lj) p.rr p.omega ≤
        Real.exp (-p.cutoff) := by
  have hmi : MaxCoeff p.si (fun ip => maxAbsC p.si.c p.si.nprim ip p.si.nctr) := fun ip _ => maxAbsC_spec _ _
  have hmj : MaxCoeff p.sj (fun ip => maxAbsC p.sj.c p.sj.nprim ip p.sj.nctr) := fun ip _ => maxAbsC_spec _ _
  obtain ⟨e, h1, hr, h2, _⟩ := C12_recompute (L := L) hmi hmj
    (fun ip jp hip hjp => (hs ip jp hip hjp).ne') ha
  rw [hrun] at hr
  cases hr
  exact C13_dropped_negligible hL hmi hmj hip hjp (hs _ _ (by omega) (by omega)) hrr
    (h2.1 rfl ip jp hip hjp) hic hjc

/-- **C13** A primitive pair that is kept is entered with the exact product centre and prefactor. -/
theorem C13_kept_exact {L : MathLib ℝ} (hL : IsReal L) {pd : Ptr} {p : PairArgs ℝ} {h : Heap ℝ}
    {mi mj : Nat → ℝ} (hmi : MaxCoeff p.si mi) (hmj : MaxCoeff p.sj mj)
    (hs : ∀ ip jp, ip < p.si.nprim → jp < p.sj.nprim → 0 < p.si.a ip + p.sj.a jp)
    (ha : AllocD h pd (5*(p.sj.nprim*p.si.nprim)))
    {h' : Heap ℝ} {e : Bool} (hrun : run (setPairdata L pd p) h = some (e, h'))
    {ip jp : Nat} (hip : ip < p.si.nprim) (hjp : jp < p.sj.nprim)
    (hkeep : est L p.si p.sj mi mj p.rr p.omega (p.li+p.lj) ip jp < p.cutoff) :
    (∀ k, k < 3 → h'.D (pd + (5*(jp*p.si.nprim+ip) + k)) =
      .val ((p.si.a ip * p.si.r k + p.sj.a jp * p.sj.r k)/(p.si.a ip + p.sj.a jp))) ∧
    h'.D (pd + (5*(jp*p.si.nprim+ip) + 3)) =
      .val (Real.exp (-(p.si.a ip * p.sj.a jp/(p.si.a ip + p.sj.a jp)*p.rr))) := by
  obtain ⟨e', h1, hr, _, h3, _⟩ := C12_recompute (L := L) hmi hmj
    (fun ip jp hip hjp => (hs ip jp hip hjp).ne') ha
  rw [hrun] at hr
  cases hr
  obtain ⟨V, hV, hE⟩ := h3 ip jp hip hjp
  obtain ⟨_, h5, _⟩ := hE
  obtain ⟨h6, h7⟩ := h5 hkeep
  refine ⟨fun k hk => ?_, ?_⟩
  · rw [hV k (by omega), h6 k hk]; rfl
  · rw [hV 3 (by omega), h7, hL.exp]; rfl

/-- **C13** What screening costs a contracted one-electron integral: if the loop skips the pairs
beyond the cutoff and uses the tabulated prefactors, then the result differs from the unscreened
contraction by at most e^-cutoff divided by the polynomial estimate, times the sum of the
absolute primitive integrals. -/
theorem C13_contracted_error {L : MathLib ℝ} (hL : IsReal L) {si sj : PShell ℝ} {mi mj : Nat → ℝ}
    {rr omega cutoff : ℝ} {l : Nat} (hmi : MaxCoeff si mi) (hmj : MaxCoeff sj mj)
    (hs : 0 < si.a (si.nprim-1) + sj.a (sj.nprim-1)) (hrr : 0 ≤ rr)
    {P : Nest2 ℝ} (hpi : P.iPrim = si.nprim) (hpj : P.jPrim = sj.nprim) (hci : P.ci = si.c) (hcj : P.cj = sj.c)
    (hskip : ∀ ip jp, P.skip ip jp = decide (cutoff < est L si sj mi mj rr omega l ip jp))
    (heij : ∀ ip jp, P.eij ip jp = if est L si sj mi mj rr omega l ip jp < cutoff then
      Real.exp (-prodExponent (si.a ip) (sj.a jp) rr) else 0)
    (nComp : Nat) (w : Nat → Nat → Nat → ℝ) (comp ic jc n : Nat) (hic : ic < si.nctr) (hjc : jc < sj.nctr) :
    |P.common * contract2 P.iPrim P.jPrim P.ci P.cj (fun ip jp =>
        Real.exp (-prodExponent (si.a ip) (sj.a jp) rr) * w ip jp (n*nComp+comp)) ic jc -
      expected2 P nComp (fun _ _ => true) w comp ic jc n| ≤
    |P.common| * (Real.exp (-cutoff) / polyBound (si.a (si.nprim-1) + sj.a (sj.nprim-1)) l rr omega) *
      ∑ jp ∈ Finset.range sj.nprim, ∑ ip ∈ Finset.range si.nprim, |w ip jp (n*nComp+comp)| := by
  have hB := polyBound_pos (rr := rr) (omega := omega) hs l
  unfold expected2 contract2
  rw [hpi, hpj, hci, hcj, ← mul_sub, abs_mul, mul_assoc]
  refine mul_le_mul_of_nonneg_left ?_ (abs_nonneg _)
  rw [← Finset.sum_sub_distrib, Finset.mul_sum]
  refine le_trans (Finset.abs_sum_le_sum_abs _ _) (Finset.sum_le_sum fun jp hjp => ?_)
  rw [← Finset.sum_sub_distrib, Finset.mul_sum]
  refine le_trans (Finset.abs_sum_le_sum_abs _ _) (Finset.sum_le_sum fun ip hip => ?_)
  rw [← mul_sub]
  dsimp only
  rw [Finset.mem_range] at hip hjp
  by_cases hc : est L si sj mi mj rr omega l ip jp < cutoff
  · have hsk : P.skip ip jp = false := by
      rw [hskip]; simp; exact hc.le
    rw [heij, if_pos hc, hsk]
    simp only [and_self, if_true, sub_self, mul_zero, abs_zero]
    have := (Real.exp_pos (-cutoff)).le
    positivity
  · have key := C13_dropped_negligible hL hmi hmj hip hjp hs hrr (not_lt.1 hc) hic hjc
    have hz : (if P.skip ip jp = false ∧ true = true then P.eij ip jp * w ip jp (n*nComp+comp) else 0) = 0 := by
      rw [heij, if_neg hc]; simp
    rw [hz, sub_zero, ← mul_assoc, abs_mul, abs_mul, abs_mul, abs_of_pos (Real.exp_pos (-prodExponent _ _ _))]
    refine mul_le_mul_of_nonneg_right ?_ (abs_nonneg _)
    rw [le_div_iff₀ hB]
    rw [mul_comm ic, mul_comm jc] at key
    calc _ = |si.c (si.nprim*ic+ip)| * |sj.c (sj.nprim*jc+jp)| *
        Real.exp (-prodExponent (si.a ip) (sj.a jp) rr) *
          polyBound (si.a (si.nprim-1) + sj.a (sj.nprim-1)) l rr omega := by ring
      _ ≤ _ := key

/-! A concrete basis of two shells on two centres, one of them contracted. -/
noncomputable def demoLib : MathLib ℝ := ⟨Real.log, Real.exp, Real.sqrt⟩
theorem demoLib_real : IsReal demoLib := ⟨fun _ _ => rfl, fun _ => rfl, fun _ _ => rfl⟩

def demoB (i : Nat) : PShell ℝ :=
  if i = 0 then ⟨2, 2, 0, fun p => p + 1, fun n => n, fun _ => 0⟩
  else ⟨1, 1, 1, fun _ => 3, fun _ => 1, fun k => if k = 0 then 1 else 0⟩

def demoH : Heap ℝ := ⟨fun _ => .undef, fun _ => .undef⟩

noncomputable def demoM (i ip : Nat) : ℝ := maxAbsC (demoB i).c (demoB i).nprim ip (demoB i).nctr

theorem demoB_pos (i ip : Nat) : 0 < (demoB i).a ip := by
  unfold demoB; split
  · show (0:ℝ) < ip + 1; positivity
  · norm_num

example : ∃ h', run (setij demoLib demoB 2 1 60 0 ⟨0, 0⟩ ⟨1, 0⟩) demoH = some (true, h') ∧
    ∀ i j, i < 2 → j < 2 → Served demoLib demoB demoM 2 1 60 0 ⟨0, 0⟩ ⟨1, 0⟩
      (totPrim demoB 2*totPrim demoB 2) h' i j := by
  have e : totPrim demoB 2 = 3 := by simp [totPrim, demoB]
  obtain ⟨h', h1, h2, _⟩ := C12_pair_table (L := demoLib) (B := demoB) (nbas := 2) (inc := 1)
    (cutoff := 60) (omega := 0) (tbl := ⟨0, 0⟩) (pool := ⟨1, 0⟩) (h := demoH) (m := demoM)
    (by rw [e]; omega) (by rw [e]; omega) (fun i _ ip _ => maxAbsC_spec _ _)
    (fun i j ip jp _ _ _ _ => (add_pos (demoB_pos i ip) (demoB_pos j jp)).ne')
    (fun _ _ => by simp [demoH]) (fun _ _ => by simp [demoH])
  exact ⟨h', h1, h2⟩

/-- the hypotheses of `C13_dropped_negligible` can be met: two s functions 10 apart -/
example : ∃ si sj : PShell ℝ, ∃ mi mj : Nat → ℝ, MaxCoeff si mi ∧ MaxCoeff sj mj ∧ 0 < si.nprim ∧ 0 < sj.nprim ∧
    0 < si.nctr ∧ 0 < sj.nctr ∧ 0 < si.a (si.nprim-1) + sj.a (sj.nprim-1) ∧
    (40 : ℝ) ≤ est demoLib si sj mi mj 100 0 0 0 0 := by
  let s : PShell ℝ := ⟨1, 1, 0, fun _ => 1, fun _ => 1, fun _ => 0⟩
  refine ⟨s, s, fun _ => 1, fun _ => 1, ?_, ?_, by decide, by decide, by decide, by decide, ?_, ?_⟩
  · exact fun ip _ => ⟨fun i _ => ⟨by simp [s], by simp [s]⟩, Or.inr ⟨0, by decide, Or.inl rfl⟩⟩
  · exact fun ip _ => ⟨fun i _ => ⟨by simp [s], by simp [s]⟩, Or.inr ⟨0, by decide, Or.inl rfl⟩⟩
  · norm_num [s]
  · unfold est pairEstimate logBound prodExponent
    have h2 : 0 ≤ Real.log 2 := Real.log_nonneg (by norm_num)
    norm_num [s, demoLib]
    linarith

end Verif.Props
