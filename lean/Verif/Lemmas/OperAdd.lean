import Verif.Lemmas.OperProg

/-! Symbolic execution of the functions of src/autocode that add arrays: a pointer stands for a sum of words. -/
namespace Verif.Lemmas
open Verif Verif.Model Verif.Prog

variable {α : Type} [Field α]

abbrev Wd := List (GOp × Fin 4)

/-- the value of a sum of words -/
def sumWords (D : OpData α) (v0 : Nat → (Fin 4 → Nat) → Nat → α) (ws : List Wd) (c : Nat) (m : Fin 4 → Nat) (r : Nat) : α :=
  (ws.map fun w => symVal D v0 w c m r).sum

theorem sumWords_append (D : OpData α) (v0 : Nat → (Fin 4 → Nat) → Nat → α) (a b : List Wd) (c : Nat) (m : Fin 4 → Nat) (r : Nat) :
    sumWords D v0 (a ++ b) c m r = sumWords D v0 a c m r + sumWords D v0 b c m r := by
  unfold sumWords; rw [List.map_append, List.sum_append]

/-- operators are linear -/
theorem opVal_sum (D : OpData α) (v0 : Nat → (Fin 4 → Nat) → Nat → α) (o : GOp × Fin 4) (ws : List Wd) :
    opVal D o (sumWords D v0 ws) = sumWords D v0 (ws.map fun w => o :: w) := by
  have h : ∀ w : Wd, symVal D v0 (o :: w) = opVal D o (symVal D v0 w) := fun _ => rfl
  funext c m r
  unfold sumWords
  rw [List.map_map]
  induction ws with
  | nil =>
    unfold opVal dVal xVal
    cases o.1 <;> simp
  | cons w l ih =>
    simp only [List.map_cons, List.sum_cons, Function.comp_apply]
    rw [← ih, h]
    unfold opVal dVal xVal
    cases o.1 <;> dsimp only <;> ring

/-- what is known about a pointer, as `Sym`, with a sum of words -/
structure SymS where
  base : Nat
  sh : Fin 4 → Nat
  inc : Fin 4 → Nat
  words : List Wd

abbrev StS := Nat → Option SymS

def StS.set (st : StS) (k : Nat) (y : SymS) : StS := fun k' => if k' = k then some y else st k'

/-- no pointer but `g<d>` points into slab `d`, and `g<d>` is the slab itself -/
def ownSlab (n : Nat) (st : StS) (d : Nat) : Bool :=
  ((List.range n).all fun k => k == d || match st k with | none => true | some y => y.base != d) &&
  match st d with
  | none => true
  | some y => y.base == d && decide (∀ t, y.sh t = 0)

def stepSymS (n : Nat) (s : GStep) (st : StS) : Option StS :=
  match st s.src with
  | none => none
  | some y =>
    if s.dst < n ∧ s.dst ≠ s.src then
      if s.op = .own then
        if 1 ≤ y.inc s.t then some (st.set s.dst ⟨y.base, bump y.sh s.t, drop y.inc s.t, y.words.map fun w => (s.op, s.t) :: w⟩) else none
      else if ownSlab n st s.dst = true ∧ ∀ t', bump s.inc s.t t' ≤ y.inc t' then
        some (st.set s.dst ⟨s.dst, fun _ => 0, s.inc, y.words.map fun w => (s.op, s.t) :: w⟩) else none
    else none

def stepsSymS (n : Nat) : List GStep → StS → Option StS
  | [], st => some st
  | s :: l, st => (stepSymS n s st).bind (stepsSymS n l)

/-- the sum of two arrays filled up to the same powers -/
def sumSymS (n : Nat) (a : GSum) (st : StS) : Option StS :=
  match st a.dst, st a.src with
  | some x, some y =>
    if a.dst < n ∧ a.dst ≠ a.src ∧ ownSlab n st a.dst = true ∧ (∀ t, y.sh t = 0) ∧ (∀ t, a.inc t = x.inc t) ∧ ∀ t, a.inc t = y.inc t then
      some (st.set a.dst ⟨x.base, x.sh, x.inc, x.words ++ y.words⟩)
    else none
  | _, _ => none

def moreSymS (n : Nat) : List (GSum × List GStep) → StS → Option StS
  | [], st => some st
  | (a, l) :: m, st => (sumSymS n a st).bind fun st => (stepsSymS n l st).bind (moreSymS n m)

def initS (inc : Fin 4 → Nat) : StS := fun k => if k = 0 then some ⟨0, fun _ => 0, inc, [[]]⟩ else none

structure SlotS (D : OpData α) (v0 : Nat → (Fin 4 → Nat) → Nat → α) (e : EnvG) (L : Fin 4 → Nat) (R n : Nat)
    (g : Ptr) (h : Heap α) (q : Ptr) (y : SymS) : Prop where
  ptr : q = g + (y.base * (3 * e.g_size) + slabM e y.sh 0)
  base : y.base < n
  bnd : ∀ t, angOf e t + y.inc t + y.sh t ≤ L t
  tab : TabM h q e (fun t => angOf e t + y.inc t) R (sumWords D v0 y.words)

structure InvS (D : OpData α) (v0 : Nat → (Fin 4 → Nat) → Nat → α) (e : EnvG) (L : Fin 4 → Nat) (R n leng : Nat)
    (g : Ptr) (h0 : Heap α) (st : StS) (p : Nat → Ptr) (h : Heap α) : Prop where
  int : h.I = h0.I
  agree : AgreeD h0 h (Blk g leng)
  alloc : ∀ q, Blk g leng q → h.D q ≠ .oob
  slot : ∀ k y, st k = some y → SlotS D v0 e L R n g h (p k) y
  fresh : ∀ k, st k = none → p k = g + k * (3 * e.g_size)
  small : ∀ k y, st k = some y → k < n

section
variable {D : OpData α} {v0 : Nat → (Fin 4 → Nat) → Nat → α} {e : EnvG} {L : Fin 4 → Nat} {R n leng : Nat}
  {g : Ptr} {h0 h : Heap α} {st : StS} {p : Nat → Ptr} {two : Bool}

theorem slabM_zeros {sh : Fin 4 → Nat} (hs : ∀ t, sh t = 0) : slabM e sh 0 = 0 := by
  rw [show sh = fun _ => 0 from funext hs, slabM_zero]

theorem SlotS.blk (C : StepCtx two e L R n leng) {q : Ptr} {y : SymS} (H : SlotS D v0 e L R n g h q y)
    {c r : Nat} {m : Fin 4 → Nat} (hc : c < 3) (hm : ∀ t, m t ≤ angOf e t + y.inc t) (hr : r < R) :
    Blk g leng (gAx q e c (slabM e m r)) := by
  rw [H.ptr, cell_loc]
  refine ⟨_, ?_, rfl⟩
  have h1 := C.slab.range (fun t => m t + y.sh t) r (fun t => by
    have := hm t; have := H.bnd t; show m t + y.sh t ≤ L t; omega) hr
  have h2 : (y.base*3+c) + 1 ≤ n * 3 := by have := H.base; omega
  have h3 := Nat.mul_le_mul_right e.g_size h2
  have h4 := C.leng
  have : n * (3 * e.g_size) = n * 3 * e.g_size := by ring
  rw [Nat.add_mul, Nat.one_mul] at h3
  omega

/-- what `ownSlab` checks -/
theorem ownSlab_base (H : InvS D v0 e L R n leng g h0 st p h) {d : Nat} (ho : ownSlab n st d = true) :
    (∀ k y, st k = some y → k ≠ d → y.base ≠ d) ∧ p d = g + d * (3 * e.g_size) := by
  unfold ownSlab at ho
  rw [Bool.and_eq_true, List.all_eq_true] at ho
  obtain ⟨h1, h2⟩ := ho
  refine ⟨?_, ?_⟩
  · intro k y hk hkd
    have := h1 k (List.mem_range.2 (H.small k y hk))
    rw [hk] at this
    simpa [hkd] using this
  · cases hd : st d with
    | none => exact H.fresh d hd
    | some y =>
      rw [hd] at h2
      have h3 : y.base = d ∧ ∀ t, y.sh t = 0 := by simpa using h2
      rw [(H.slot d y hd).ptr, h3.1, slabM_zeros h3.2, Nat.add_zero]

theorem execStepS_wp (C : StepCtx two e L R n leng) {s : GStep} {st' : StS}
    (hs : stepSymS n s st = some st') (H : InvS D v0 e L R n leng g h0 st p h) :
    wp (execStep two e D p s) (fun p' h' => InvS D v0 e L R n leng g h0 st' p' h') h := by
  unfold stepSymS at hs
  cases hsrc : st s.src with
  | none => rw [hsrc] at hs; exact absurd hs (by simp)
  | some y =>
    rw [hsrc] at hs
    dsimp only at hs
    by_cases hd : s.dst < n ∧ s.dst ≠ s.src
    swap
    · rw [if_neg hd] at hs; exact absurd hs (by simp)
    rw [if_pos hd] at hs
    obtain ⟨hdn', hds⟩ := hd
    have Sy := H.slot _ _ hsrc
    by_cases hop : s.op = .own
    · rw [if_pos hop] at hs
      by_cases hi : 1 ≤ y.inc s.t
      swap
      · rw [if_neg hi] at hs; exact absurd hs (by simp)
      rw [if_pos hi] at hs
      obtain rfl := (Option.some.inj hs).symm
      unfold execStep
      rw [hop]
      simp only [wp_pure]
      refine ⟨H.int, H.agree, H.alloc, ?_, ?_, ?_⟩
      · intro k y' hk
        unfold StS.set at hk
        by_cases hkd : k = s.dst
        · rw [if_pos hkd] at hk ⊢
          obtain rfl := (Option.some.inj hk).symm
          refine ⟨?_, Sy.base, ?_, ?_⟩
          · rw [Sy.ptr, Ptr.add_assoc, strideOf_eq]
            dsimp only
            rw [slabM_bump0]
            congr 1; omega
          · intro t
            have := Sy.bnd t
            dsimp only
            unfold bump drop
            rcases eq_or_ne t s.t with rfl | hne
            · simp only [Function.update_self]; omega
            · simp only [Function.update_of_ne hne]; omega
          · intro c m r hc hm hr
            have e1 : gAx (p s.src + strideOf e s.t) e c (slabM e m r) = gAx (p s.src) e c (slabM e (bump m s.t) r) := by
              unfold gAx
              rw [slabM_bump, Ptr.add_assoc, strideOf_eq]
              congr 1; omega
            rw [e1]
            rw [← opVal_sum]
            refine Sy.tab c (bump m s.t) r hc ?_ hr
            intro t
            have := hm t
            dsimp only at this
            unfold bump
            unfold drop at this
            rcases eq_or_ne t s.t with rfl | hne
            · simp only [Function.update_self] at this ⊢; omega
            · simp only [Function.update_of_ne hne] at this ⊢; omega
        · rw [if_neg hkd] at hk ⊢
          exact H.slot k y' hk
      · intro k hk
        unfold StS.set at hk
        by_cases hkd : k = s.dst
        · rw [if_pos hkd] at hk; exact absurd hk (by simp)
        · rw [if_neg hkd] at hk ⊢
          exact H.fresh k hk
      · intro k y' hk
        unfold StS.set at hk
        by_cases hkd : k = s.dst
        · rw [hkd]; exact hdn'
        · rw [if_neg hkd] at hk
          exact H.small _ _ hk
    · rw [if_neg hop] at hs
      by_cases hc : ownSlab n st s.dst = true ∧ ∀ t', bump s.inc s.t t' ≤ y.inc t'
      swap
      · rw [if_neg hc] at hs; exact absurd hs (by simp)
      rw [if_pos hc] at hs
      obtain rfl := (Option.some.inj hs).symm
      obtain ⟨hown, hinc⟩ := hc
      obtain ⟨hbase, hf⟩ := ownSlab_base H hown
      have hincle : ∀ t, s.inc t ≤ y.inc t := by
        intro t
        refine le_trans ?_ (hinc t)
        unfold bump
        rcases eq_or_ne t s.t with rfl | hne
        · simp only [Function.update_self]; omega
        · simp only [Function.update_of_ne hne]; omega
      have hL : ∀ t, angOf e t + s.inc t ≤ L t := fun t => by have := hincle t; have := Sy.bnd t; omega
      have hbs : ∀ t', bump (fun t => angOf e t + s.inc t) s.t t' ≤ angOf e t' + y.inc t' := by
        intro t
        have := hinc t
        unfold bump at this ⊢
        rcases eq_or_ne t s.t with rfl | hne
        · simp only [Function.update_self] at this ⊢; omega
        · simp only [Function.update_of_ne hne] at this ⊢; omega
      -- cells of the new slab
      have hV : ∀ {v : Nat → (Fin 4 → Nat) → Nat → α} {q x}, CellsM (p s.dst) e (fun t => angOf e t + s.inc t) R v q x →
          ∃ c m r, c < 3 ∧ (∀ t, m t ≤ L t) ∧ r < R ∧ q = g + ((s.dst*3+c)*e.g_size + slabM e m r) := by
        rintro v q x ⟨c, m, r, h1, h2, h3, rfl, rfl⟩
        refine ⟨c, m, r, h1, fun t => le_trans (h2 t) (hL t), h3, ?_⟩
        rw [hf]
        unfold gAx
        rw [Ptr.add_assoc]; congr 1; ring
      have hdisj : ∀ k y', st k = some y' → k ≠ s.dst → ∀ {v : Nat → (Fin 4 → Nat) → Nat → α} {c m r}, c < 3 →
          (∀ t, m t ≤ angOf e t + y'.inc t) → r < R →
          ∀ x, ¬ CellsM (p s.dst) e (fun t => angOf e t + s.inc t) R v (gAx (p k) e c (slabM e m r)) x := by
        intro k y' hk hkd v c m r hc hm hr x hx
        obtain ⟨c', m', r', h1, h2, h3, h4⟩ := hV hx
        have S' := H.slot k y' hk
        rw [S'.ptr, cell_loc] at h4
        refine loc_ne C (hbase k y' hk hkd) hc h1 (fun t => ?_) hr h2 h3 h4
        have := hm t; have := S'.bnd t
        show m t + y'.sh t ≤ L t; omega
      have hblk : ∀ {v : Nat → (Fin 4 → Nat) → Nat → α} {q x}, CellsM (p s.dst) e (fun t => angOf e t + s.inc t) R v q x → Blk g leng q := by
        intro v q x hx
        obtain ⟨c', m', r', h1, h2, h3, rfl⟩ := hV hx
        refine ⟨_, ?_, rfl⟩
        have h5 := C.slab.range m' r' h2 h3
        have h6 : (s.dst*3+c') + 1 ≤ n * 3 := by omega
        have h7 := Nat.mul_le_mul_right e.g_size h6
        have h8 := C.leng
        have : n * (3 * e.g_size) = n * 3 * e.g_size := by ring
        rw [Nat.add_mul, Nat.one_mul] at h7
        omega
      have hlz : two = false → angOf e 3 + s.inc 3 = 0 := fun h2 => by
        have h4 := C.kl h2
        have := hL 3; omega
      have htz : two = false → s.t ≠ 3 := by
        intro h2 h3
        have h4 := C.kl h2
        have h5 := hbs 3
        rw [h3] at h5
        unfold bump at h5
        simp only [Function.update_self] at h5
        have := Sy.bnd 3
        omega
      have F := computing_fill (h0 := h) (D := D) (f := p s.dst) (g := p s.src) (P := fun _ _ => False)
        (w := sumWords D v0 y.words) (src := fun t => angOf e t + y.inc t) C (s := s) hop hlz htz
        ⟨⟨L, C.slab, hL⟩, fun q x hx => H.alloc q (hblk hx), Sy.tab, fun c m r hc hm hr => hdisj _ _ hsrc (Ne.symm hds) hc hm hr⟩ hbs
      rw [execStep_eq hop]
      simp only [wp_mbind, wp_pure]
      refine wp_mono (F.start (fun _ _ hx => hx.elim)) ?_
      rintro _ h' ⟨a1, _, a3⟩
      refine ⟨by rw [a1.I]; exact H.int, ?_, fun q hq => Fill.alloc a1 (H.alloc q hq), ?_, ?_, ?_⟩
      · intro q hq
        rw [Fill.keep a1 (fun x hx => hq (hblk hx))]
        exact H.agree q hq
      · intro k y' hk
        unfold StS.set at hk
        by_cases hkd : k = s.dst
        · rw [if_pos hkd] at hk
          obtain rfl := (Option.some.inj hk).symm
          subst hkd
          refine ⟨?_, hdn', fun t => by have := hL t; show _ + 0 ≤ _; simpa using this, ?_⟩
          · rw [hf]; dsimp only; rw [slabM_zero, Nat.add_zero]
          · intro c m r hc hm hr
            rw [← opVal_sum]
            exact a3 _ _ ⟨c, m, r, hc, hm, hr, rfl, rfl⟩ ⟨c, m, r, hc, hm, hr, rfl, rfl⟩
        · rw [if_neg hkd] at hk
          have S' := H.slot k y' hk
          exact ⟨S'.ptr, S'.base, S'.bnd, TabM.congr S'.tab (fun c m r hc hm hr => Fill.keep a1 (hdisj k y' hk hkd hc hm hr))⟩
      · intro k hk
        unfold StS.set at hk
        by_cases hkd : k = s.dst
        · rw [if_pos hkd] at hk; exact absurd hk (by simp)
        · rw [if_neg hkd] at hk
          exact H.fresh k hk
      · intro k y' hk
        unfold StS.set at hk
        by_cases hkd : k = s.dst
        · rw [hkd]; exact hdn'
        · rw [if_neg hkd] at hk
          exact H.small _ _ hk

theorem execStepsS_wp (C : StepCtx two e L R n leng) : ∀ (l : List GStep) {st st' : StS} {p : Nat → Ptr} {h : Heap α},
    stepsSymS n l st = some st' → InvS D v0 e L R n leng g h0 st p h →
    wp (execSteps two e D l p) (fun p' h' => InvS D v0 e L R n leng g h0 st' p' h') h
  | [], st, st', p, h, hs, H => by
    obtain rfl := Option.some.inj hs
    unfold execSteps
    rw [wp_pure]; exact H
  | s :: l, st, st', p, h, hs, H => by
    unfold stepsSymS at hs
    unfold execSteps
    cases h1 : stepSymS n s st with
    | none => rw [h1] at hs; exact absurd hs (by simp)
    | some st1 =>
      rw [h1] at hs
      rw [wp_mbind]
      exact wp_mono (execStepS_wp C h1 H) (fun p' h' H' => execStepsS_wp C l hs H')

/-- which entries `inTab` selects -/
theorem inTab_iff {l : Fin 4 → Nat} {ix : Nat} :
    inTab e R l ix = true ↔ ∃ c m r, c < 3 ∧ (∀ t, m t ≤ l t) ∧ r < R ∧ ix = c * e.g_size + slabM e m r := by
  unfold inTab slabM
  simp only [List.any_eq_true, List.mem_range, beq_iff_eq]
  constructor
  · rintro ⟨c, hc, r, hr, i, hi, j, hj, k, hk, m, hm, rfl⟩
    refine ⟨c, ![i, j, k, m], r, hc, ?_, hr, rfl⟩
    intro t
    fin_cases t
    · exact Nat.lt_succ_iff.1 hi
    · exact Nat.lt_succ_iff.1 hj
    · exact Nat.lt_succ_iff.1 hk
    · exact Nat.lt_succ_iff.1 hm
  · rintro ⟨c, m, r, hc, hm, hr, rfl⟩
    exact ⟨c, hc, r, hr, m 0, Nat.lt_succ_iff.2 (hm 0), m 1, Nat.lt_succ_iff.2 (hm 1), m 2, Nat.lt_succ_iff.2 (hm 2),
      m 3, Nat.lt_succ_iff.2 (hm 3), rfl⟩

/-- the loop that adds an array to another -/
theorem sumArr_wp {l : Fin 4 → Nat} {f q : Ptr} {x y : Nat → α}
    (hx : ∀ ix, inTab e R l ix = true → h.D (f + ix) = .val (x ix)) (hy : ∀ ix, inTab e R l ix = true → h.D (q + ix) = .val (y ix))
    (hd : ∀ i j, inTab e R l i = true → inTab e R l j = true → f + i ≠ q + j) :
    wp (sumArr e R l f q) (fun _ h' => h'.I = h.I ∧
      (∀ ix, ix < e.g_size * 3 → inTab e R l ix = true → h'.D (f + ix) = .val (x ix + y ix)) ∧
      ∀ a, (∀ ix, ix < e.g_size * 3 → inTab e R l ix = true → a ≠ f + ix) → h'.D a = h.D a) h := by
  unfold sumArr
  refine wp_forN (J := fun n h' => h'.I = h.I ∧ (∀ ix, ix < n → inTab e R l ix = true → h'.D (f + ix) = .val (x ix + y ix)) ∧
      ∀ a, (∀ ix, ix < n → inTab e R l ix = true → a ≠ f + ix) → h'.D a = h.D a) ?_ ?_ (fun _ hJ => hJ)
  · exact ⟨rfl, fun _ h' => absurd h' (Nat.not_lt_zero _), fun _ _ => rfl⟩
  · rintro i _ h1 ⟨a1, a2, a3⟩
    by_cases ht : inTab e R l i = true
    swap
    · rw [if_neg ht, wp_pure]
      refine ⟨a1, fun ix hix => ?_, fun a ha => a3 a fun ix hix => ha ix (by omega)⟩
      intro hin
      have : ix ≠ i := fun hh => ht (hh ▸ hin)
      exact a2 ix (by omega) hin
    · rw [if_pos ht]
      simp only [wp_mbind, wp_ld, wp_st]
      have e1 : h1.D (f + i) = .val (x i) := by
        rw [a3 _ fun ix hix _ hh => ?_]
        · exact hx i ht
        · have := (Ptr.add_right_inj _ _ _).1 hh; omega
      have e2 : h1.D (q + i) = .val (y i) := by
        rw [a3 _ fun ix _ hin hh => ?_]
        · exact hy i ht
        · exact hd ix i hin ht hh.symm
      refine ⟨_, e1, _, e2, by rw [e1]; simp, a1, ?_, ?_⟩
      · intro ix hix hin
        rcases Nat.lt_or_ge ix i with hlt | hge
        · rw [Heap.setD_D_ne _ _ (fun hh => by have := (Ptr.add_right_inj _ _ _).1 hh; omega)]
          exact a2 ix hlt hin
        · obtain rfl : ix = i := by omega
          rw [Heap.setD_D_self]
      · intro a ha
        rw [Heap.setD_D_ne _ _ (ha i (by omega) ht)]
        exact a3 a fun ix hix => ha ix (by omega)

theorem sumStep_wp (C : StepCtx two e L R n leng) {a : GSum} {st' : StS}
    (hs : sumSymS n a st = some st') (H : InvS D v0 e L R n leng g h0 st p h) :
    wp (sumArr e R (fun t => angOf e t + a.inc t) (p a.dst) (p a.src)) (fun _ h' => InvS D v0 e L R n leng g h0 st' p h') h := by
  unfold sumSymS at hs
  cases hd : st a.dst with
  | none => rw [hd] at hs; exact absurd hs (by simp)
  | some x =>
  cases hq : st a.src with
  | none => rw [hd, hq] at hs; exact absurd hs (by simp)
  | some y =>
  rw [hd, hq] at hs
  dsimp only at hs
  by_cases hc : a.dst < n ∧ a.dst ≠ a.src ∧ ownSlab n st a.dst = true ∧ (∀ t, y.sh t = 0) ∧ (∀ t, a.inc t = x.inc t) ∧ ∀ t, a.inc t = y.inc t
  swap
  · rw [if_neg hc] at hs; exact absurd hs (by simp)
  rw [if_pos hc] at hs
  obtain rfl := (Option.some.inj hs).symm
  obtain ⟨hdn, hne, hown, hysh, hxi, hyi⟩ := hc
  obtain ⟨hbase, hf⟩ := ownSlab_base H hown
  have hown' := hown
  unfold ownSlab at hown'
  rw [Bool.and_eq_true] at hown'
  have hxb : x.base = a.dst ∧ ∀ t, x.sh t = 0 := by
    have := hown'.2
    rw [hd] at this
    simpa using this
  have Sx := H.slot _ _ hd
  have Sy := H.slot _ _ hq
  have hyb : y.base ≠ a.dst := hbase _ _ hq (Ne.symm hne)
  have hpy : p a.src = g + y.base * (3 * e.g_size) := by
    rw [Sy.ptr, slabM_zeros hysh, Nat.add_zero]
  have hlx : (fun t => angOf e t + a.inc t) = fun t => angOf e t + x.inc t := funext fun t => by rw [hxi t]
  have hly : (fun t => angOf e t + a.inc t) = fun t => angOf e t + y.inc t := funext fun t => by rw [hyi t]
  have hLx : ∀ t, angOf e t + a.inc t ≤ L t := fun t => by have := Sx.bnd t; have := hxi t; omega
  have cx : ∀ {c m r}, c < 3 → (∀ t, m t ≤ angOf e t + a.inc t) → r < R →
      h.D (p a.dst + (c * e.g_size + slabM e m r)) = .val (sumWords D v0 x.words c m r) := fun {c m r} h1 h2 h3 =>
    Sx.tab c m r h1 (fun t => (h2 t).trans (by rw [hxi t])) h3
  have cy : ∀ {c m r}, c < 3 → (∀ t, m t ≤ angOf e t + a.inc t) → r < R →
      h.D (p a.src + (c * e.g_size + slabM e m r)) = .val (sumWords D v0 y.words c m r) := fun {c m r} h1 h2 h3 =>
    Sy.tab c m r h1 (fun t => (h2 t).trans (by rw [hyi t])) h3
  -- the contents of the cells, as functions of their numbers
  classical
  let X : Nat → α := fun ix => match h.D (p a.dst + ix) with | .val v => v | _ => 0
  let Y : Nat → α := fun ix => match h.D (p a.src + ix) with | .val v => v | _ => 0
  have hX : ∀ ix, inTab e R (fun t => angOf e t + a.inc t) ix = true → h.D (p a.dst + ix) = .val (X ix) := by
    intro ix hix
    obtain ⟨c, m, r, h1, h2, h3, rfl⟩ := inTab_iff.1 hix
    show _ = Cell.val (match h.D (p a.dst + _) with | .val v => v | _ => 0)
    rw [cx h1 h2 h3]
  have hY : ∀ ix, inTab e R (fun t => angOf e t + a.inc t) ix = true → h.D (p a.src + ix) = .val (Y ix) := by
    intro ix hix
    obtain ⟨c, m, r, h1, h2, h3, rfl⟩ := inTab_iff.1 hix
    show _ = Cell.val (match h.D (p a.src + _) with | .val v => v | _ => 0)
    rw [cy h1 h2 h3]
  have loc : ∀ (b c : Nat) (k : Nat), g + b * (3 * e.g_size) + (c * e.g_size + k) = g + ((b*3+c) * e.g_size + k) := by
    intro b c k; rw [Ptr.add_assoc]; congr 1; ring
  have hdist : ∀ i j, inTab e R (fun t => angOf e t + a.inc t) i = true → inTab e R (fun t => angOf e t + a.inc t) j = true →
      p a.dst + i ≠ p a.src + j := by
    intro i j hi hj
    obtain ⟨c, m, r, h1, h2, h3, rfl⟩ := inTab_iff.1 hi
    obtain ⟨c', m', r', h1', h2', h3', rfl⟩ := inTab_iff.1 hj
    rw [hf, hpy, loc, loc]
    exact loc_ne C (Ne.symm hyb) h1 h1' (fun t => le_trans (h2 t) (hLx t)) h3 (fun t => le_trans (h2' t) (hLx t)) h3'
  have hsm : ∀ {c m r}, c < 3 → (∀ t, m t ≤ angOf e t + a.inc t) → r < R → c * e.g_size + slabM e m r < e.g_size * 3 := by
    intro c m r h1 h2 h3
    have := C.slab.range m r (fun t => le_trans (h2 t) (hLx t)) h3
    have h4 : c + 1 ≤ 3 := h1
    have h5 := Nat.mul_le_mul_right e.g_size h4
    rw [Nat.add_mul, Nat.one_mul] at h5
    omega
  refine wp_mono (sumArr_wp (h := h) hX hY hdist) ?_
  rintro _ h' ⟨b1, b2, b3⟩
  have hkeep : ∀ k y', st k = some y' → k ≠ a.dst → ∀ {c m r}, c < 3 → (∀ t, m t ≤ angOf e t + y'.inc t) → r < R →
      h'.D (gAx (p k) e c (slabM e m r)) = h.D (gAx (p k) e c (slabM e m r)) := by
    intro k y' hk hkd c m r h1 h2 h3
    refine b3 _ fun ix _ hin hh => ?_
    obtain ⟨c', m', r', h1', h2', h3', rfl⟩ := inTab_iff.1 hin
    have S' := H.slot k y' hk
    rw [S'.ptr, cell_loc, hf, loc] at hh
    refine loc_ne C (hbase k y' hk hkd) h1 h1' (fun t => ?_) h3 (fun t => le_trans (h2' t) (hLx t)) h3' hh
    have := h2 t; have := S'.bnd t
    show m t + y'.sh t ≤ L t; omega
  have hin : ∀ ix, inTab e R (fun t => angOf e t + a.inc t) ix = true → Blk g leng (p a.dst + ix) := by
    intro ix hix
    obtain ⟨c, m, r, h1, h2, h3, rfl⟩ := inTab_iff.1 hix
    exact Sx.blk C h1 (fun t => (h2 t).trans (by rw [hxi t])) h3
  refine ⟨by rw [b1]; exact H.int, ?_, ?_, ?_, ?_, ?_⟩
  · intro q hq
    rw [b3 q fun ix _ hi hh => hq (hh ▸ hin ix hi)]
    exact H.agree q hq
  · intro q hq
    by_cases hh : ∃ ix, ix < e.g_size * 3 ∧ inTab e R (fun t => angOf e t + a.inc t) ix = true ∧ q = p a.dst + ix
    · obtain ⟨ix, i1, i2, rfl⟩ := hh
      rw [b2 ix i1 i2]; simp
    · rw [b3 q fun ix i1 i2 i3 => hh ⟨ix, i1, i2, i3⟩]
      exact H.alloc q hq
  · intro k y' hk
    unfold StS.set at hk
    by_cases hkd : k = a.dst
    · rw [if_pos hkd] at hk
      obtain rfl := (Option.some.inj hk).symm
      subst hkd
      refine ⟨Sx.ptr, Sx.base, Sx.bnd, ?_⟩
      intro c m r h1 h2 h3
      have h2' : ∀ t, m t ≤ angOf e t + a.inc t := fun t => by rw [hxi t]; exact h2 t
      have i2 : inTab e R (fun t => angOf e t + a.inc t) (c * e.g_size + slabM e m r) = true := inTab_iff.2 ⟨c, m, r, h1, h2', h3, rfl⟩
      show h'.D (p a.dst + (c * e.g_size + slabM e m r)) = _
      have eX := hX _ i2
      have eY := hY _ i2
      rw [cx h1 h2' h3] at eX
      rw [cy h1 h2' h3] at eY
      rw [b2 _ (hsm h1 h2' h3) i2, ← Cell.val.inj eX, ← Cell.val.inj eY]
      dsimp only
      rw [sumWords_append]
    · rw [if_neg hkd] at hk
      have S' := H.slot k y' hk
      exact ⟨S'.ptr, S'.base, S'.bnd, TabM.congr S'.tab fun c m r h1 h2 h3 => hkeep k y' hk hkd h1 h2 h3⟩
  · intro k hk
    unfold StS.set at hk
    by_cases hkd : k = a.dst
    · rw [if_pos hkd] at hk; exact absurd hk (by simp)
    · rw [if_neg hkd] at hk
      exact H.fresh k hk
  · intro k y' hk
    unfold StS.set at hk
    by_cases hkd : k = a.dst
    · rw [hkd]; exact hdn
    · rw [if_neg hkd] at hk
      exact H.small _ _ hk
end

section
variable {D : OpData α} {v0 : Nat → (Fin 4 → Nat) → Nat → α} {e : EnvG} {L : Fin 4 → Nat} {n leng : Nat}
  {g : Ptr} {h0 : Heap α}

theorem execMore_wp (C : StepCtx true e L e.nrys_roots n leng) : ∀ (l : List (GSum × List GStep)) {st st' : StS} {p : Nat → Ptr} {h : Heap α},
    moreSymS n l st = some st' → InvS D v0 e L e.nrys_roots n leng g h0 st p h →
    wp (execMore e D l p) (fun p' h' => InvS D v0 e L e.nrys_roots n leng g h0 st' p' h') h
  | [], st, st', p, h, hs, H => by
    obtain rfl := Option.some.inj hs
    unfold execMore
    rw [wp_pure]; exact H
  | (a, l) :: m, st, st', p, h, hs, H => by
    unfold moreSymS at hs
    unfold execMore
    cases h1 : sumSymS n a st with
    | none => rw [h1] at hs; exact absurd hs (by simp)
    | some st1 =>
      rw [h1] at hs
      cases h2 : stepsSymS n l st1 with
      | none => rw [Option.bind_some, h2] at hs; exact absurd hs (by simp)
      | some st2 =>
        rw [Option.bind_some, h2] at hs
        rw [wp_mbind]
        refine wp_mono (sumStep_wp C h1 H) fun _ h1 H1 => ?_
        rw [wp_mbind]
        exact wp_mono (execStepsS_wp C l h2 H1) fun p' h' H' => execMore_wp C m hs H'
end

/-! ### Products and components -/

/-- the words of a product of sums: one for each choice of a word in each factor -/
def prodWordsS (st : StS) (m : Nat × Nat × Nat) : Option (List (Nat → Wd)) :=
  match st m.1, st m.2.1, st m.2.2 with
  | some x, some y, some z => some (x.words.flatMap fun u => y.words.flatMap fun v => z.words.map fun w =>
      fun c => if c = 0 then u else if c = 1 then v else w)
  | _, _, _ => none

def prodsWordsS (st : StS) (l : List (Nat × Nat × Nat)) : Option (List (List (Nat → Wd))) := l.mapM (prodWordsS st)

/-- the words of all products of a function that adds arrays -/
def symRunS (ng : Fin 4 → Nat) (n : Nat) (P : GoutProg) : Option (List (List (Nat → Wd))) :=
  (stepsSymS n P.steps (initS ng)).bind fun st => (moreSymS n P.more st).bind fun st => prodsWordsS st P.prods

/-- each product replaced by the products it expands to, numbered one after the other -/
def flatTerms (lens : List Nat) (terms : List (Int × List Nat × Nat)) : List (Int × List Nat × Nat) :=
  terms.flatMap fun t => (List.range (lens.getD t.2.2 0)).map fun j => (t.1, t.2.1, (lens.take t.2.2).sum + j)

def flatComps (ng : Fin 4 → Nat) (n : Nat) (P : GoutProg) : List (List (Int × List Nat × Nat)) :=
  match P.more with
  | [] => P.comps
  | _ => match symRunS ng n P with
    | some wss => P.comps.map (flatTerms (wss.map List.length))
    | none => P.comps

/-- the function with its components written in terms of products of single words -/
def flatP (ng : Fin 4 → Nat) (n : Nat) (P : GoutProg) : GoutProg := { P with comps := flatComps ng n P }

def runWords (ng : Fin 4 → Nat) (n : Nat) (P : GoutProg) : Option (List (Nat → Wd)) :=
  match P.more with
  | [] => symRun ng n P
  | _ => (symRunS ng n P).map List.flatten

theorem flatP_length (ng : Fin 4 → Nat) (n : Nat) (P : GoutProg) : (flatP ng n P).comps.length = P.comps.length := by
  show (flatComps ng n P).length = _
  unfold flatComps
  split
  · rfl
  · split
    · rw [List.length_map]
    · rfl

theorem flatP_plain {ng : Fin 4 → Nat} {n : Nat} {P : GoutProg} (h : P.more = []) : (flatP ng n P).comps = P.comps := by
  show flatComps ng n P = _
  unfold flatComps; rw [h]

theorem runWords_plain {ng : Fin 4 → Nat} {n : Nat} {P : GoutProg} (h : P.more = []) : runWords ng n P = symRun ng n P := by
  unfold runWords; rw [h]

theorem flatten_sum (L : List (List α)) : ∀ k,
    ((List.range ((L.map List.length).getD k 0)).map fun j => L.flatten.getD (((L.map List.length).take k).sum + j) 0).sum =
      (L.map List.sum).getD k 0 := by
  induction L with
  | nil => intro k; simp
  | cons l L ih =>
    intro k
    cases k with
    | zero =>
      simp only [List.map_cons, List.getD_cons_zero, List.take_zero, List.sum_nil, Nat.zero_add, List.flatten_cons]
      congr 1
      refine List.ext_getElem (by simp) fun i h1 h2 => ?_
      rw [List.getElem_map, List.getElem_range, List.getD_append _ _ _ _ h2, List.getD_eq_getElem _ _ h2]
    | succ k =>
      simp only [List.map_cons, List.getD_cons_succ, List.take_succ_cons, List.sum_cons, List.flatten_cons]
      rw [← ih k]
      congr 1
      refine List.map_congr_left fun j _ => ?_
      rw [List.getD_append_right _ _ _ _ (by omega)]
      congr 1; omega

theorem compVal_flat (D : OpData α) (wss : List (List (Nat → Wd))) (f : (Nat → Wd) → α) (terms : List (Int × List Nat × Nat)) :
    compVal D (flatTerms (wss.map List.length) terms) (fun i => (wss.flatten.map f).getD i 0) =
      compVal D terms fun i => (wss.map fun ws => (ws.map f).sum).getD i 0 := by
  have h0 : wss.flatten.map f = (wss.map (List.map f)).flatten := by rw [List.map_flatten]
  have h1 : wss.map List.length = (wss.map (List.map f)).map List.length := by
    rw [List.map_map]; exact List.map_congr_left fun l _ => (List.length_map _).symm
  have h2 : (wss.map fun ws => (ws.map f).sum) = (wss.map (List.map f)).map List.sum := by rw [List.map_map]; rfl
  rw [h0, h1, h2]
  generalize wss.map (List.map f) = LL
  unfold compVal flatTerms
  induction terms with
  | nil => rfl
  | cons t l ih =>
    rw [List.flatMap_cons, List.map_append, List.sum_append, ih, List.map_cons, List.sum_cons]
    congr 1
    dsimp only
    rw [← flatten_sum, List.map_map, ← List.sum_map_mul_left]
    rfl

theorem prodWordsS_val {D : OpData α} {v0 : Nat → (Fin 4 → Nat) → Nat → α} {m : Nat → Fin 4 → Nat} {r : Nat} (a b c : List Wd) :
    ((a.flatMap fun u => b.flatMap fun v => c.map fun w => (fun d => if d = 0 then u else if d = 1 then v else w : Nat → Wd)).map fun W =>
      symVal D v0 (W 0) 0 (m 0) r * symVal D v0 (W 1) 1 (m 1) r * symVal D v0 (W 2) 2 (m 2) r).sum =
    sumWords D v0 a 0 (m 0) r * sumWords D v0 b 1 (m 1) r * sumWords D v0 c 2 (m 2) r := by
  unfold sumWords
  induction a with
  | nil => simp
  | cons u a ih =>
    rw [List.flatMap_cons, List.map_append, List.sum_append, ih, List.map_cons, List.sum_cons, add_mul, add_mul]
    congr 1
    clear ih
    induction b with
    | nil => simp
    | cons v b ih =>
      rw [List.flatMap_cons, List.map_append, List.sum_append, ih, List.map_cons, List.sum_cons, mul_add, add_mul]
      congr 1
      rw [List.map_map, ← List.sum_map_mul_left]
      rfl

section
variable {D : OpData α} {v0 : Nat → (Fin 4 → Nat) → Nat → α} {e : EnvG} {L : Fin 4 → Nat} {R n leng : Nat}
  {g : Ptr} {h0 h : Heap α} {st : StS} {p : Nat → Ptr} {two : Bool}

theorem loadProdsS_wp (C : StepCtx two e L R n leng) {r : Nat} (hR : r < R) (H : InvS D v0 e L R n leng g h0 st p h)
    (m : Nat → Fin 4 → Nat) (hm : ∀ c t, c < 3 → m c t ≤ angOf e t) {h' : Heap α}
    (hag : ∀ q, Blk g leng q → h'.D q = h.D q) :
    ∀ (l : List (Nat × Nat × Nat)) (wss : List (List (Nat → Wd))), prodsWordsS st l = some wss →
    wp (loadProds p (0*e.g_size + slabM e (m 0) r) (1*e.g_size + slabM e (m 1) r) (2*e.g_size + slabM e (m 2) r) l)
      (fun s h'' => h'' = h' ∧ s = wss.map fun ws => (ws.map fun W => symVal D v0 (W 0) 0 (m 0) r * symVal D v0 (W 1) 1 (m 1) r *
        symVal D v0 (W 2) 2 (m 2) r).sum) h'
  | [], wss, hw => by
    obtain rfl : wss = [] := by unfold prodsWordsS at hw; simpa using hw.symm
    unfold loadProds
    rw [wp_pure]; exact ⟨rfl, rfl⟩
  | t :: l, wss, hw => by
    unfold prodsWordsS at hw
    rw [List.mapM_cons] at hw
    obtain ⟨W, hW, ws', hws, rfl⟩ : ∃ W, prodWordsS st t = some W ∧ ∃ ws', prodsWordsS st l = some ws' ∧ wss = W :: ws' := by
      cases h1 : prodWordsS st t with
      | none => rw [h1] at hw; exact absurd hw (by simp)
      | some W =>
        rw [h1] at hw
        cases h2 : prodsWordsS st l with
        | none => unfold prodsWordsS at h2; rw [h2] at hw; exact absurd hw (by simp)
        | some ws' =>
          unfold prodsWordsS at h2; rw [h2] at hw
          exact ⟨W, rfl, ws', rfl, by simpa using hw.symm⟩
    unfold prodWordsS at hW
    cases hx : st t.1 with
    | none => rw [hx] at hW; exact absurd hW (by simp)
    | some x =>
    cases hy : st t.2.1 with
    | none => rw [hx, hy] at hW; exact absurd hW (by simp)
    | some y =>
    cases hz : st t.2.2 with
    | none => rw [hx, hy, hz] at hW; exact absurd hW (by simp)
    | some z =>
    rw [hx, hy, hz] at hW
    obtain rfl := (Option.some.inj hW).symm
    have key : ∀ k w, st k = some w → ∀ c, c < 3 →
        h'.D (p k + (c*e.g_size + slabM e (m c) r)) = .val (sumWords D v0 w.words c (m c) r) := by
      intro k w hk c hc
      have S := H.slot k w hk
      have hle : ∀ t, m c t ≤ angOf e t + w.inc t := fun t => le_trans (hm c t hc) (Nat.le_add_right _ _)
      have := S.tab c (m c) r hc hle hR
      rw [← hag _ (S.blk C hc hle hR)] at this
      exact this
    unfold loadProds
    simp only [wp_mbind, wp_ld, wp_pure]
    refine ⟨_, key _ _ hx 0 (by omega), _, key _ _ hy 1 (by omega), _, key _ _ hz 2 (by omega), ?_⟩
    refine wp_mono (loadProdsS_wp C hR H m hm hag l ws' hws) ?_
    rintro s h'' ⟨rfl, rfl⟩
    refine ⟨rfl, ?_⟩
    rw [List.map_cons, prodWordsS_val]
end

end Verif.Lemmas
