import Verif.Model.GoutSimd
import Verif.Lemmas.Nuc

/-! The SSE3 version of CINTgout2e stores what the plain one stores. -/
namespace Verif.Lemmas
open Verif Verif.Model Verif.Prog

variable {α : Type} [Field α]

section
variable {g : Ptr} {a : Nat → Nat} {R : Nat} {x : Nat → Nat → α} {h : Heap α}

/-- product of one root -/
def p3 (x : Nat → Nat → α) (r : Nat) : α := x 0 r * x 1 r * x 2 r

theorem prodPair_wp (hv : ∀ c r, c < 3 → r < R → h.D (g + a c + r) = .val (x c r)) {o : Nat} (ho : o + 1 < R) :
    wp (prodPair g (a 0) (a 1) (a 2) o) (fun s h' => h' = h ∧ s = (p3 x o, p3 x (o+1))) h := by
  unfold prodPair loadu
  simp only [wp_mbind, wp_ld, wp_pure, Ptr.add_assoc _ o 1]
  exact ⟨_, hv 0 o (by omega) (by omega), _, hv 0 (o+1) (by omega) ho, _, hv 1 o (by omega) (by omega), _, hv 1 (o+1) (by omega) ho,
    _, hv 2 o (by omega) (by omega), _, hv 2 (o+1) (by omega) ho, True.intro, rfl⟩

theorem prodOne_wp (hv : ∀ c r, c < 3 → r < R → h.D (g + a c + r) = .val (x c r)) {o : Nat} (ho : o < R) :
    wp (prodOne g (a 0) (a 1) (a 2) o) (fun s h' => h' = h ∧ s = p3 x o) h := by
  unfold prodOne
  simp only [wp_mbind, wp_ld, wp_pure]
  exact ⟨_, hv 0 o (by omega) ho, _, hv 1 o (by omega) ho, _, hv 2 o (by omega) ho, True.intro, rfl⟩

theorem pairSum_wp (hv : ∀ c r, c < 3 → r < R → h.D (g + a c + r) = .val (x c r)) : ∀ m, 2*(m+1) ≤ R →
    wp (pairSum g (a 0) (a 1) (a 2) m) (fun s h' => h' = h ∧ s.1 + s.2 = ∑ r ∈ Finset.range (2*(m+1)), p3 x r) h
  | 0, hm => by
    unfold pairSum
    refine wp_mono (prodPair_wp hv (by omega)) ?_
    rintro s _ ⟨rfl, rfl⟩
    exact ⟨rfl, by rw [Finset.sum_range_succ, Finset.sum_range_one]⟩
  | m+1, hm => by
    unfold pairSum
    rw [wp_mbind]
    refine wp_mono (pairSum_wp hv m (by omega)) ?_
    rintro s _ ⟨rfl, hs⟩
    rw [wp_mbind]
    refine wp_mono (prodPair_wp hv (by omega)) ?_
    rintro t _ ⟨rfl, rfl⟩
    rw [wp_pure]
    refine ⟨rfl, ?_⟩
    rw [show 2*(m+1+1) = 2*(m+1) + 1 + 1 by ring, Finset.sum_range_succ, Finset.sum_range_succ, ← hs]
    unfold vadd
    ring
end

section
variable {nf R : Nat} {idx g gout : Ptr} {em : Int} {T : Ptr → Option Int} {ad : Nat → Nat → Nat}
  {x : Nat → Nat → Nat → α} {u : Nat → α} {h : Heap α}

/-- what is stored -/
def simdVal (R : Nat) (em : Int) (u : Nat → α) (x : Nat → Nat → Nat → α) (m : Nat) : α :=
  if em = 0 then u m + ∑ r ∈ Finset.range R, p3 (fun c => x c m) r else ∑ r ∈ Finset.range R, p3 (fun c => x c m) r

/-- the situation of the lemmas below -/
structure SimdCtx (nf R : Nat) (idx g gout : Ptr) (em : Int) (T : Ptr → Option Int) (ad : Nat → Nat → Nat)
    (x : Nat → Nat → Nat → α) (u : Nat → α) (h : Heap α) : Prop where
  hR : RO T h
  hT : IdxT T idx nf ad
  ha : AllocD h gout nf
  hE : em = 0 → HoldsD h gout nf u
  hg : ∀ n c r, n < nf → c < 3 → r < R → ¬ Blk gout nf (g + ad c n + r)
  hx : ∀ n c r, n < nf → c < 3 → r < R → h.D (g + ad c n + r) = .val (x c n r)

/-- elements below `n` are done -/
abbrev Done (R : Nat) (gout : Ptr) (em : Int) (u : Nat → α) (x : Nat → Nat → Nat → α) (h h' : Heap α) (n : Nat) : Prop :=
  AssignedD h h' (fun m => m < n) (fun m => gout + m) (simdVal R em u x)

theorem Done.step {h' : Heap α} {n : Nat} {v : α} (H : Done R gout em u x h h' n) (hv : v = simdVal R em u x n) :
    Done R gout em u x h (h'.setD (gout + n) v) (n+1) := by
  subst hv
  exact AssignedD.set H n (fun k' _ e => by rw [(Ptr.add_right_inj _ _ _).1 e]) (fun k' => by omega)

theorem Done.old {h' : Heap α} {n m : Nat} (H : Done R gout em u x h h' n) (hm : n ≤ m) : h'.D (gout + m) = h.D (gout + m) :=
  H.frame _ (fun k hk e => by have := (Ptr.add_right_inj _ _ _).1 e; omega)

/-- the stores done so far leave the tables alone -/
theorem SimdCtx.tabs (C : SimdCtx nf R idx g gout em T ad x u h) {h' : Heap α}
    (H : ∀ q, ¬ Blk gout nf q → h'.D q = h.D q) {n : Nat} (hn : n < nf) (c r : Nat) (hc : c < 3) (hr : r < R) :
    h'.D (g + ad c n + r) = .val (x c n r) := by
  rw [H _ (C.hg n c r hn hc hr)]
  exact C.hx n c r hn hc hr

theorem SimdCtx.tbl (C : SimdCtx nf R idx g gout em T ad x u h) {h' : Heap α} (hI : h'.I = h.I) {n : Nat} (hn : n < nf)
    (c : Nat) (hc : c < 3) : h'.I (idx + (n*3+c)) = .val (ad c n : Int) := by
  rw [hI, Nat.mul_comm n 3]
  exact C.hR _ _ (C.hT n c hn hc)

theorem Done.agree {h' : Heap α} {n : Nat} (H : Done R gout em u x h h' n) (hn : n ≤ nf) :
    ∀ q, ¬ Blk gout nf q → h'.D q = h.D q :=
  fun _ hq => H.frame _ (fun k hk e => hq ⟨k, by omega, e⟩)

theorem simdSingle_wp (C : SimdCtx nf 1 idx g gout em T ad x u h) {h' : Heap α} {n : Nat} (hn : n < nf)
    (H : Done 1 gout em u x h h' n) :
    wp (simdSingle idx g gout em n) (fun _ h2 => Done 1 gout em u x h h2 (n+1)) h' := by
  have hv := C.tabs (H.agree hn.le) hn
  have hal : h'.D (gout + n) ≠ .oob := H.ne_oob (C.ha n hn)
  unfold simdSingle
  simp only [wp_mbind, wp_ldI]
  refine ⟨_, C.tbl H.int hn 0 (by omega), _, C.tbl H.int hn 1 (by omega), _, C.tbl H.int hn 2 (by omega), ?_⟩
  simp only [Int.toNat_natCast]
  by_cases he : em = 0
  · rw [if_neg (by simpa using he)]
    simp only [wp_mbind, wp_ld]
    refine ⟨u n, by rw [H.old le_rfl]; exact C.hE he n hn, ?_⟩
    refine wp_mono (prodOne_wp (a := fun c => ad c n) (x := fun c => x c n) hv (by omega)) ?_
    rintro _ _ ⟨rfl, rfl⟩
    rw [wp_st]
    exact ⟨hal, H.step (by rw [simdVal, if_pos he, Finset.sum_range_one])⟩
  · rw [if_pos he]
    rw [wp_mbind]
    refine wp_mono (prodOne_wp (a := fun c => ad c n) (x := fun c => x c n) hv (by omega)) ?_
    rintro _ _ ⟨rfl, rfl⟩
    rw [wp_st]
    exact ⟨hal, H.step (by rw [simdVal, if_neg he, Finset.sum_range_one])⟩

/-- the sum over the roots, in pairs and the odd one -/
theorem sum_pairs {R : Nat} (f : Nat → α) (hR : 2 ≤ R) :
    ∑ r ∈ Finset.range R, f r = ∑ r ∈ Finset.range (2*(R/2-1+1)), f r + if R % 2 = 1 then f (R-1) else 0 := by
  split
  · rw [show 2*(R/2-1+1) = R-1 by omega, ← Finset.sum_range_succ, show R-1+1 = R by omega]
  · rw [show 2*(R/2-1+1) = R by omega, add_zero]

theorem simdLast_wp (C : SimdCtx nf R idx g gout em T ad x u h) (hR : 2 ≤ R) {h' : Heap α} {n : Nat} (hn : n < nf)
    (H : Done R gout em u x h h' n) :
    wp (simdLast R idx g gout em n) (fun _ h2 => Done R gout em u x h h2 (n+1)) h' := by
  have hv := C.tabs (H.agree hn.le) hn
  have hal : h'.D (gout + n) ≠ .oob := H.ne_oob (C.ha n hn)
  have hsum := sum_pairs (p3 fun c => x c n) hR
  unfold simdLast
  simp only [wp_mbind, wp_ldI]
  refine ⟨_, C.tbl H.int hn 0 (by omega), _, C.tbl H.int hn 1 (by omega), _, C.tbl H.int hn 2 (by omega), ?_⟩
  simp only [Int.toNat_natCast]
  refine wp_mono (pairSum_wp (a := fun c => ad c n) (x := fun c => x c n) hv (R/2-1) (by omega)) ?_
  rintro s h2 ⟨e2, hs⟩
  subst h2
  by_cases he : em = 0
  · rw [if_neg (by simpa using he)]
    simp only [wp_mbind, wp_ld]
    refine ⟨u n, by rw [H.old le_rfl]; exact C.hE he n hn, ?_⟩
    by_cases ho : R % 2 = 1
    · rw [if_pos ho] at hsum ⊢
      rw [wp_mbind]
      refine wp_mono (prodOne_wp (a := fun c => ad c n) (x := fun c => x c n) hv (by omega)) ?_
      rintro _ _ ⟨rfl, rfl⟩
      rw [wp_st]
      refine ⟨hal, H.step ?_⟩
      rw [simdVal, if_pos he, hsum, ← hs]
      unfold hadd; ring
    · rw [if_neg ho] at hsum ⊢
      rw [wp_st]
      refine ⟨hal, H.step ?_⟩
      rw [simdVal, if_pos he, hsum, ← hs]
      unfold hadd; ring
  · rw [if_pos he]
    simp only [wp_mbind, wp_st]
    refine ⟨hal, ?_⟩
    by_cases ho : R % 2 = 1
    · rw [if_pos ho] at hsum ⊢
      simp only [wp_mbind, wp_ld]
      refine ⟨(hadd s s).1, by simp [Heap.setD], ?_⟩
      have hv2 := C.tabs (h' := h'.setD (gout + n) (hadd s s).1) (fun q hq => by
        rw [← H.agree hn.le q hq]
        exact if_neg (fun e => hq ⟨n, hn, e⟩)) hn
      refine wp_mono (prodOne_wp (a := fun c => ad c n) (x := fun c => x c n) hv2 (by omega)) ?_
      rintro _ _ ⟨rfl, rfl⟩
      rw [wp_st]
      refine ⟨by simp [Heap.setD], ?_⟩
      have e : (h'.setD (gout + n) (hadd s s).1).setD (gout + n) ((hadd s s).1 + p3 (fun c => x c n) (R-1)) =
          h'.setD (gout + n) ((hadd s s).1 + p3 (fun c => x c n) (R-1)) := by
        unfold Heap.setD
        congr 1
        funext q
        by_cases hq : q = gout + n <;> simp [hq]
      rw [e]
      refine H.step ?_
      rw [simdVal, if_neg he, hsum, ← hs]
      unfold hadd; ring
    · rw [if_neg ho] at hsum ⊢
      rw [wp_pure]
      refine H.step ?_
      rw [simdVal, if_neg he, hsum, ← hs]
      unfold hadd; ring

theorem simdTwo_wp (C : SimdCtx nf R idx g gout em T ad x u h) (hR : 2 ≤ R) {h' : Heap α} {n : Nat} (hn : n + 1 < nf)
    (H : Done R gout em u x h h' n) :
    wp (simdTwo R idx g gout em n) (fun _ h2 => Done R gout em u x h h2 (n+2)) h' := by
  have hv := C.tabs (H.agree (by omega)) (show n < nf by omega)
  have hw := C.tabs (H.agree (by omega)) hn
  have hal : h'.D (gout + n) ≠ .oob := H.ne_oob (C.ha n (by omega))
  have hal1 : h'.D (gout + (n+1)) ≠ .oob := H.ne_oob (C.ha (n+1) hn)
  have hs1 := sum_pairs (p3 fun c => x c n) hR
  have hs2 := sum_pairs (p3 fun c => x c (n+1)) hR
  have hj : ∀ c, c < 3 → h'.I (idx + (n*3+(3+c))) = .val (ad c (n+1) : Int) := by
    intro c hc
    rw [← C.tbl H.int hn c hc, show (n+1)*3 + c = n*3 + (3+c) by ring]
  unfold simdTwo
  simp only [wp_mbind, wp_ldI]
  refine ⟨_, C.tbl H.int (by omega) 0 (by omega), _, C.tbl H.int (by omega) 1 (by omega), _, C.tbl H.int (by omega) 2 (by omega),
    _, hj 0 (by omega), _, hj 1 (by omega), _, hj 2 (by omega), ?_⟩
  simp only [Int.toNat_natCast]
  refine wp_mono (pairSum_wp (a := fun c => ad c n) (x := fun c => x c n) hv (R/2-1) (by omega)) ?_
  rintro s h2 ⟨e2, hs⟩
  subst h2
  refine wp_mono (pairSum_wp (a := fun c => ad c (n+1)) (x := fun c => x c (n+1)) hw (R/2-1) (by omega)) ?_
  rintro t h2 ⟨e2, ht⟩
  subst h2
  have key : wp (if R % 2 = 1 then do
      let x ← loadlh (g + ad 0 n + (R-1)) (g + ad 0 (n+1) + (R-1))
      let y ← loadlh (g + ad 1 n + (R-1)) (g + ad 1 (n+1) + (R-1))
      let z ← loadlh (g + ad 2 n + (R-1)) (g + ad 2 (n+1) + (R-1))
      pure (vadd (vmul (vmul x y) z) (hadd s t))
    else pure (hadd s t)) (fun r h2 => h2 = h' ∧ r.1 = ∑ r ∈ Finset.range R, p3 (fun c => x c n) r ∧
      r.2 = ∑ r ∈ Finset.range R, p3 (fun c => x c (n+1)) r) h' := by
    by_cases ho : R % 2 = 1
    · rw [if_pos ho] at hs1 hs2 ⊢
      unfold loadlh
      simp only [wp_mbind, wp_ld, wp_pure]
      refine ⟨_, hv 0 (R-1) (by omega) (by omega), _, hw 0 (R-1) (by omega) (by omega), _, hv 1 (R-1) (by omega) (by omega),
        _, hw 1 (R-1) (by omega) (by omega), _, hv 2 (R-1) (by omega) (by omega), _, hw 2 (R-1) (by omega) (by omega), True.intro, ?_, ?_⟩
      · rw [hs1, ← hs]; unfold vadd vmul hadd p3; ring
      · rw [hs2, ← ht]; unfold vadd vmul hadd p3; ring
    · rw [if_neg ho] at hs1 hs2 ⊢
      rw [wp_pure]
      refine ⟨rfl, ?_, ?_⟩
      · rw [hs1, ← hs]; unfold hadd; ring
      · rw [hs2, ← ht]; unfold hadd; ring
  refine wp_mono key ?_
  rintro r h3 ⟨e3, h1, h2⟩
  subst h3
  have hne : gout + n + 1 = gout + (n+1) := Ptr.add_assoc _ _ _
  have hne' : gout + (n+1) ≠ gout + n := fun e => by have := (Ptr.add_right_inj _ _ _).1 e; omega
  by_cases he : em = 0
  · rw [if_neg (by simpa using he)]
    unfold loadu storeu
    simp only [wp_mbind, wp_ld, wp_st, wp_pure, hne]
    refine ⟨u n, by rw [H.old le_rfl]; exact C.hE he n (by omega), u (n+1), by rw [H.old (by omega)]; exact C.hE he _ hn, hal, ?_, ?_⟩
    · unfold Heap.setD; dsimp only; rw [if_neg hne']; exact hal1
    · refine (H.step ?_).step ?_
      · rw [simdVal, if_pos he, ← h1]; unfold vadd; ring
      · rw [simdVal, if_pos he, ← h2]; unfold vadd; ring
  · rw [if_pos he]
    unfold storeu
    simp only [wp_mbind, wp_st, hne]
    refine ⟨hal, ?_, ?_⟩
    · unfold Heap.setD; dsimp only; rw [if_neg hne']; exact hal1
    · refine (H.step ?_).step ?_
      · rw [simdVal, if_neg he, ← h1]
      · rw [simdVal, if_neg he, ← h2]

theorem simdMany_wp (C : SimdCtx nf R idx g gout em T ad x u h) (hR : 8 ≤ R) {n : Nat}
    (hover : em = 0 → n + 1 = nf → ∃ v, h.D (gout + nf) = .val v) {h' : Heap α} (hn : n < nf) (H : Done R gout em u x h h' n) :
    wp (simdMany R idx g gout em n) (fun _ h2 => Done R gout em u x h h2 (n+1)) h' := by
  have hv := C.tabs (H.agree hn.le) hn
  have hal : h'.D (gout + n) ≠ .oob := H.ne_oob (C.ha n hn)
  have hsum := sum_pairs (p3 fun c => x c n) (show 2 ≤ R by omega)
  have hm : max 4 (R/2) = R/2 := by omega
  have hne : gout + n + 1 = gout + (n+1) := Ptr.add_assoc _ _ _
  unfold simdMany
  simp only [wp_mbind, wp_ldI]
  refine ⟨_, C.tbl H.int hn 0 (by omega), _, C.tbl H.int hn 1 (by omega), _, C.tbl H.int hn 2 (by omega), ?_⟩
  simp only [Int.toNat_natCast, hm]
  refine wp_mono (pairSum_wp (a := fun c => ad c n) (x := fun c => x c n) hv (R/2-1) (by omega)) ?_
  rintro s h2 ⟨e2, hs⟩
  subst h2
  -- after the store of the even part
  have fin : ∀ y : α, y = (if em = 0 then u n + (s.1 + s.2) else s.1 + s.2) →
      wp (if 2*(R/2) < R then do
          let o ← ld (gout + n)
          let x ← prodOne g (ad 0 n) (ad 1 n) (ad 2 n) (2*(R/2))
          st (gout + n) (o + x)
        else pure ()) (fun _ h2 => Done R gout em u x h h2 (n+1)) (h'.setD (gout + n) y) := by
    intro y hy
    by_cases ho : R % 2 = 1
    · rw [if_pos ho] at hsum
      rw [if_pos (by omega)]
      simp only [wp_mbind, wp_ld]
      refine ⟨y, by simp [Heap.setD], ?_⟩
      have hv2 := C.tabs (h' := h'.setD (gout + n) y) (fun q hq => by
        rw [← H.agree hn.le q hq]
        exact if_neg (fun e => hq ⟨n, hn, e⟩)) hn
      refine wp_mono (prodOne_wp (a := fun c => ad c n) (x := fun c => x c n) hv2 (show 2*(R/2) < R by omega)) ?_
      rintro _ _ ⟨rfl, rfl⟩
      rw [wp_st]
      refine ⟨by simp [Heap.setD], ?_⟩
      have e : (h'.setD (gout + n) y).setD (gout + n) (y + p3 (fun c => x c n) (2*(R/2))) =
          h'.setD (gout + n) (y + p3 (fun c => x c n) (2*(R/2))) := by
        unfold Heap.setD
        congr 1
        funext q
        by_cases hq : q = gout + n <;> simp [hq]
      rw [e]
      refine H.step ?_
      rw [simdVal, hsum, ← hs, hy, show 2*(R/2) = R-1 by omega]
      split <;> ring
    · rw [if_neg ho] at hsum
      rw [if_neg (by omega), wp_pure]
      refine H.step ?_
      rw [simdVal, hsum, ← hs, hy]
      split <;> ring
  by_cases he : em = 0
  · rw [if_neg (by simpa using he)]
    unfold loadu
    simp only [wp_mbind, wp_ld, wp_st, wp_pure, hne]
    have h1 : ∃ v, h'.D (gout + (n+1)) = .val v := by
      rw [H.old (by omega)]
      by_cases hl : n + 1 < nf
      · exact ⟨_, C.hE he _ hl⟩
      · rw [show n + 1 = nf by omega]; exact hover he (by omega)
    obtain ⟨v1, h1⟩ := h1
    refine ⟨u n, by rw [H.old le_rfl]; exact C.hE he n hn, v1, h1, hal, ?_⟩
    refine fin _ ?_
    rw [if_pos he]
    unfold vadd hadd; ring
  · rw [if_pos he]
    simp only [wp_st]
    exact ⟨hal, fin _ (by rw [if_neg he]; rfl)⟩

/-- **the SSE3 version** -/
theorem gout2eSimd_wp (hR1 : 1 ≤ R) (hover : em = 0 → 8 ≤ R → ∃ v, h.D (gout + nf) = .val v)
    (C : SimdCtx nf R idx g gout em T ad x u h) :
    wp (gout2eSimd nf R idx g gout em) (fun _ h' => Done R gout em u x h h' nf) h := by
  have h00 : Done R gout em u x h h 0 := AssignedD.init _ _ _ (fun k hk => by omega)
  unfold gout2eSimd
  by_cases h1 : R = 1
  · subst h1
    rw [if_pos rfl]
    exact wp_forN (fun n h' => Done 1 gout em u x h h' n) h00 (fun n hn h' H => simdSingle_wp C hn H) (fun _ H => H)
  rw [if_neg h1]
  by_cases h7 : R ≤ 7
  · rw [if_pos ⟨by omega, h7⟩]
    rw [wp_mbind]
    refine wp_forN (fun m h' => Done R gout em u x h h' (2*m)) h00
      (fun m hm h' H => simdTwo_wp C (by omega) (show 2*m+1 < nf by omega) H) (fun h' H => ?_)
    by_cases ho : 2*(nf/2) < nf
    · rw [if_pos ho]
      refine wp_mono (simdLast_wp C (by omega) ho H) (fun _ h2 H2 => ?_)
      rwa [show 2*(nf/2)+1 = nf by omega] at H2
    · rw [if_neg ho, wp_pure]
      rwa [show 2*(nf/2) = nf by omega] at H
  · rw [if_neg (by omega)]
    exact wp_forN (fun n h' => Done R gout em u x h h' n) h00
      (fun n hn h' H => simdMany_wp C (by omega) (fun he _ => hover he (by omega)) hn H) (fun _ H => H)

end
end Verif.Lemmas
