import Verif.Lemmas.Drv1e
import Verif.Props.Out

/-! CINT1e_drv: loop followed by the output stage. -/
namespace Verif.Lemmas
open Verif Verif.Model Verif.Prog Verif.Props Verif.Spec

variable {α : Type}

/-- the values `x i`, `x j` of a two-index quantity, 1 for the missing indices -/
def two (x y : Nat) (t : Nat) : Nat := if t = 0 then x else if t = 1 then y else 1

variable [Field α] [LinearOrder α]

/-- Memory at a call: `size` doubles of cache in buffer `buf` (seen as doubles or as FINTs), and the
local arrays of the driver in other buffers. -/
structure CallMem (h : Heap α) (fpd buf size : Nat) (fl loc counts : Ptr) : Prop where
  fpd_pos : 0 < fpd
  dbl : ∀ k, k < size → h.D ⟨buf, k⟩ ≠ .oob
  int : ∀ m, m < fpd * size → h.I ⟨buf, m⟩ ≠ .oob
  flw : ∀ k, k < 4 → h.I (fl + k) ≠ .oob
  locw : ∀ k, k < 12*136 → h.I (loc + k) ≠ .oob
  countsw : ∀ t, t < 4 → h.I (counts + t) ≠ .oob
  flbuf : fl.buf ≠ buf
  locbuf : loc.buf ≠ buf

/-- The caller's output array and `dims`: they are not part of the cache or of local arrays, the
elements of the block exist. -/
structure OutArg (h : Heap α) (nd cnt : Nat → Nat) (nComp : Nat) (out : Ptr) (dims : Option Ptr)
    (buf : Nat) (fl loc counts : Ptr) : Prop where
  h_dims : DimsArg 2 h dims counts nd cnt
  h_dims2 : ∀ d, dims = some d → ∃ x, h.I (d + 2) = .val x
  h_dbuf : ∀ d, dims = some d → d.buf ≠ buf ∧ d.buf ≠ fl.buf ∧ d.buf ≠ loc.buf
  h_out : ∀ m, InBlock nd cnt nComp m → h.D (out + m) ≠ .oob
  h_obuf : out.buf ≠ buf

theorem used_le_cacheSize (X : Int1e α) (s : Call α) {fpd : Nat} (hf : 0 < fpd) :
    posG X s fpd ((s.env X).nf * s.si.nctr * s.sj.nctr * X.nComp) + s.len X ≤ cacheSize1e X s := by
  have d1 := dblOf_le hf ((s.env X).nf * 3)
  have d2 := dblOf_le hf s.tblLen
  unfold posG posTbl posIdx cacheSize1e Call.len
  refine le_trans ?_ (le_max_left _ _)
  have hnf : 0 < (s.env X).nf := by
    show 0 < lenCart s.si.l * lenCart s.sj.l
    have : ∀ l, 0 < lenCart l := fun l => by
      unfold lenCart
      have : (l+1)*(l+2) = (l*l + 3*l) + 2 := by ring
      omega
    exact Nat.mul_pos (this _) (this _)
  let nf := (s.env X).nf
  have h1 : nf * (s.si.nctr * s.sj.nctr) * X.nComp ≤ nf * (nf * s.si.nctr * s.sj.nctr) * X.nComp := by
    have : nf * (nf * s.si.nctr * s.sj.nctr) * X.nComp = nf * (nf * (s.si.nctr * s.sj.nctr) * X.nComp) := by ring
    rw [this]
    exact Nat.le_mul_of_pos_left _ hnf
  have d2' : dblOf fpd s.tblLen ≤ s.si.nprim + s.sj.nprim + s.si.nprim * s.si.nctr + s.sj.nprim * s.sj.nctr := d2
  have e5 : 5 * (s.si.nprim * s.sj.nprim) = s.si.nprim * s.sj.nprim * 5 := Nat.mul_comm _ _
  have h1' : (s.env X).nf * (s.si.nctr * s.sj.nctr) * X.nComp ≤
    (s.env X).nf * ((s.env X).nf * s.si.nctr * s.sj.nctr) * X.nComp := h1
  omega

/-- The driver, for any block transformation.  `Y V n b m` is element `m` of the transform of block
`b` of component `n` of the array `V` of contracted Cartesian integrals.  `E` is what the transformation
needs of the memory outside the cache, `OutP` contains the output block. -/
theorem drv1e_run {K : Consts α} {L : MathLib α} {X : Int1e α} {s : Call α} {w : Nat → Nat → Nat → α}
    {h : Heap α} {fpd buf size : Nat} {fl loc counts out : Ptr} {dims : Option Ptr} {nd : Nat → Nat}
    {trans : Nat → Nat → Ptr → Prog α Ptr} {di dj : Nat} {Y : (Nat → α) → Nat → Nat → Nat → α}
    {E : Heap α → Prop} {OutP : Ptr → Prop}
    (M : CallMem h fpd buf size fl loc counts) (hsize : cacheSize1e X s ≤ size)
    (hs : Sizes 2 (two di dj) (two s.si.nctr s.sj.nctr) nd)
    (O : OutArg h nd (fun t => two di dj t * two s.si.nctr s.sj.nctr t) X.nComp out dims buf fl loc counts)
    (hK : EvalOK K L X s w) (hnc : 1 ≤ X.nComp) (hli : s.si.l ≤ 15) (hlj : s.sj.l ≤ 15)
    (hT : ∀ V n, n < X.nComp →
      let nc := (s.env X).nf * s.si.nctr * s.sj.nctr
      TransOK (trans buf (fpd * (nc * X.nComp))) ((⟨buf, 0⟩ : Ptr) + nc*n) (s.env X).nf
        (s.sj.nctr * s.si.nctr) (di*dj) (Y V n) (fun q => q.buf = buf ∧ nc * X.nComp ≤ q.off)
        OutP (fun h' => E h' ∧ HoldsD h' ⟨buf, 0⟩ (nc * X.nComp) V ∧ ∀ k, k < size → h'.D ⟨buf, k⟩ ≠ .oob))
    (hE : ∀ h', (∀ q, q.buf ≠ buf → h'.D q = h.D q) → E h')
    (hOut : ∀ m, InBlock nd (fun t => two di dj t * two s.si.nctr s.sj.nctr t) X.nComp m → OutP (out + m))
    (hY0 : ∀ V, (∀ m, V m = 0) → ∀ n b m, Y V n b m = 0) :
    ∃ has h', run (drv1e X s K L fpd trans (two di dj) out dims buf 0 fl loc counts) h = some (has, h') ∧
      (∀ n ic jc i j, n < X.nComp → ic < s.si.nctr → jc < s.sj.nctr → i < di → j < dj →
        h'.D (out + outAt nd n (ic*di+i) (jc*dj+j) 0 0) =
          .val (Y (fun m => loopVal K L X s w (m / ((s.env X).nf * (s.si.nctr * s.sj.nctr)))
            (m % ((s.env X).nf * (s.si.nctr * s.sj.nctr)) / (s.env X).nf % s.si.nctr)
            (m % ((s.env X).nf * (s.si.nctr * s.sj.nctr)) / (s.env X).nf / s.si.nctr)
            (m % (s.env X).nf)) n (jc*s.si.nctr+ic) (j*di+i))) ∧
      (has = false → ∀ m, InBlock nd (fun t => two di dj t * two s.si.nctr s.sj.nctr t) X.nComp m →
        h'.D (out + m) = .val 0) ∧
      (∀ q, q.buf ≠ buf → (∀ m, InBlock nd (fun t => two di dj t * two s.si.nctr s.sj.nctr t) X.nComp m →
        q ≠ out + m) → h'.D q = h.D q) ∧
      (∀ q, q.buf ≠ buf → q.buf ≠ fl.buf → q.buf ≠ loc.buf → q.buf ≠ counts.buf → h'.I q = h.I q) ∧
      (has = true ↔ loopAny L X s) := by
  have hf := M.fpd_pos
  have hic : 1 ≤ s.si.nctr := hs.nctr_pos 0 (by omega)
  have hjc : 1 ≤ s.sj.nctr := hs.nctr_pos 1 (by omega)
  let V : Nat → α := fun m => loopVal K L X s w (m / ((s.env X).nf * (s.si.nctr * s.sj.nctr)))
            (m % ((s.env X).nf * (s.si.nctr * s.sj.nctr)) / (s.env X).nf % s.si.nctr)
            (m % ((s.env X).nf * (s.si.nctr * s.sj.nctr)) / (s.env X).nf / s.si.nctr)
            (m % (s.env X).nf)
  let nc := (s.env X).nf * s.si.nctr * s.sj.nctr
  have hncA : (s.env X).nf * (s.si.nctr * s.sj.nctr) * X.nComp = nc * X.nComp := by
    show _ = (s.env X).nf * s.si.nctr * s.sj.nctr * X.nComp
    ring
  have LM : LoopMem X s h fpd buf size 0 (nc * X.nComp) fl loc := by
    refine ⟨hf, ⟨fun k hk _ => M.dbl k hk, fun m hm _ => M.int m hm⟩, ?_, ?_, M.flw, M.locw, M.flbuf, M.locbuf⟩
    · exact le_trans (used_le_cacheSize X s hf) hsize
    · rw [hncA]; omega
  have key := loop1eRun_wp LM hK hic hjc hnc hli hlj
  refine (wp_iff_run _ (fun has h' => _) _).1 ?_
  unfold drv1e
  dsimp only
  rw [show mallocD fpd buf 0 ((s.env X).nf * s.si.nctr * s.sj.nctr * X.nComp) = (⟨buf, 0⟩, fpd * (nc * X.nComp)) from by
    have := mallocD_eq hf buf 0 (nc * X.nComp); rw [Nat.zero_add] at this; exact this]
  dsimp only
  rw [wp_mbind]
  refine wp_mono (wp_allocMono key) ?_
  rintro has h1 ⟨⟨hv, hz, _, hD, hI, hret⟩, hm⟩
  have hcnt : (fun t => if t = 0 then two di dj 0 * s.si.nctr else if t = 1 then two di dj 1 * s.sj.nctr else 1)
      = (fun t => two di dj t * two s.si.nctr s.sj.nctr t) := by
    funext t
    unfold two
    by_cases h0 : t = 0
    · simp [h0]
    · by_cases h1 : t = 1
      · simp [h1]
      · simp [h0, h1]
  rw [hcnt]
  have hd1 : DimsArg 2 h1 dims counts nd (fun t => two di dj t * two s.si.nctr s.sj.nctr t) := by
    cases hdim : dims with
    | none => have := O.h_dims; rw [hdim] at this; exact this
    | some d =>
      have h2 := O.h_dims; rw [hdim] at h2
      refine ⟨fun t ht => ?_, h2.2⟩
      rw [hI]
      · exact h2.1 t ht
      · have := O.h_dbuf d hdim
        rintro (hb | hb | hb)
        · exact this.1 hb
        · exact this.2.1 hb
        · exact this.2.2 hb
  have hd2 : ∀ d, dims = some d → (2 : Nat) = 2 → ∃ x, h1.I (d + 2) = .val x := by
    intro d hdim _
    obtain ⟨x, hx⟩ := O.h_dims2 d hdim
    refine ⟨x, ?_⟩
    rw [hI, hx]
    have := O.h_dbuf d hdim
    rintro (hb | hb | hb)
    · exact this.1 hb
    · exact this.2.1 hb
    · exact this.2.2 hb
  have hcn : ∀ t, t < 4 → h1.I (counts + t) ≠ .oob := fun t ht => hm.I _ (M.countsw t ht)
  have hal : ∀ m, InBlock nd (fun t => two di dj t * two s.si.nctr s.sj.nctr t) X.nComp m →
      h1.D (out + m) ≠ .oob := fun m hm' => hm.D _ (O.h_out m hm')
  have e31 : two s.si.nctr s.sj.nctr 3 * two s.si.nctr s.sj.nctr 2 * two s.si.nctr s.sj.nctr 1 *
      two s.si.nctr s.sj.nctr 0 = s.sj.nctr * s.si.nctr := by simp [two]
  have e32 : two di dj 0 * two di dj 1 * two di dj 2 * two di dj 3 = di * dj := by simp [two]
  have hdi : 0 < di := hs.nf_pos 0 (by omega)
  have hdj : 0 < dj := hs.nf_pos 1 (by omega)
  rw [wp_mbind]
  cases has with
  | true =>
    have hh := hv rfl
    rw [hncA] at hh
    obtain ⟨h2, r2, v2, f2, i2⟩ := outStage_value (nComp := X.nComp) (nc := nc) (out := out)
      (gctr := ⟨buf, 0⟩) (W := fun q => q.buf = buf ∧ nc * X.nComp ≤ q.off) (Y := Y V)
      (trans := trans buf (fpd * (nc * X.nComp)))
      (ok := fun h' => E h' ∧ HoldsD h' ⟨buf, 0⟩ (nc * X.nComp) V ∧ ∀ k, k < size → h'.D ⟨buf, k⟩ ≠ .oob)
      hs (s.env X).nf hd1 hcn
      (fun h' e _ => ⟨hE h' (fun q hq => by rw [e]; exact hD q hq), fun i hi => by rw [e]; exact hh i hi, fun k hk => by rw [e]; exact hm.D _ (M.dbl k hk)⟩)
      (fun n hn => by
        rw [e31, e32]
        have hsub : ∀ q, (∃ m, InBlock nd (fun t => two di dj t * two s.si.nctr s.sj.nctr t) X.nComp m ∧ q = out + m) →
            OutP q := by
          rintro q ⟨m, hm, rfl⟩; exact hOut m hm
        have T := hT V n hn
        exact ⟨fun b hb h' hok => wp_mono (T.step b hb h' hok) (fun tmp h2 x => ⟨x.1, x.2.1, x.2.2.1,
            fun m hm hx => x.2.2.2 m hm (hsub _ hx)⟩),
          fun h' h2 hok hA hM hI => T.keep h' h2 hok (hA.mono (fun q hq => hq.imp id (hsub q))) hM hI,
          fun q hw ho => T.sep q hw (hsub q ho)⟩) hal
    have hrun : run (outStage 2 true X.nComp nc (c2s1e { ic := s.si.nctr, jc := s.sj.nctr, di := two di dj 0, dj := two di dj 1, nf := (s.env X).nf } (trans buf (fpd * (nc * X.nComp)))) out ⟨buf, 0⟩ dims counts
      (fun t => two di dj t * two s.si.nctr s.sj.nctr t)) h1 = some ((), h2) := r2
    refine (wp_iff_run _ _ _).2 ⟨(), h2, hrun, ?_⟩
    rw [wp_pure]
    refine ⟨?_, fun x => Bool.noConfusion x, ?_, ?_, hret⟩
    · intro n ic jc i j hn h3 h4 h5 h6
      have := v2 n (ic*di+i) (jc*dj+j) 0 0 hn (digit_lt h5 h3) (digit_lt h6 h4) (by simp [two]) (by simp [two])
      rw [this]
      congr 2
      · unfold blkNo shapeOf
        simp [two, (digit h5).1, (digit h6).1]
      · unfold cellNo posIklj shapeOf
        simp [two, (digit h5).2, (digit h6).2]
    · intro q hq hb
      rw [f2 q (fun x => hq x.1) hb]
      exact hD q hq
    · intro q h3 h4 h5 h6
      rw [i2 q (fun t _ e => h6 (by rw [e]; rfl))]
      exact hI q (by rintro (x | x | x) <;> [exact h3 x; exact h4 x; exact h5 x])
  | false =>
    obtain ⟨h2, r2, v2, f2, i2⟩ := C18_zero_block (nComp := X.nComp) (nc := nc) (out := out) (gctr := ⟨buf, 0⟩)
      (c2s := c2s1e { ic := s.si.nctr, jc := s.sj.nctr, di := two di dj 0, dj := two di dj 1, nf := (s.env X).nf } (trans buf (fpd * (nc * X.nComp)))) hs hd1 hd2 hcn hal
    refine (wp_iff_run _ _ _).2 ⟨(), h2, r2, ?_⟩
    rw [wp_pure]
    refine ⟨?_, fun _ => v2, ?_, ?_, hret⟩
    · intro n ic jc i j hn h3 h4 h5 h6
      rw [hY0 _ (fun m => hz rfl _ _ _ _)]
      refine v2 _ ⟨n, ic*di+i, jc*dj+j, 0, 0, hn, ?_, ?_, by simp [two], by simp [two], rfl⟩
      · exact digit_lt h5 h3
      · exact digit_lt h6 h4
    · intro q hq hb
      rw [f2 q hb]
      exact hD q hq
    · intro q h3 h4 h5 h6
      rw [i2 q (fun t _ e => h6 (by rw [e]; rfl))]
      exact hI q (by rintro (x | x | x) <;> [exact h3 x; exact h4 x; exact h5 x])

/-- Cartesian output: no transformation -/
theorem drv1e_cart {K : Consts α} {L : MathLib α} {X : Int1e α} {s : Call α} {w : Nat → Nat → Nat → α}
    {h : Heap α} {fpd buf size : Nat} {fl loc counts out : Ptr} {dims : Option Ptr} {nd : Nat → Nat}
    (M : CallMem h fpd buf size fl loc counts) (hsize : cacheSize1e X s ≤ size)
    (hs : Sizes 2 (two (ncart s.si.l) (ncart s.sj.l)) (two s.si.nctr s.sj.nctr) nd)
    (O : OutArg h nd (fun t => two (ncart s.si.l) (ncart s.sj.l) t * two s.si.nctr s.sj.nctr t) X.nComp out dims
      buf fl loc counts)
    (hK : EvalOK K L X s w) (hnc : 1 ≤ X.nComp) (hli : s.si.l ≤ 15) (hlj : s.sj.l ≤ 15) :
    ∃ has h', run (drv1e X s K L fpd (fun _ _ => pure) (two (ncart s.si.l) (ncart s.sj.l)) out dims buf 0 fl loc counts) h
        = some (has, h') ∧
      (∀ n ic jc i j, n < X.nComp → ic < s.si.nctr → jc < s.sj.nctr → i < ncart s.si.l → j < ncart s.sj.l →
        h'.D (out + outAt nd n (ic*ncart s.si.l+i) (jc*ncart s.sj.l+j) 0 0) =
          .val (loopVal K L X s w n ic jc (j*ncart s.si.l+i))) ∧
      (has = false → ∀ m, InBlock nd (fun t => two (ncart s.si.l) (ncart s.sj.l) t * two s.si.nctr s.sj.nctr t) X.nComp m →
        h'.D (out + m) = .val 0) ∧
      (∀ q, q.buf ≠ buf → (∀ m, InBlock nd (fun t => two (ncart s.si.l) (ncart s.sj.l) t *
        two s.si.nctr s.sj.nctr t) X.nComp m → q ≠ out + m) → h'.D q = h.D q) ∧
      (∀ q, q.buf ≠ buf → q.buf ≠ fl.buf → q.buf ≠ loc.buf → q.buf ≠ counts.buf → h'.I q = h.I q) ∧
      (has = true ↔ loopAny L X s) := by
  let nf := (s.env X).nf
  have hnf : nf = ncart s.si.l * ncart s.sj.l := rfl
  let nc := nf * s.si.nctr * s.sj.nctr
  obtain ⟨has, h', hr, hv, hz, hD, hI, hret⟩ := drv1e_run (trans := fun _ _ => pure)
    (Y := fun V n b m => V (nc*n + b*nf + m)) (E := fun _ => True) (OutP := fun q => q.buf ≠ buf) M hsize hs O hK hnc hli hlj (by
      intro V n hn
      refine ⟨fun b hb h2 hok => ?_, fun h2 h3 hok hA hM hI' => ?_, fun q hw ho => ho hw.1⟩
      · rw [wp_pure]
        refine ⟨fun m hm => ?_, AgreeD.refl _ _, rfl, fun m hm ho => ho rfl⟩
        have hlt : nc*n + b*nf + m < nc * X.nComp := by
          have e : nc = s.sj.nctr*s.si.nctr*nf := by
            show nf * s.si.nctr * s.sj.nctr = _; ring
          have h5 : b*nf + m < s.sj.nctr*s.si.nctr*nf := radix_lt hb hm
          rw [← e] at h5
          have := radix_lt hn h5
          rw [Nat.mul_comm nc n, Nat.mul_comm nc, Nat.add_assoc]; exact this
        rw [← hok.2.1 _ hlt]
        simp only [Ptr.add_assoc, Nat.add_assoc]
        rfl
      · refine ⟨trivial, fun i hi => ?_, fun k hk => hM _ (hok.2.2 k hk)⟩
        rw [hA]
        · exact hok.2.1 i hi
        · rintro (⟨_, hq⟩ | hq)
          · have : nc * X.nComp ≤ 0 + i := hq
            have : i < nc * X.nComp := hi
            omega
          · exact hq rfl) (fun _ _ => trivial) (fun m _ => O.h_obuf) (fun V hV n b m => hV _)
  refine ⟨has, h', hr, ?_, hz, hD, hI, hret⟩
  intro n ic jc i j hn h1 h2 h3 h4
  rw [hv n ic jc i j hn h1 h2 h3 h4]
  have hx : j * ncart s.si.l + i < nf := by
    rw [hnf, Nat.mul_comm (ncart s.si.l)]; exact radix_lt h4 h3
  have hb : jc * s.si.nctr + ic < s.sj.nctr * s.si.nctr := radix_lt h2 h1
  have hnc' : nf * (s.si.nctr * s.sj.nctr) = nc := by
    show _ = nf * s.si.nctr * s.sj.nctr; ring
  have hy : (jc*s.si.nctr+ic)*nf + (j * ncart s.si.l + i) < nc := by
    have e : nc = s.sj.nctr*s.si.nctr*nf := by
      show nf * s.si.nctr * s.sj.nctr = _; ring
    rw [e]; exact radix_lt hb hx
  have E : nc*n + (jc*s.si.nctr+ic)*nf + (j * ncart s.si.l + i) = nc*n + ((jc*s.si.nctr+ic)*nf + (j * ncart s.si.l + i)) :=
    Nat.add_assoc _ _ _
  have q1 : (nc*n + ((jc*s.si.nctr+ic)*nf + (j * ncart s.si.l + i))) / nc = n := by
    rw [Nat.mul_add_div (by omega), Nat.div_eq_of_lt hy]; omega
  have q2 : (nc*n + ((jc*s.si.nctr+ic)*nf + (j * ncart s.si.l + i))) % nc = (jc*s.si.nctr+ic)*nf + (j * ncart s.si.l + i) := by
    rw [Nat.mul_add_mod, Nat.mod_eq_of_lt hy]
  have q3 : ((jc*s.si.nctr+ic)*nf + (j * ncart s.si.l + i)) / nf = jc*s.si.nctr+ic := (digit hx).1
  have q4 : (nc*n + ((jc*s.si.nctr+ic)*nf + (j * ncart s.si.l + i))) % nf = j * ncart s.si.l + i := by
    have : nc*n = nf * (s.si.nctr * s.sj.nctr * n) := by
      show nf * s.si.nctr * s.sj.nctr * n = _; ring
    rw [this, Nat.mul_add_mod, (digit hx).2]
  show (Cell.val (loopVal K L X s w ((nc*n + (jc*s.si.nctr+ic)*nf + (j * ncart s.si.l + i)) / (nf * (s.si.nctr * s.sj.nctr)))
    ((nc*n + (jc*s.si.nctr+ic)*nf + (j * ncart s.si.l + i)) % (nf * (s.si.nctr * s.sj.nctr)) / nf % s.si.nctr)
    ((nc*n + (jc*s.si.nctr+ic)*nf + (j * ncart s.si.l + i)) % (nf * (s.si.nctr * s.sj.nctr)) / nf / s.si.nctr)
    ((nc*n + (jc*s.si.nctr+ic)*nf + (j * ncart s.si.l + i)) % nf)) : Cell α) = _
  rw [hnc', E, q1, q2, q3, q4, (digit h1).1, (digit h1).2]

end Verif.Lemmas
