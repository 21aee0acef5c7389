import Verif.Lemmas.Drv2e
import Verif.Lemmas.DrvOut
import Verif.Props.Sph

/-! CINT2e_drv: loop followed by the output stage. -/
namespace Verif.Lemmas
open Verif Verif.Model Verif.Prog Verif.Props Verif.Spec

variable {α : Type}

theorem four_0 (x y z w : Nat) : four x y z w 0 = x := rfl
theorem four_1 (x y z w : Nat) : four x y z w 1 = y := rfl
theorem four_2 (x y z w : Nat) : four x y z w 2 = z := rfl
theorem four_3 (x y z w : Nat) : four x y z w 3 = w := rfl

variable [Field α] [LinearOrder α]

/-- angular momenta and numbers of contractions of the four shells -/
def Call2.ls (s : Call2 α) : Nat → Nat := four s.si.l s.sj.l s.sk.l s.sl.l
def Call2.nctrs (s : Call2 α) : Nat → Nat := four s.si.nctr s.sj.nctr s.sk.nctr s.sl.nctr

/-- Memory at a call: `size` doubles of cache in buffer `buf` (seen as doubles or as FINTs), and the
local variables of the driver and of the loop in other buffers. -/
structure CallMem2 (h : Heap α) (fpd buf size : Nat) (empty fl loc counts : Ptr) : Prop where
  fpd_pos : 0 < fpd
  dbl : ∀ k, k < size → h.D ⟨buf, k⟩ ≠ .oob
  int : ∀ m, m < fpd * size → h.I ⟨buf, m⟩ ≠ .oob
  emw : h.I empty ≠ .oob
  flw : ∀ k, k < 5 → h.I (fl + k) ≠ .oob
  locw : ∀ k, k < 12*136 → h.I (loc + k) ≠ .oob
  countsw : ∀ t, t < 4 → h.I (counts + t) ≠ .oob
  ebuf : empty.buf ≠ buf
  efl : empty.buf ≠ fl.buf
  eloc : empty.buf ≠ loc.buf
  flbuf : fl.buf ≠ buf
  locbuf : loc.buf ≠ buf

/-- The caller's output array and `dims` (for an `r`-index integral): they are not part of the cache or of local
variables, the elements of the block exist. -/
structure OutArg2 (r : Nat) (h : Heap α) (nd cnt : Nat → Nat) (nComp : Nat) (out : Ptr) (dims : Option Ptr)
    (buf : Nat) (empty fl loc counts : Ptr) : Prop where
  h_dims : DimsArg r h dims counts nd cnt
  h_dbuf : ∀ d, dims = some d → d.buf ≠ buf ∧ d.buf ≠ empty.buf ∧ d.buf ≠ fl.buf ∧ d.buf ≠ loc.buf
  h_out : ∀ m, InBlock nd cnt nComp m → h.D (out + m) ≠ .oob
  h_obuf : out.buf ≠ buf

theorem aliasLen_le' {c : Nat} (hc : 1 ≤ c) (n : Nat) : aliasLen c n + n ≤ n*c := by
  unfold aliasLen
  by_cases h : c = 1
  · rw [if_pos h, h]; omega
  · rw [if_neg h]
    calc n + n = n*2 := by ring
      _ ≤ n*c := Nat.mul_le_mul_left _ (by omega)

theorem aliasLen_le (c n : Nat) : aliasLen c n ≤ n := by
  unfold aliasLen
  split <;> omega

theorem used2_le_cacheSize (X : Int2e α) (s : Call2 α) {fpd : Nat} (hf : 0 < fpd)
    (hj : 1 ≤ s.sj.nctr) (hk : 1 ≤ s.sk.nctr) (hl : 1 ≤ s.sl.nctr) :
    posG2 X s fpd ((s.env X).nf * s.si.nctr * s.sj.nctr * s.sk.nctr * s.sl.nctr * X.nComp) +
      (s.leng X + Call2.used X s) ≤ cacheSize2e X s := by
  have d1 := dblOf_le hf ((s.env X).nf * 3)
  have d2 := dblOf_le hf s.tblLen
  unfold posG2 posTbl2 posIdx2 cacheSize2e
  refine le_trans ?_ (le_max_left _ _)
  let N := (s.env X).nf * X.nComp
  have a1 := aliasLen_le X.nComp (N * s.nctr)
  have a2 := aliasLen_le' hl (N * (s.si.nctr*s.sj.nctr*s.sk.nctr))
  have a3 := aliasLen_le' hk (N * (s.si.nctr*s.sj.nctr))
  have a4 := aliasLen_le' hj (N * s.si.nctr)
  have a5 := aliasLen_le s.si.nctr N
  have e2 : N * (s.si.nctr*s.sj.nctr*s.sk.nctr) * s.sl.nctr = N * s.nctr := by unfold Call2.nctr; ring
  have e3 : N * (s.si.nctr*s.sj.nctr) * s.sk.nctr = N * (s.si.nctr*s.sj.nctr*s.sk.nctr) := by ring
  have e4 : N * s.si.nctr * s.sj.nctr = N * (s.si.nctr*s.sj.nctr) := by ring
  rw [e2] at a2
  rw [e3] at a3
  rw [e4] at a4
  have hu : Call2.used X s ≤ 2 * (N * s.nctr) + N := by
    show aliasLen X.nComp (N * s.nctr) + aliasLen s.sl.nctr (N * (s.si.nctr*s.sj.nctr*s.sk.nctr)) +
      aliasLen s.sk.nctr (N * (s.si.nctr*s.sj.nctr)) + aliasLen s.sj.nctr (N * s.si.nctr) + aliasLen s.si.nctr N ≤ _
    omega
  have eN : N * s.nctr = (s.env X).nf * s.si.nctr * s.sj.nctr * s.sk.nctr * s.sl.nctr * X.nComp := by
    show (s.env X).nf * X.nComp * (s.si.nctr * s.sj.nctr * s.sk.nctr * s.sl.nctr) = _
    ring
  rw [eN] at hu
  have hN : N = (s.env X).nf * X.nComp := rfl
  have d2' : dblOf fpd s.tblLen ≤ s.si.nprim + s.sj.nprim + s.sk.nprim + s.sl.nprim + s.si.nprim * s.si.nctr +
    s.sj.nprim * s.sj.nctr + s.sk.nprim * s.sk.nctr + s.sl.nprim * s.sl.nctr := d2
  have e5 : (s.si.nprim * s.sj.nprim + s.sk.nprim * s.sl.nprim) * 5 = 5 * (s.si.nprim * s.sj.nprim) + 5 * (s.sk.nprim * s.sl.nprim) := by ring
  omega

/-- position of the function indices in a block -/
def pos4c (nf : Nat → Nat) (i j k l : Nat) : Nat := i + nf 0 * (k + nf 2 * (l + nf 3 * j))

theorem pos4c_lt {nf : Nat → Nat} {i j k l : Nat} (hi : i < nf 0) (hj : j < nf 1) (hk : k < nf 2) (hl : l < nf 3) :
    pos4c nf i j k l < nf 0 * nf 1 * nf 2 * nf 3 := by
  have h1 : j*nf 3 + l < nf 1 * nf 3 := radix_lt hj hl
  have h2 : (j*nf 3 + l)*nf 2 + k < nf 1 * nf 3 * nf 2 := radix_lt h1 hk
  have h3 : ((j*nf 3 + l)*nf 2 + k)*nf 0 + i < nf 1 * nf 3 * nf 2 * nf 0 := radix_lt h2 hi
  calc pos4c nf i j k l = ((j*nf 3 + l)*nf 2 + k)*nf 0 + i := by unfold pos4c; ring
    _ < _ := h3
    _ = _ := by ring

theorem ctrVal_at (V : Nat → Nat → Nat → Nat → Nat → Nat → α) {nf nctr : Nat → Nat} {n ic jc kc lc i j k l : Nat}
    (hic : ic < nctr 0) (hjc : jc < nctr 1) (hkc : kc < nctr 2) (hlc : lc < nctr 3)
    (hi : i < nf 0) (hj : j < nf 1) (hk : k < nf 2) (hl : l < nf 3) :
    ctrVal V (nf 0 * nf 1 * nf 2 * nf 3) (nctr 0) (nctr 1) (nctr 2) (nctr 3) (ctrAt nctr nf n ic jc kc lc i j k l) =
      V n ic jc kc lc (pos4c nf i j k l) := by
  have hx := pos4c_lt hi hj hk hl
  generalize hN : nf 0 * nf 1 * nf 2 * nf 3 = N at *
  let B := ((lc*nctr 2+kc)*nctr 1+jc)*nctr 0+ic
  have b1 : lc*nctr 2+kc < nctr 3 * nctr 2 := radix_lt hlc hkc
  have b2 : (lc*nctr 2+kc)*nctr 1+jc < nctr 3 * nctr 2 * nctr 1 := radix_lt b1 hjc
  have b3 : B < nctr 3 * nctr 2 * nctr 1 * nctr 0 := radix_lt b2 hic
  have b4 : B*N + pos4c nf i j k l < nctr 3 * nctr 2 * nctr 1 * nctr 0 * N := radix_lt b3 hx
  have e0 : N * (nctr 0 * nctr 1 * nctr 2 * nctr 3) = nctr 3 * nctr 2 * nctr 1 * nctr 0 * N := by ring
  have e1 : ctrAt nctr nf n ic jc kc lc i j k l = n*(nctr 3 * nctr 2 * nctr 1 * nctr 0 * N) + (B*N + pos4c nf i j k l) := by
    unfold ctrAt
    rw [hN]
    show pos4c nf i j k l + N * (ic + nctr 0 * (jc + nctr 1 * (kc + nctr 2 * (lc + nctr 3 * n)))) =
      n*(nctr 3 * nctr 2 * nctr 1 * nctr 0 * N) + ((((lc*nctr 2+kc)*nctr 1+jc)*nctr 0+ic)*N + pos4c nf i j k l)
    ring
  unfold ctrVal
  dsimp only
  rw [e0, e1, (digit b4).1, (digit b4).2, (digit hx).1, (digit hic).1, (digit hic).2, (digit hjc).1, (digit hjc).2,
    (digit hkc).1, (digit hkc).2]
  congr 1
  rw [show n*(nctr 3 * nctr 2 * nctr 1 * nctr 0 * N) + (B*N + pos4c nf i j k l) =
    (n*(nctr 3 * nctr 2 * nctr 1 * nctr 0) + B)*N + pos4c nf i j k l by ring]
  exact (digit hx).2

variable {R : Rys2 α} {K : Consts α} {L : MathLib α} {X : Int2e α} {s : Call2 α}
  {keep : Nat → Nat → Nat → Nat → Bool} {w : Nat → Nat → Nat → Nat → Nat → α}

/-- the values of the array of contracted integrals -/
def Call2.ctrArr (R : Rys2 α) (K : Consts α) (L : MathLib α) (X : Int2e α) (s : Call2 α)
    (keep : Nat → Nat → Nat → Nat → Bool) (w : Nat → Nat → Nat → Nat → Nat → α) : Nat → α :=
  ctrVal (loopVal2 R K L X s keep w) (s.env X).nf s.si.nctr s.sj.nctr s.sk.nctr s.sl.nctr

/-- the part of the driver up to the output stage -/
theorem drv2e_loop {h : Heap α} {fpd buf size : Nat} {empty fl loc counts : Ptr}
    (M : CallMem2 h fpd buf size empty fl loc counts) (hsize : cacheSize2e X s ≤ size)
    (hp : ∀ t, t < 4 → 0 < Call2.nctrs s t) (hK : EvalOK2 R K L X s keep w) (hnc : 1 ≤ X.nComp)
    (hl : ∀ t, t < 4 → Call2.ls s t ≤ 15)
    (trans : (buf c : Nat) → Ptr → Prog α Ptr) (nfo : Nat → Nat) (out : Ptr) (dims : Option Ptr)
    (Q : Bool → Heap α → Prop)
    (hQ : ∀ has h1, (has = true → HoldsD h1 ⟨buf, 0⟩ ((s.env X).nf * s.nctr * X.nComp) (Call2.ctrArr R K L X s keep w)) →
      (has = false → ∀ m, Call2.ctrArr R K L X s keep w m = 0) →
      AgreeD h h1 (fun q => q.buf = buf) →
      AgreeI h h1 (fun q => q.buf = buf ∨ q.buf = empty.buf ∨ q.buf = fl.buf ∨ q.buf = loc.buf) → AllocMono h h1 →
      (has = true ↔ loopAny2 R K L X s keep) →
      wp (outStage 4 has X.nComp ((s.env X).nf * s.nctr) (c2sFun 4 (shapeOf nfo (Call2.nctrs s) (s.env X).nf)
          (trans buf (fpd * ((s.env X).nf * s.nctr * X.nComp)))) out ⟨buf, 0⟩ dims counts (fun t => nfo t * Call2.nctrs s t))
        (fun _ h2 => Q has h2) h1) :
    wp (drv2e X s R K L fpd trans nfo out dims buf 0 empty fl loc counts) Q h := by
  have hf := M.fpd_pos
  have hic : 1 ≤ s.si.nctr := hp 0 (by omega)
  have hjc : 1 ≤ s.sj.nctr := hp 1 (by omega)
  have hkc : 1 ≤ s.sk.nctr := hp 2 (by omega)
  have hlc : 1 ≤ s.sl.nctr := hp 3 (by omega)
  have hncE : (s.env X).nf * s.si.nctr * s.sj.nctr * s.sk.nctr * s.sl.nctr = (s.env X).nf * s.nctr := by
    unfold Call2.nctr; ring
  unfold drv2e
  dsimp only
  rw [hncE]
  rw [show mallocD fpd buf 0 ((s.env X).nf * s.nctr * X.nComp) = (⟨buf, 0⟩, fpd * ((s.env X).nf * s.nctr * X.nComp)) from by
    have := mallocD_eq hf buf 0 ((s.env X).nf * s.nctr * X.nComp); rw [Nat.zero_add] at this; exact this]
  dsimp only
  rw [wp_mbind]
  refine (wp_stI _ _ _ _).2 ⟨M.emw, ?_⟩
  let h0 := h.setI empty 1
  have hI0 : ∀ q, q ≠ empty → h0.I q = h.I q := fun q hq => Heap.setI_I_ne _ _ hq
  have am0 : AllocMono h h0 := by
    refine ⟨fun q hq => hq, fun q hq => ?_⟩
    by_cases he : q = empty
    · subst he
      rw [show h0.I q = .val 1 from Heap.setI_I_self _ _ _]
      intro x; cases x
    · rw [hI0 q he]; exact hq
  have LM : LoopMem2 X s h0 fpd buf size 0 ((s.env X).nf * s.nctr * X.nComp) empty fl loc := by
    refine ⟨hf, ⟨fun k hk _ => M.dbl k hk, fun m hm _ => am0.I _ (M.int m hm)⟩, ?_, by omega, Heap.setI_I_self _ _ _,
      fun k hk => am0.I _ (M.flw k hk), fun k hk => am0.I _ (M.locw k hk), M.ebuf, M.efl, M.eloc, M.flbuf, M.locbuf⟩
    rw [← hncE]
    exact le_trans (used2_le_cacheSize X s hf hjc hkc hlc) hsize
  rw [wp_mbind]
  refine wp_mono (wp_allocMono (loop2eRun_wp LM hK hic hjc hkc hlc hnc (hl 0 (by omega)) (hl 1 (by omega))
    (hl 2 (by omega)) (hl 3 (by omega)))) ?_
  rintro res h1 ⟨⟨hfl, hv, hz, hD, hI, hret⟩, hm⟩
  rw [wp_mbind]
  refine (wp_ldI _ _ _).2 ⟨_, hfl, ?_⟩
  have hres : decide ((if res then (0:Int) else 1) = 0) = res := by cases res <;> rfl
  rw [hres]
  have hDh : AgreeD h h1 (fun q => q.buf = buf) := hD
  have hIh : AgreeI h h1 (fun q => q.buf = buf ∨ q.buf = empty.buf ∨ q.buf = fl.buf ∨ q.buf = loc.buf) := by
    intro q hq
    rw [hI q hq, hI0 q (fun e => hq (by rw [e]; exact Or.inr (Or.inl rfl)))]
  have := hQ res h1 hv (fun hr m => hz hr _ _ _ _ _ _) hDh hIh (am0.trans hm) hret
  rw [wp_mbind]
  refine wp_mono this ?_
  intro _ h2 hq
  rw [wp_pure]
  exact hq

theorem nf_env2 : (s.env X).nf = ncart s.si.l * ncart s.sj.l * ncart s.sk.l * ncart s.sl.l := by
  show lenCart s.si.l * lenCart s.sk.l * lenCart s.sl.l * lenCart s.sj.l = _
  simp only [lenCart_eq]
  ring

theorem dims_kept {r : Nat} {h h1 : Heap α} {nd cnt : Nat → Nat} {nComp buf : Nat} {out empty fl loc counts : Ptr}
    {dims : Option Ptr} (O : OutArg2 r h nd cnt nComp out dims buf empty fl loc counts)
    (hI : AgreeI h h1 (fun q => q.buf = buf ∨ q.buf = empty.buf ∨ q.buf = fl.buf ∨ q.buf = loc.buf)) :
    DimsArg r h1 dims counts nd cnt := by
  cases hdim : dims with
  | none => have := O.h_dims; rw [hdim] at this; exact this
  | some d =>
    have h2 := O.h_dims; rw [hdim] at h2
    refine ⟨fun t ht => ?_, h2.2⟩
    rw [hI]
    · exact h2.1 t ht
    · have := O.h_dbuf d hdim
      rintro (hb | hb | hb | hb)
      · exact this.1 hb
      · exact this.2.1 hb
      · exact this.2.2.1 hb
      · exact this.2.2.2 hb

/-- what the driver changes -/
def Frame2 (h h' : Heap α) (nd cnt : Nat → Nat) (nComp buf : Nat) (out empty fl loc counts : Ptr) : Prop :=
  (∀ q, q.buf ≠ buf → (∀ m, InBlock nd cnt nComp m → q ≠ out + m) → h'.D q = h.D q) ∧
  (∀ q, q.buf ≠ buf → q.buf ≠ empty.buf → q.buf ≠ fl.buf → q.buf ≠ loc.buf → q.buf ≠ counts.buf → h'.I q = h.I q)

/-- Cartesian output -/
theorem drv2e_cart {h : Heap α} {fpd buf size : Nat} {empty fl loc counts out : Ptr} {dims : Option Ptr} {nd : Nat → Nat}
    (M : CallMem2 h fpd buf size empty fl loc counts) (hsize : cacheSize2e X s ≤ size)
    (hs : Sizes 4 (ncar (Call2.ls s)) (Call2.nctrs s) nd)
    (O : OutArg2 4 h nd (fun t => ncar (Call2.ls s) t * Call2.nctrs s t) X.nComp out dims buf empty fl loc counts)
    (hK : EvalOK2 R K L X s keep w) (hnc : 1 ≤ X.nComp) (hl : ∀ t, t < 4 → Call2.ls s t ≤ 15) :
    ∃ has h', run (drv2e X s R K L fpd (fun _ _ => pure) (ncar (Call2.ls s)) out dims buf 0 empty fl loc counts) h
        = some (has, h') ∧
      (∀ n ic jc kc lc i j k l, n < X.nComp → ic < s.si.nctr → jc < s.sj.nctr → kc < s.sk.nctr → lc < s.sl.nctr →
        i < ncart s.si.l → j < ncart s.sj.l → k < ncart s.sk.l → l < ncart s.sl.l →
        h'.D (out + outAt nd n (ic*ncart s.si.l+i) (jc*ncart s.sj.l+j) (kc*ncart s.sk.l+k) (lc*ncart s.sl.l+l)) =
          .val (loopVal2 R K L X s keep w n ic jc kc lc (pos4c (ncar (Call2.ls s)) i j k l))) ∧
      (has = false → ∀ m, InBlock nd (fun t => ncar (Call2.ls s) t * Call2.nctrs s t) X.nComp m → h'.D (out + m) = .val 0) ∧
      Frame2 h h' nd (fun t => ncar (Call2.ls s) t * Call2.nctrs s t) X.nComp buf out empty fl loc counts ∧
      (has = true ↔ loopAny2 R K L X s keep) := by
  refine (wp_iff_run _ (fun has h' => _) _).1 ?_
  refine drv2e_loop M hsize hs.nctr_pos hK hnc hl _ _ _ _ _ ?_
  intro has h1 hv hz hD hI hm hret
  have hd1 := dims_kept O hI
  have hcn : ∀ t, t < 4 → h1.I (counts + t) ≠ .oob := fun t ht => hm.I _ (M.countsw t ht)
  have hal : ∀ m, InBlock nd (fun t => ncar (Call2.ls s) t * Call2.nctrs s t) X.nComp m →
      h1.D (out + m) ≠ .oob := fun m hm' => hm.D _ (O.h_out m hm')
  have enf : (s.env X).nf = ncar (Call2.ls s) 0 * ncar (Call2.ls s) 1 * ncar (Call2.ls s) 2 * ncar (Call2.ls s) 3 := nf_env2
  have enc : s.nctr = Call2.nctrs s 0 * Call2.nctrs s 1 * Call2.nctrs s 2 * Call2.nctrs s 3 := rfl
  have elen : (s.env X).nf * s.nctr * X.nComp = X.nComp * (ncar (Call2.ls s) 0 * ncar (Call2.ls s) 1 * ncar (Call2.ls s) 2 *
      ncar (Call2.ls s) 3 * (Call2.nctrs s 0 * Call2.nctrs s 1 * Call2.nctrs s 2 * Call2.nctrs s 3)) := by
    rw [enf, enc]; ring
  cases has with
  | true =>
    have hh := hv rfl
    rw [elen] at hh
    have St : Stage 4 (ncar (Call2.ls s)) (Call2.nctrs s) nd X.nComp out dims ⟨buf, 0⟩ counts (Call2.ctrArr R K L X s keep w) h1 :=
      { h_sizes := hs, h_dims := hd1, h_counts := hcn, h_gctr := hh, h_out := hal
        h_disj := fun i m _ _ e => O.h_obuf (congrArg Ptr.buf e :).symm }
    obtain ⟨h2, r2, v2, f2, i2⟩ := C17_cartesian_placement St
    refine (wp_iff_run _ _ _).2 ⟨(), h2, ?_, ?_, fun x => Bool.noConfusion x, ⟨?_, ?_⟩, hret⟩
    · rw [← r2]
      unfold cartStage
      rw [enf, enc]
    · intro n ic jc kc lc i j k l hn q1 q2 q3 q4 p1 p2 p3 p4
      have := v2 n ic jc kc lc i j k l hn q1 q2 q3 q4 p1 p2 p3 p4
      refine this.trans ?_
      congr 1
      unfold Call2.ctrArr
      rw [enf]
      exact ctrVal_at (nctr := Call2.nctrs s) _ q1 q2 q3 q4 p1 p2 p3 p4
    · intro q hq hb
      rw [f2 q hb]
      exact hD q hq
    · intro q p1 p2 p3 p4 p5
      rw [i2 q (fun t _ e => p5 (by rw [e]; rfl))]
      exact hI q (by rintro (x | x | x | x) <;> [exact p1 x; exact p2 x; exact p3 x; exact p4 x])
  | false =>
    obtain ⟨h2, r2, v2, f2, i2⟩ := C18_zero_block (nComp := X.nComp) (nc := (s.env X).nf * s.nctr) (out := out) (gctr := ⟨buf, 0⟩)
      (c2s := c2sFun 4 (shapeOf (ncar (Call2.ls s)) (Call2.nctrs s) (s.env X).nf) pure) hs hd1
      (fun _ _ x => absurd x (by omega)) hcn hal
    refine (wp_iff_run _ _ _).2 ⟨(), h2, r2, ?_, fun _ => v2, ⟨?_, ?_⟩, hret⟩
    · intro n ic jc kc lc i j k l hn q1 q2 q3 q4 p1 p2 p3 p4
      have hz' := hz rfl (ctrAt (Call2.nctrs s) (ncar (Call2.ls s)) n ic jc kc lc i j k l)
      unfold Call2.ctrArr at hz'
      rw [enf] at hz'
      have hc := ctrVal_at (nctr := Call2.nctrs s) (nf := ncar (Call2.ls s)) (n := n) (loopVal2 R K L X s keep w) q1 q2 q3 q4 p1 p2 p3 p4
      rw [← hc]
      refine Eq.trans ?_ (congrArg Cell.val hz').symm
      exact v2 _ ⟨n, _, _, _, _, hn, digit_lt p1 q1, digit_lt p2 q2, digit_lt p3 q3, digit_lt p4 q4, rfl⟩
    · intro q hq hb
      rw [f2 q hb]
      exact hD q hq
    · intro q p1 p2 p3 p4 p5
      rw [i2 q (fun t _ e => p5 (by rw [e]; rfl))]
      exact hI q (by rintro (x | x | x | x) <;> [exact p1 x; exact p2 x; exact p3 x; exact p4 x])

/-- the transformed integral -/
def sphVal2 (R : Rys2 α) (K : Consts α) (L : MathLib α) (X : Int2e α) (s : Call2 α)
    (keep : Nat → Nat → Nat → Nat → Bool) (w : Nat → Nat → Nat → Nat → Nat → α) (n ic jc kc lc i j k l : Nat) : α :=
  ∑ a ∈ Finset.range (ncart s.si.l), ∑ b ∈ Finset.range (ncart s.sj.l), ∑ c ∈ Finset.range (ncart s.sk.l),
    ∑ d ∈ Finset.range (ncart s.sl.l),
    c2sCoef s.si.l i a * c2sCoef s.sj.l j b * c2sCoef s.sk.l k c * c2sCoef s.sl.l l d *
      loopVal2 R K L X s keep w n ic jc kc lc (pos4c (ncar (Call2.ls s)) a b c d)

theorem sphOf_eq {n ic jc kc lc i j k l : Nat} (q1 : ic < s.si.nctr) (q2 : jc < s.sj.nctr) (q3 : kc < s.sk.nctr)
    (q4 : lc < s.sl.nctr) : sphOf (Call2.ls s) (Call2.nctrs s) (Call2.ctrArr R K L X s keep w) n ic jc kc lc i j k l =
      sphVal2 R K L X s keep w n ic jc kc lc i j k l := by
  unfold sphOf sphVal2
  refine Finset.sum_congr rfl fun a ha => Finset.sum_congr rfl fun b hb => Finset.sum_congr rfl fun c hc =>
    Finset.sum_congr rfl fun d hd => ?_
  refine congrArg (c2sCoef s.si.l i a * c2sCoef s.sj.l j b * c2sCoef s.sk.l k c * c2sCoef s.sl.l l d * ·) ?_
  unfold Call2.ctrArr
  rw [show (s.env X).nf = ncar (Call2.ls s) 0 * ncar (Call2.ls s) 1 * ncar (Call2.ls s) 2 * ncar (Call2.ls s) 3 from nf_env2]
  exact ctrVal_at (nctr := Call2.nctrs s) _ q1 q2 q3 q4 (Finset.mem_range.1 ha) (Finset.mem_range.1 hb)
    (Finset.mem_range.1 hc) (Finset.mem_range.1 hd)

/-- Spherical output -/
theorem drv2e_sph {h : Heap α} {fpd buf size : Nat} {empty fl loc counts out tab : Ptr} {dims : Option Ptr} {nd : Nat → Nat}
    (M : CallMem2 h fpd buf size empty fl loc counts) (hsize : cacheSize2e X s ≤ size)
    (hs : Sizes 4 (nsph (Call2.ls s)) (Call2.nctrs s) nd)
    (O : OutArg2 4 h nd (fun t => nsph (Call2.ls s) t * Call2.nctrs s t) X.nComp out dims buf empty fl loc counts)
    (hT : HoldsTab h tab) (htb : tab.buf ≠ buf) (hto : out.buf ≠ tab.buf)
    (hK : EvalOK2 R K L X s keep w) (hnc : 1 ≤ X.nComp) (hl : ∀ t, t < 4 → Call2.ls s t ≤ 15) :
    ∃ has h', run (drv2e X s R K L fpd (sphTrans2e tab fpd s.si.l s.sj.l s.sk.l s.sl.l) (nsph (Call2.ls s)) out dims
        buf 0 empty fl loc counts) h = some (has, h') ∧
      (∀ n ic jc kc lc i j k l, n < X.nComp → ic < s.si.nctr → jc < s.sj.nctr → kc < s.sk.nctr → lc < s.sl.nctr →
        i < s.si.l*2+1 → j < s.sj.l*2+1 → k < s.sk.l*2+1 → l < s.sl.l*2+1 →
        h'.D (out + outAt nd n (ic*(s.si.l*2+1)+i) (jc*(s.sj.l*2+1)+j) (kc*(s.sk.l*2+1)+k) (lc*(s.sl.l*2+1)+l)) =
          .val (sphVal2 R K L X s keep w n ic jc kc lc i j k l)) ∧
      (has = false → ∀ m, InBlock nd (fun t => nsph (Call2.ls s) t * Call2.nctrs s t) X.nComp m → h'.D (out + m) = .val 0) ∧
      Frame2 h h' nd (fun t => nsph (Call2.ls s) t * Call2.nctrs s t) X.nComp buf out empty fl loc counts ∧
      (has = true ↔ loopAny2 R K L X s keep) := by
  refine (wp_iff_run _ (fun has h' => _) _).1 ?_
  refine drv2e_loop M hsize hs.nctr_pos hK hnc hl _ _ _ _ _ ?_
  intro has h1 hv hz hD hI hm hret
  have hd1 := dims_kept O hI
  have hcn : ∀ t, t < 4 → h1.I (counts + t) ≠ .oob := fun t ht => hm.I _ (M.countsw t ht)
  have hal : ∀ m, InBlock nd (fun t => nsph (Call2.ls s) t * Call2.nctrs s t) X.nComp m →
      h1.D (out + m) ≠ .oob := fun m hm' => hm.D _ (O.h_out m hm')
  have enf : (s.env X).nf = blkLen (Call2.ls s) := nf_env2
  have enf' : (s.env X).nf = ncar (Call2.ls s) 0 * ncar (Call2.ls s) 1 * ncar (Call2.ls s) 2 * ncar (Call2.ls s) 3 := nf_env2
  have enc : s.nctr = Call2.nctrs s 0 * Call2.nctrs s 1 * Call2.nctrs s 2 * Call2.nctrs s 3 := rfl
  have elen : (s.env X).nf * s.nctr * X.nComp = X.nComp * (blkLen (Call2.ls s) *
      (Call2.nctrs s 0 * Call2.nctrs s 1 * Call2.nctrs s 2 * Call2.nctrs s 3)) := by
    rw [enf, enc]; ring
  have htab : HoldsTab h1 tab := holdsTab_agree hT hD (fun q hq => by rw [hq]; exact htb.symm)
  have hfree : (s.env X).nf * s.nctr * X.nComp + blkLen (Call2.ls s) * 4 ≤ size := by
    refine le_trans ?_ hsize
    unfold cacheSize2e
    refine le_trans ?_ (le_max_right _ _)
    rw [← enf]
    have : (s.env X).nf * s.si.nctr * s.sj.nctr * s.sk.nctr * s.sl.nctr = (s.env X).nf * s.nctr := by
      unfold Call2.nctr; ring
    rw [this]
  cases has with
  | true =>
    have hh := hv rfl
    rw [elen] at hh
    have St : SphStage 4 (Call2.ls s) (Call2.nctrs s) nd X.nComp out dims ⟨buf, 0⟩ counts tab fpd buf
        ((s.env X).nf * s.nctr * X.nComp) size (Call2.ctrArr R K L X s keep w) h1 :=
      { h_fpd := M.fpd_pos, h_l := hl, h_l0 := fun t a b => absurd a (by omega), h_sizes := hs, h_dims := hd1
        h_counts := hcn, h_tab := htab, h_gctr := hh, h_gbuf := rfl
        h_used := by rw [elen]; exact le_of_eq (Nat.zero_add _)
        h_free := hfree, h_cache := fun k hk => hm.D _ (M.dbl k hk), h_out := hal, h_tbuf := htb
        h_obuf := ⟨O.h_obuf, hto⟩ }
    obtain ⟨h2, r2, v2, f2, i2⟩ := C19_spherical_block St
    refine (wp_iff_run _ _ _).2 ⟨(), h2, ?_, ?_, fun x => Bool.noConfusion x, ⟨?_, ?_⟩, hret⟩
    · rw [← r2]
      unfold sphStage
      rw [enf, enc]
      rfl
    · intro n ic jc kc lc i j k l hn q1 q2 q3 q4 p1 p2 p3 p4
      have := v2 n ic jc kc lc i j k l hn q1 q2 q3 q4 p1 p2 p3 p4
      exact this.trans (congrArg Cell.val (sphOf_eq q1 q2 q3 q4))
    · intro q hq hb
      rw [f2 q (fun x => hq x.1) hb]
      exact hD q hq
    · intro q p1 p2 p3 p4 p5
      rw [i2 q (fun t _ e => p5 (by rw [e]; rfl))]
      exact hI q (by rintro (x | x | x | x) <;> [exact p1 x; exact p2 x; exact p3 x; exact p4 x])
  | false =>
    obtain ⟨h2, r2, v2, f2, i2⟩ := C18_zero_block (nComp := X.nComp) (nc := (s.env X).nf * s.nctr) (out := out) (gctr := ⟨buf, 0⟩)
      (c2s := c2sFun 4 (shapeOf (nsph (Call2.ls s)) (Call2.nctrs s) (s.env X).nf)
        (sphTrans2e tab fpd s.si.l s.sj.l s.sk.l s.sl.l buf (fpd * ((s.env X).nf * s.nctr * X.nComp)))) hs hd1
      (fun _ _ x => absurd x (by omega)) hcn hal
    refine (wp_iff_run _ _ _).2 ⟨(), h2, r2, ?_, fun _ => v2, ⟨?_, ?_⟩, hret⟩
    · intro n ic jc kc lc i j k l hn q1 q2 q3 q4 p1 p2 p3 p4
      have hz0 : sphVal2 R K L X s keep w n ic jc kc lc i j k l = 0 := by
        unfold sphVal2
        refine Finset.sum_eq_zero fun a ha => Finset.sum_eq_zero fun b hb => Finset.sum_eq_zero fun c hc =>
          Finset.sum_eq_zero fun d hd => ?_
        have hz' := hz rfl (ctrAt (Call2.nctrs s) (ncar (Call2.ls s)) n ic jc kc lc a b c d)
        unfold Call2.ctrArr at hz'
        rw [enf'] at hz'
        have hc := ctrVal_at (nctr := Call2.nctrs s) (nf := ncar (Call2.ls s)) (n := n) (loopVal2 R K L X s keep w) q1 q2 q3 q4
          (Finset.mem_range.1 ha) (Finset.mem_range.1 hb) (Finset.mem_range.1 hc) (Finset.mem_range.1 hd)
        rw [← hc]
        exact (congrArg _ hz').trans (mul_zero _)
      rw [hz0]
      exact v2 _ ⟨n, _, _, _, _, hn, digit_lt p1 q1, digit_lt p2 q2, digit_lt p3 q3, digit_lt p4 q4, rfl⟩
    · intro q hq hb
      rw [f2 q hb]
      exact hD q hq
    · intro q p1 p2 p3 p4 p5
      rw [i2 q (fun t _ e => p5 (by rw [e]; rfl))]
      exact hI q (by rintro (x | x | x | x) <;> [exact p1 x; exact p2 x; exact p3 x; exact p4 x])

end Verif.Lemmas
