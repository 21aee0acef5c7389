import Verif.Lemmas.Loop2eNopt
import Verif.Lemmas.Loop2eSpecial
import Verif.Lemmas.Demo
import Verif.Spec.Contract

/-
Properties C09 (the primitive loop of the four-centre two-electron integrals computes the
contracted integrals) and C10 (the specialised loops selected when an optimizer is present
compute the same).

Hypotheses are bundled in `Setup2e` / `SetupNopt`; `AccSt h flag p N b u` says that the
caller's accumulator `p[0..N)` is empty (`b = false`, flag 1, contents irrelevant, `u = 0`)
or holds `u` (`b = true`, flag 0).  `KernelSpec` says that the callbacks of one primitive
quartet store or add `fac * w n`.
-/
namespace Verif.Props
open Verif Verif.Model Prog Spec

variable {α : Type} [CommRing α] [DecidableEq α]

/-- a primitive quartet passes the screening -/
def survives (Q : Quartet α) (keep : Nat → Nat → Nat → Nat → Bool) (ip jp kp lp : Nat) : Bool :=
  !Q.skipKL kp lp && (!Q.skipIJ ip jp kp lp && keep ip jp kp lp)

/-- the contracted integral the loops should produce -/
def expected (Q : Quartet α) (keep : Nat → Nat → Nat → Nat → Bool)
    (w : Nat → Nat → Nat → Nat → Nat → α) (comp ic jc kc lc n : Nat) : α :=
  Q.common * contract4 Q.iPrim Q.jPrim Q.kPrim Q.lPrim Q.ci Q.cj Q.ck Q.cl
    (fun ip jp kp lp => if survives Q keep ip jp kp lp then
      Q.eij ip jp * Q.ekl kp lp * w ip jp kp lp (n*Q.nComp+comp) else 0) ic jc kc lc

/-- The loop added the contracted integrals to the accumulator and reported whether anything
is there; nothing else changed apart from the scratch memory. -/
structure Contracted (Q : Quartet α) (M : Mem2e) (keep : Nat → Nat → Nat → Nat → Bool)
    (w : Nat → Nat → Nat → Nat → Nat → α) (b0 : Bool) (u : Nat → α) (res : Bool)
    (h' : Heap α) : Prop where
  ret : res = true ↔ (b0 = true ∨ ∃ ip jp kp lp, ip < Q.iPrim ∧ jp < Q.jPrim ∧ kp < Q.kPrim ∧
    lp < Q.lPrim ∧ survives Q keep ip jp kp lp = true)
  flag : h'.I M.empty = .val (if res then 0 else 1)
  value : res = true → ∀ comp ic jc kc lc n, comp < Q.nComp → ic < Q.iCtr → jc < Q.jCtr →
    kc < Q.kCtr → lc < Q.lCtr → n < Q.nf →
    h'.D (M.gctr + outIdx4 Q.nf Q.iCtr Q.jCtr Q.kCtr Q.lCtr comp ic jc kc lc n) =
      .val (u (outIdx4 Q.nf Q.iCtr Q.jCtr Q.kCtr Q.lCtr comp ic jc kc lc n)
        + expected Q keep w comp ic jc kc lc n)
  /-- if nothing survived, the contracted integrals are zero -/
  none_zero : res = false → ∀ comp ic jc kc lc n, expected Q keep w comp ic jc kc lc n = 0

section
variable {Q : Quartet α} {M : Mem2e} {keep : Nat → Nat → Nat → Nat → Bool}
  {w : Nat → Nat → Nat → Nat → Nat → α}

theorem vL_closed {comp ic jc kc lc n : Nat} (hc : comp < Q.nComp) (hi : ic < Q.iCtr)
    (hj : jc < Q.jCtr) (hk : kc < Q.kCtr) (hn : n < Q.nf) :
    Q.vL keep w (((((lc*Q.kCtr + kc)*Q.jCtr + jc)*Q.iCtr + ic)*Q.nf + n)*Q.nComp + comp) =
      expected Q keep w comp ic jc kc lc n := by
  have x0 : n*Q.nComp+comp < Q.len0 := radix_lt hn hc
  have x1 : Q.len0*ic + (n*Q.nComp+comp) < Q.leni := by rw [Q.leni_eq]; exact ctr_lt hi x0
  have x2 : Q.leni*jc + (Q.len0*ic + (n*Q.nComp+comp)) < Q.lenj := by
    rw [Q.lenj_eq]; exact ctr_lt hj x1
  have x3 : Q.lenj*kc + (Q.leni*jc + (Q.len0*ic + (n*Q.nComp+comp))) < Q.lenk := by
    rw [Q.lenk_eq]; exact ctr_lt hk x2
  have e : ((((lc*Q.kCtr + kc)*Q.jCtr + jc)*Q.iCtr + ic)*Q.nf + n)*Q.nComp + comp =
      Q.lenk*lc + (Q.lenj*kc + (Q.leni*jc + (Q.len0*ic + (n*Q.nComp+comp)))) := by
    unfold Quartet.lenk Quartet.lenj Quartet.leni Quartet.len0; ring
  rw [e]
  unfold Quartet.vL expected contract4
  congr 1
  refine Finset.sum_congr rfl (fun lp _ => ?_)
  rw [ctr_div x3, ctr_mod x3]
  unfold Quartet.vK
  rw [Finset.mul_sum]
  refine Finset.sum_congr rfl (fun kp _ => ?_)
  rw [ctr_div x2, ctr_mod x2]
  by_cases hs : Q.skipKL kp lp = true
  · simp [hs, survives]
  rw [if_neg hs]
  unfold Quartet.vJ
  rw [← mul_assoc, Finset.mul_sum]
  refine Finset.sum_congr rfl (fun jp _ => ?_)
  rw [ctr_div x1, ctr_mod x1]
  unfold Quartet.vI
  rw [← mul_assoc, Finset.mul_sum]
  refine Finset.sum_congr rfl (fun ip _ => ?_)
  rw [ctr_div x0, ctr_mod x0]
  cases hs2 : Q.skipIJ ip jp kp lp with
  | true => simp [survives, hs2]
  | false =>
    cases hs3 : keep ip jp kp lp with
    | true => simp [survives, hs, hs2, hs3, mul_assoc]
    | false => simp [survives, hs, hs2, hs3]

theorem bL_iff : Q.bL keep = true ↔ ∃ ip jp kp lp, ip < Q.iPrim ∧ jp < Q.jPrim ∧ kp < Q.kPrim ∧
    lp < Q.lPrim ∧ survives Q keep ip jp kp lp = true := by
  simp only [Quartet.bL, Quartet.bK, Quartet.bJ, Quartet.bI, List.any_eq_true, List.mem_range,
    survives, Bool.and_eq_true]
  constructor
  · rintro ⟨lp, h1, kp, h2, h3, jp, h4, ip, h5, h6⟩
    exact ⟨ip, jp, kp, lp, h5, h4, h2, h1, h3, h6⟩
  · rintro ⟨ip, jp, kp, lp, h5, h4, h2, h1, h3, h6⟩
    exact ⟨lp, h1, kp, h2, h3, jp, h4, ip, h5, h6⟩

theorem expected_zero (hb : Q.bL keep = false) (comp ic jc kc lc n : Nat) :
    expected Q keep w comp ic jc kc lc n = 0 := by
  unfold expected contract4
  rw [Finset.sum_eq_zero, mul_zero]
  intro lp hl
  refine Finset.sum_eq_zero (fun kp hk => Finset.sum_eq_zero (fun jp hj =>
    Finset.sum_eq_zero (fun ip hi => ?_)))
  have : survives Q keep ip jp kp lp = false := by
    by_contra hne
    have h2 : Q.bL keep = true := bL_iff.2 ⟨ip, jp, kp, lp, Finset.mem_range.1 hi,
      Finset.mem_range.1 hj, Finset.mem_range.1 hk, Finset.mem_range.1 hl, by simpa using hne⟩
    rw [hb] at h2; cases h2
  simp [this]

theorem contracted_of {b0 : Bool} {u : Nat → α} {res : Bool} {h' : Heap α}
    (hr : res = (b0 || Q.bL keep))
    (hA : AccSt h' M.empty M.gctr (Q.nf * Q.nc * Q.nComp) (b0 || Q.bL keep)
      (fun x => u x + compMajor (Q.nf * Q.nc) Q.nComp (Q.vL keep w) x)) :
    Contracted Q M keep w b0 u res h' := by
  subst hr
  refine ⟨by rw [Bool.or_eq_true, bL_iff], hA.flag, ?_, ?_⟩
  · intro hres comp ic jc kc lc n hc hi hj hk hl hn
    have hrow : (((lc*Q.kCtr + kc)*Q.jCtr + jc)*Q.iCtr + ic)*Q.nf + n < Q.nf * Q.nc := by
      have := radix_lt (radix_lt (radix_lt (radix_lt hl hk) hj) hi) hn
      calc _ < _ := this
        _ = Q.nf * Q.nc := by unfold Quartet.nc; ring
    have hlt : outIdx4 Q.nf Q.iCtr Q.jCtr Q.kCtr Q.lCtr comp ic jc kc lc n <
        Q.nf * Q.nc * Q.nComp := by
      rw [Nat.mul_comm (Q.nf * Q.nc)]; exact radix_lt hc hrow
    rw [hA.holds hres _ hlt]
    congr 1
    unfold compMajor
    dsimp only
    have hR : 0 < Q.nf * Q.nc := by omega
    have e1 : outIdx4 Q.nf Q.iCtr Q.jCtr Q.kCtr Q.lCtr comp ic jc kc lc n % (Q.nf * Q.nc) =
        (((lc*Q.kCtr + kc)*Q.jCtr + jc)*Q.iCtr + ic)*Q.nf + n := by
      unfold outIdx4
      rw [show Q.iCtr*Q.jCtr*Q.kCtr*Q.lCtr = Q.nc from rfl, Nat.mul_comm comp, Nat.mul_add_mod,
        Nat.mod_eq_of_lt hrow]
    have e2 : outIdx4 Q.nf Q.iCtr Q.jCtr Q.kCtr Q.lCtr comp ic jc kc lc n / (Q.nf * Q.nc) = comp := by
      unfold outIdx4
      rw [show Q.iCtr*Q.jCtr*Q.kCtr*Q.lCtr = Q.nc from rfl, Nat.mul_comm comp,
        Nat.mul_add_div hR, Nat.div_eq_of_lt hrow, Nat.add_zero]
    rw [e1, e2, vL_closed hc hi hj hk hn]
  · intro hres comp ic jc kc lc n
    rw [Bool.or_eq_false_iff] at hres
    exact expected_zero hres.2 _ _ _ _ _ _

end

/-- **C09** Without an optimizer: for any number of primitives, contractions, components,
any screening decisions and any callbacks meeting `KernelSpec`, the loop adds to the output
exactly the multilinear combination of the surviving primitive quartets, for every
combination of contractions; it reports "non-zero" exactly if something is there; it has no
undefined behaviour (no uninitialised read, no access outside its blocks) although blocks
and flags are aliased, and it changes no other memory. -/
theorem C09_loop_nopt {Q : Quartet α} {M : Mem2e} {tbl : Ptr} {T : Ptr → Option Int}
    {keep : Nat → Nat → Nat → Nat → Bool} {w : Nat → Nat → Nat → Nat → Nat → α}
    {b0 : Bool} {u : Nat → α} {h : Heap α} (S : SetupNopt Q M tbl T keep w b0 u h) :
    ∃ res h', run (loop2eNopt Q M tbl false) h = some (res, h') ∧
      Contracted Q M keep w b0 u res h' ∧
      AgreeD h h' (fun q => Blk M.gctr (Q.nf * Q.nc * Q.nComp) q ∨
        Blk M.g (Q.leng + Q.usedGen) q) ∧
      AgreeI h h' (fun q => q = M.empty ∨ Blk M.fl 5 q ∨ Blk tbl Q.tblSize q) := by
  obtain ⟨res, h', hr, h1, h2, h3, h4⟩ := run_of_wp (loop2eNopt_wp S)
  exact ⟨res, h', hr, contracted_of h1 h2, h3, h4⟩

/-- **C09** If the first pair of shells is negligible as a whole, the function returns 0 and
touches nothing. -/
theorem C09_empty_pair (Q : Quartet α) (M : Mem2e) (tbl : Ptr) (h : Heap α) :
    run (loop2eNopt Q M tbl true) h = some (false, h) := rfl

/-- **C10** The general loop used with an optimizer. -/
theorem C10_general_loop {Q : Quartet α} {M : Mem2e} {T : Ptr → Option Int}
    {keep : Nat → Nat → Nat → Nat → Bool} {w : Nat → Nat → Nat → Nat → Nat → α}
    {b0 : Bool} {u : Nat → α} {h : Heap α} (S : Setup2e Q M T keep w Q.usedGen b0 u h) :
    ∃ res h', run (loop2e Q M) h = some (res, h') ∧ Contracted Q M keep w b0 u res h' ∧
      AgreeD h h' (fun q => Blk M.gctr (Q.nf * Q.nc * Q.nComp) q ∨
        Blk M.g (Q.leng + Q.usedGen) q) ∧
      AgreeI h h' (fun q => q = M.empty ∨ Blk M.fl 5 q) := by
  obtain ⟨res, h', hr, h1, h2, h3, h4⟩ := run_of_wp (loop2eCore_wp (le_refl _) S fac1iOpt
    (fun fac ip jp kp lp => by unfold fac1iOpt; split <;> ring))
  exact ⟨res, h', hr, contracted_of h1 h2, h3, h4⟩

/-- **C10** Whatever loop the dispatch table selects for the pattern of contraction numbers,
it computes the same contracted integrals within the same scratch memory. -/
theorem C10_dispatch {Q : Quartet α} {M : Mem2e} {T : Ptr → Option Int}
    {keep : Nat → Nat → Nat → Nat → Bool} {w : Nat → Nat → Nat → Nat → Nat → α}
    {b0 : Bool} {u : Nat → α} {h : Heap α} (S : Setup2e Q M T keep w Q.usedGen b0 u h) :
    ∃ res h', run (loop2eDispatch Q M) h = some (res, h') ∧ Contracted Q M keep w b0 u res h' ∧
      AgreeD h h' (fun q => Blk M.gctr (Q.nf * Q.nc * Q.nComp) q ∨
        Blk M.g (Q.leng + Q.usedGen) q) ∧
      AgreeI h h' (fun q => q = M.empty ∨ Blk M.fl 5 q) := by
  have key : wp (loop2eDispatch Q M)
      (LoopPost Q M Q.usedGen b0 u (Q.bL keep) (Q.vL keep w) h) h := by
    have hgen : wp (loop2e Q M) (LoopPost Q M Q.usedGen b0 u (Q.bL keep) (Q.vL keep w) h) h :=
      loop2eCore_wp (le_refl _) S fac1iOpt
        (fun fac ip jp kp lp => by unfold fac1iOpt; split <;> ring)
    unfold loop2eDispatch
    have hal : ∀ n, aliasLen 1 n = 0 := fun n => rfl
    have haln : ∀ c n, c ≠ 1 → aliasLen c n = n := fun c n h => by unfold aliasLen; rw [if_neg h]
    by_cases hi : Q.iCtr = 1 <;> by_cases hj : Q.jCtr = 1 <;> by_cases hk : Q.kCtr = 1 <;>
      by_cases hl : Q.lCtr = 1 <;> simp only [hi, hj, hk, hl, decide_true, decide_false,
        Bool.false_eq_true, if_true, if_false] <;> try exact hgen
    · refine loop2e_1111_wp hi hj hk hl ?_ S
      unfold Quartet.usedGen
      rw [show Q.lenl = Q.len0 by unfold Quartet.lenl Quartet.len0 Quartet.nc; rw [hi, hj, hk, hl]; ring]
      omega
    · refine loop2e_111n_wp hi hj hk hl ?_ S
      unfold Quartet.usedGen
      rw [hi, hj, hk, hal, hal, hal, haln _ _ hl,
        show Q.lenl = Q.nf * Q.lCtr * Q.nComp by unfold Quartet.lenl Quartet.nc; rw [hi, hj, hk]; ring,
        show Q.lenk = Q.len0 by unfold Quartet.lenk Quartet.len0; rw [hi, hj, hk]; ring]
      omega
    · refine loop2e_11n1_wp hi hj hk hl ?_ S
      unfold Quartet.usedGen
      rw [hi, hj, hl, hal, hal, hal, haln _ _ hk,
        show Q.lenl = Q.nf * Q.kCtr * Q.nComp by unfold Quartet.lenl Quartet.nc; rw [hi, hj, hl]; ring,
        show Q.lenj = Q.len0 by unfold Quartet.lenj Quartet.len0; rw [hi, hj]; ring]
      omega
    · refine loop2e_1n11_wp hi hj hk hl ?_ S
      unfold Quartet.usedGen
      rw [hi, hk, hl, hal, hal, hal, haln _ _ hj,
        show Q.lenl = Q.nf * Q.jCtr * Q.nComp by unfold Quartet.lenl Quartet.nc; rw [hi, hk, hl]; ring,
        show Q.leni = Q.len0 by unfold Quartet.leni Quartet.len0; rw [hi]; ring]
      omega
    · refine loop2e_n111_wp hi hj hk hl ?_ S
      unfold Quartet.usedGen
      rw [hj, hk, hl, hal, hal, hal, haln _ _ hi,
        show Q.lenl = Q.leni by unfold Quartet.lenl Quartet.leni Quartet.nc; rw [hj, hk, hl]; ring]
      omega
  obtain ⟨res, h', hr, h1, h2, h3, h4⟩ := run_of_wp key
  exact ⟨res, h', hr, contracted_of h1 h2, h3, h4⟩

/-- **C10** In particular the selected loop and the general loop give the same return value,
flag and contracted integrals. -/
theorem C10_dispatch_eq_general {Q : Quartet α} {M : Mem2e} {T : Ptr → Option Int}
    {keep : Nat → Nat → Nat → Nat → Bool} {w : Nat → Nat → Nat → Nat → Nat → α}
    {b0 : Bool} {u : Nat → α} {h : Heap α} (S : Setup2e Q M T keep w Q.usedGen b0 u h) :
    ∃ res h1 h2, run (loop2eDispatch Q M) h = some (res, h1) ∧ run (loop2e Q M) h = some (res, h2) ∧
      h1.I M.empty = h2.I M.empty ∧
      (res = true → ∀ comp ic jc kc lc n, comp < Q.nComp → ic < Q.iCtr → jc < Q.jCtr →
        kc < Q.kCtr → lc < Q.lCtr → n < Q.nf →
        h1.D (M.gctr + outIdx4 Q.nf Q.iCtr Q.jCtr Q.kCtr Q.lCtr comp ic jc kc lc n) =
        h2.D (M.gctr + outIdx4 Q.nf Q.iCtr Q.jCtr Q.kCtr Q.lCtr comp ic jc kc lc n)) := by
  obtain ⟨r1, h1, e1, c1, _, _⟩ := C10_dispatch S
  obtain ⟨r2, h2, e2, c2, _, _⟩ := C10_general_loop S
  have hr : r1 = r2 := by
    rw [Bool.eq_iff_iff, c1.ret, c2.ret]
  subst hr
  refine ⟨r1, h1, h2, e1, e2, by rw [c1.flag, c2.flag], ?_⟩
  intro hres comp ic jc kc lc n a b c d e f
  rw [c1.value hres comp ic jc kc lc n a b c d e f, c2.value hres comp ic jc kc lc n a b c d e f]

/-! ### The hypotheses can be met

For every shape of quartet (contraction numbers, primitives, components) there is memory that
satisfies the hypotheses: here with the evaluator `demoG0`/`demoGout`. -/

/-- all blocks in different buffers -/
def demoMem : Mem2e := ⟨⟨0,0⟩, ⟨1,0⟩, ⟨2,0⟩, ⟨3,0⟩, ⟨4,0⟩, ⟨4,0⟩, ⟨4,0⟩, ⟨4,0⟩, ⟨4,0⟩, ⟨4,0⟩, ⟨4,0⟩, ⟨4,0⟩⟩

theorem demo_setupNopt (Q : Quartet α) (w : Nat → Nat → Nat → Nat → Nat → α)
    (h1 : 1 ≤ Q.iCtr) (h2 : 1 ≤ Q.jCtr) (h3 : 1 ≤ Q.kCtr) (h4 : 1 ≤ Q.lCtr) (h5 : 1 ≤ Q.nComp)
    (h6 : 0 < Q.leng) (hg0 : ∀ ip jp kp lp, Q.g0 ip jp kp lp = demoG0 ⟨2,0⟩)
    (hgout : ∀ ip jp kp lp, Q.gout ip jp kp lp = demoGout Q.len0 (w ip jp kp lp)) :
    SetupNopt Q demoMem ⟨4,0⟩ (fun _ => none) (fun _ _ _ _ => true) w false (fun _ => 0)
      (blankHeap ⟨1,0⟩) where
  ictr := h1
  jctr := h2
  kctr := h3
  lctr := h4
  ncomp := h5
  ro := fun _ _ h => by cases h
  tblw := fun _ _ => blankHeap_I _ _
  tblT := fun _ _ => rfl
  tblfl := disj_of_buf (by decide)
  tblempty := fun k _ e => by have := congrArg Ptr.buf e; simp [demoMem] at this
  fl := fun _ _ => blankHeap_I _ _
  flT := fun _ _ => rfl
  emptyT := rfl
  emptyfl := fun k _ e => by have := congrArg Ptr.buf e; simp [demoMem] at this
  g := fun _ _ => blankHeap_D _ _
  disj := disj_of_buf (by decide)
  acc := blankHeap_acc _ _ _
  kern := fun ip jp kp lp _ _ _ _ => by rw [hg0, hgout]; exact demo_kernel h6

theorem demo_setup2e (Q : Quartet α) (w : Nat → Nat → Nat → Nat → Nat → α)
    (h1 : 1 ≤ Q.iCtr) (h2 : 1 ≤ Q.jCtr) (h3 : 1 ≤ Q.kCtr) (h4 : 1 ≤ Q.lCtr) (h5 : 1 ≤ Q.nComp)
    (h6 : 0 < Q.leng) (hg0 : ∀ ip jp kp lp, Q.g0 ip jp kp lp = demoG0 ⟨2,0⟩)
    (hgout : ∀ ip jp kp lp, Q.gout ip jp kp lp = demoGout Q.len0 (w ip jp kp lp)) :
    ∃ T h, Setup2e Q (demoMem.withTables Q ⟨4,0⟩) T (fun _ _ _ _ => true) w Q.usedGen false
      (fun _ => 0) h := by
  obtain ⟨_, h', _, T', S'⟩ := run_of_wp
    (demo_setupNopt Q w h1 h2 h3 h4 h5 h6 hg0 hgout).tables
  exact ⟨T', h', S'.1⟩

/-- a concrete quartet: contraction numbers 2,1,3,1, two components, three functions, one
screened pair -/
example : ∃ (Q : Quartet ℤ) (M : Mem2e) (T : Ptr → Option Int) (h : Heap ℤ),
    Q.iCtr = 2 ∧ Q.kCtr = 3 ∧ Q.nComp = 2 ∧ Q.nf = 3 ∧ Q.skipKL 1 0 = true ∧ Q.skipKL 0 0 = false ∧
    Setup2e Q M T (fun _ _ _ _ => true) (fun ip _ _ _ n => ip + n + 1) Q.usedGen false (fun _ => 0) h := by
  let Q : Quartet ℤ :=
    { iPrim := 2, jPrim := 1, kPrim := 2, lPrim := 1, iCtr := 2, jCtr := 1, kCtr := 3, lCtr := 1
      ci := fun k => k, cj := fun _ => 1, ck := fun k => 2*k - 1, cl := fun _ => 3, common := 1
      skipKL := fun kp _ => kp == 1, skipIJ := fun _ _ _ _ => false, eij := fun _ _ => 1
      ekl := fun _ _ => 1, g0 := fun _ _ _ _ => demoG0 ⟨2,0⟩
      gout := fun ip _ _ _ => demoGout 6 (fun n => ip + n + 1), nf := 3, nComp := 2, leng := 5 }
  obtain ⟨T, h, S⟩ := demo_setup2e Q (fun ip _ _ _ n => ip + n + 1) (by decide) (by decide)
    (by decide) (by decide) (by decide) (by decide) (fun _ _ _ _ => rfl) (fun _ _ _ _ => rfl)
  exact ⟨Q, _, T, h, rfl, rfl, rfl, rfl, rfl, rfl, S⟩

end Verif.Props
