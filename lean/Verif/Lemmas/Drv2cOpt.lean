import Verif.Model.Int2c2eOpt
import Verif.Lemmas.OptIdx
import Verif.Lemmas.Drv2c

/-! CINT2c2e_loop on its part of the cache, and CINTall_2c2e_optimizer. -/
namespace Verif.Lemmas
open Verif Verif.Model Verif.Prog Verif.Props Verif.Spec

variable {α : Type} [Field α] [LinearOrder α]
variable {R : Rys2 α} {K : Consts α} {X : Int2e α} {s : Call2c α} {keep : Nat → Nat → Bool} {w : Nat → Nat → Nat → α}

/-- the index table for the call is there -/
def IxAt2c (O : Opt2) (h : Heap α) (li lk : Nat) (e : EnvG) : Prop :=
  ∃ b : Nat, h.I (O.ixa + ixPos2 li lk) = .val (b : Int) ∧ ∀ m, m < 3 * e.nf → h.I (O.ixbuf + b + m) = .val (idxF2c e m)

theorem IxAt2c.agree {O : Opt2} {h h' : Heap α} {li lk : Nat} {e : EnvG} (H : IxAt2c O h li lk e) {W : Ptr → Prop}
    (hI : AgreeI h h' W) (h1 : ∀ q, W q → q.buf ≠ O.ixa.buf ∧ q.buf ≠ O.ixbuf.buf) : IxAt2c O h' li lk e := by
  obtain ⟨b, x, y⟩ := H
  refine ⟨b, ?_, fun m hm => ?_⟩
  · exact (hI (O.ixa + ixPos2 li lk) (fun hw => (h1 _ hw).1 rfl)).trans x
  · exact (hI (O.ixbuf + b + m) (fun hw => (h1 _ hw).2 rfl)).trans (y m hm)

/-- position, in doubles, of the scratch array `g` when the loop's cache starts at `o`, and the end -/
def posG2cO (s : Call2c α) (fpd o : Nat) : Nat := o + dblOf fpd s.tblLen

/-- the doubles of the cache used as FINTs by CINT2c2e_loop -/
def intSlots2cO (s : Call2c α) (fpd o : Nat) (k : Nat) : Prop := o ≤ k ∧ k < posG2cO s fpd o

/-- Memory of CINT2c2e_loop -/
structure LoopMem2cO (X : Int2e α) (s : Call2c α) (O : Opt2) (h : Heap α) (fpd buf size o0 o : Nat) (empty fl : Ptr) : Prop where
  fpd_pos : 0 < fpd
  cache : CacheMem h fpd buf size (intSlots2cO s fpd o)
  room : posG2cO s fpd o + s.len X ≤ size
  ctr : o0 + (s.env X).nf * (s.si.nctr * s.sk.nctr) * X.nComp ≤ o
  flag : h.I empty = .val 1
  flw : ∀ k, k < 3 → h.I (fl + k) ≠ .oob
  ebuf : empty.buf ≠ buf
  efl : empty.buf ≠ fl.buf
  flbuf : fl.buf ≠ buf
  cachex : buf ≠ O.ixbuf.buf
  emptyx : empty.buf ≠ O.ixbuf.buf
  flx : fl.buf ≠ O.ixbuf.buf

theorem loop2c2eOpt_wp {h : Heap α} {O : Opt2} {fpd buf size o0 o : Nat} {empty fl loc : Ptr}
    (M : LoopMem2cO X s O h fpd buf size o0 o empty fl) (hix : IxAt2c O h s.si.l s.sk.l (s.env X)) (hK : EvalOK2c R K X s keep w)
    (hic : 1 ≤ s.si.nctr) (hkc : 1 ≤ s.sk.nctr) (hnc : 1 ≤ X.nComp) :
    wp (loop2c2eOpt X s R K O fpd ⟨buf, o0⟩ empty buf (fpd*o) fl) (Post2c K X s keep w buf o0 empty fl loc h) h := by
  have hf := M.fpd_pos
  have dT : s.tblLen ≤ fpd * dblOf fpd s.tblLen := dblOf_mul hf _
  have hroom : o + dblOf fpd s.tblLen + s.len X ≤ size := M.room
  have hctr := M.ctr
  obtain ⟨b, hb, ht⟩ := hix
  unfold loop2c2eOpt
  simp only [mallocI_eq hf, mallocD_eq hf, mallocD_eq' hf]
  rw [wp_mbind]
  refine (wp_ldI _ _ _).2 ⟨_, hb, ?_⟩
  rw [if_neg (by omega : ¬ ((b : Int) = -1)), Int.toNat_natCast]
  refine loop2c_core (og := o + dblOf fpd s.tblLen) hK hic hkc hnc rfl rfl ht ?_ ?_ ?_ ?_ ?_ M.flag M.flw M.ebuf M.efl M.flbuf M.emptyx M.flx
  · intro k hk
    show h.I ⟨buf, fpd*o + k⟩ ≠ _
    refine M.cache.int _ ?_ ⟨?_, ?_⟩
    · calc fpd*o + k < fpd * o + fpd * dblOf fpd s.tblLen := by omega
        _ = fpd * (o + dblOf fpd s.tblLen) := by ring
        _ ≤ fpd * size := Nat.mul_le_mul_left _ (by omega)
    · exact (Nat.le_div_iff_mul_le hf).2 (by rw [Nat.mul_comm]; omega)
    · refine (Nat.div_lt_iff_lt_mul hf).2 ?_
      unfold posG2cO
      calc fpd*o + k < fpd * o + fpd * dblOf fpd s.tblLen := by omega
        _ = (o + dblOf fpd s.tblLen) * fpd := by ring
  · intro k m _ _ hh
    exact M.cachex (Ptr.ext_iff'.1 hh).1
  · intro k hk
    refine M.cache.dbl _ (by omega) ?_
    rintro ⟨_, h2⟩
    unfold posG2cO at h2
    omega
  · intro k hk
    refine M.cache.dbl _ (by omega) ?_
    rintro ⟨h2, _⟩
    omega
  · omega

theorem used2cO_le_cacheSize (X : Int2e α) (s : Call2c α) {fpd : Nat} (hf : 0 < fpd) :
    posG2cO s fpd ((s.env X).nf * s.si.nctr * s.sk.nctr * X.nComp) + s.len X ≤ cacheSize2c2e X s := by
  have := used2c_le_cacheSize X s hf
  unfold posEnd2c posTbl2c posIdx2c at this
  unfold posG2cO
  omega

/-- the memory of CINT2c2e_loop called by the driver -/
theorem drv2c2e_opt {h : Heap α} {O : Opt2} {fpd buf size : Nat} {empty fl loc counts : Ptr}
    (M : CallMem3 h fpd buf size empty fl loc counts) (hsize : cacheSize2c2e X s ≤ size)
    (hix : IxAt2c O h s.si.l s.sk.l (s.env X)) (hx1 : buf ≠ O.ixbuf.buf) (hx2 : empty.buf ≠ O.ixbuf.buf)
    (hx3 : fl.buf ≠ O.ixbuf.buf) (hx4 : empty.buf ≠ O.ixa.buf)
    (hp : ∀ t, t < 4 → 0 < Call2c.nctrs s t) (hK : EvalOK2c R K X s keep w) (hnc : 1 ≤ X.nComp) :
    wp (loop2c2eOpt X s R K O fpd ⟨buf, 0⟩ empty buf (fpd * ((s.env X).nf * (s.si.nctr * s.sk.nctr) * X.nComp)) fl)
      (Post2c K X s keep w buf 0 empty fl loc (h.setI empty 1)) (h.setI empty 1) := by
  have hf := M.fpd_pos
  let h0 := h.setI empty 1
  have am0 : AllocMono h h0 := by
    refine ⟨fun q hq => hq, fun q hq => ?_⟩
    by_cases he : q = empty
    · subst he
      rw [show h0.I q = .val 1 from Heap.setI_I_self _ _ _]
      intro x; cases x
    · rw [show h0.I q = h.I q from Heap.setI_I_ne _ _ he]; exact hq
  have hncE : (s.env X).nf * s.si.nctr * s.sk.nctr = (s.env X).nf * (s.si.nctr * s.sk.nctr) := by ring
  have LM : LoopMem2cO X s O h0 fpd buf size 0 ((s.env X).nf * (s.si.nctr * s.sk.nctr) * X.nComp) empty fl := by
    refine ⟨hf, ⟨fun k hk _ => M.dbl k hk, fun m hm _ => am0.I _ (M.int m hm)⟩, ?_, by omega, Heap.setI_I_self _ _ _,
      fun k hk => am0.I _ (M.flw k (by omega)), M.ebuf, M.efl, M.flbuf, hx1, hx2, hx3⟩
    rw [← hncE]
    exact le_trans (used2cO_le_cacheSize X s hf) hsize
  refine loop2c2eOpt_wp LM (hix.agree (W := fun q => q = empty) (fun q hq => Heap.setI_I_ne _ _ hq) ?_) hK
    (hp 0 (by omega)) (hp 1 (by omega)) hnc
  rintro q rfl
  exact ⟨hx4, hx2⟩

/-! ### the constructor -/

/-- the memory handed out by malloc in the constructor of the optimizer for two-centre integrals -/
structure OptMem2c (B : Nat → PShell α) (nbas : Nat) (P : OptPtrs) (loc : Ptr) (h : Heap α) : Prop where
  ctab : ∀ q, q < nbas → h.I (P.ctab + q) ≠ .oob
  stab : ∀ q, q < nbas → h.I (P.stab + q) ≠ .oob
  cpool : ∀ q, q < totPrim B nbas → h.I (P.cpool + q) ≠ .oob
  spool : ∀ q, q < totCoef B nbas → h.I (P.spool + q) ≠ .oob
  ixa : ∀ q, q < (maxAng B nbas + 1)*16 → h.I (P.ixa + q) ≠ .oob
  ixbuf : ∀ q, q < 3 * (cumCart (min (maxAng B nbas) 15 + 1))^2 → h.I (P.ixbuf + q) ≠ .oob
  locw : ∀ q, q < 12*136 → h.I (loc + q) ≠ .oob
  distinct : [P.ctab.buf, P.stab.buf, P.cpool.buf, P.spool.buf, P.ixa.buf, P.ixbuf.buf, loc.buf].Nodup

variable {B : Nat → PShell α} {nbas : Nat} {omega : α} {P : OptPtrs} {loc : Ptr}

theorem nf_init2c (i k : Nat) (ng : Inc) (sr : Bool) : (initInt2c2e i k ng sr).nf = ncart i * ncart k := by
  show lenCart i * lenCart k = _
  simp only [lenCart_eq]

theorem optimizer2c2e_wp {h : Heap α} (M : OptMem2c B nbas P loc h) (ht : 0 < totPrim B nbas)
    (hl : ∀ i, i < nbas → (B i).l ≤ 15) :
    wp (optimizer2c2e X B nbas omega P loc) (fun O h' =>
      O = ⟨nbas, none, P.ctab, P.cpool, P.stab, P.spool, P.ixa, P.ixbuf⟩ ∧
      (∀ i k, i < nbas → k < nbas → IxAt2c O h' (B i).l (B k).l (initInt2c2e (B i).l (B k).l X.ng (decide (omega < 0)))) ∧
      h'.D = h.D ∧ AgreeI h h' (fun q => q.buf ∈ [P.ctab.buf, P.stab.buf, P.cpool.buf, P.spool.buf, P.ixa.buf, P.ixbuf.buf,
        loc.buf])) h := by
  have hN := M.distinct
  simp only [List.nodup_cons, List.mem_cons, List.not_mem_nil, or_false, not_or, List.nodup_nil, and_true] at hN
  obtain ⟨⟨c1, c2, c3, c4, c5, c6⟩, ⟨s1, s2, s3, s4, s5⟩, ⟨k1, k2, k3, k4⟩, ⟨o1, o2, o3⟩, ⟨x1, x2⟩, y1, -⟩ := hN
  have hm15 : maxAng B nbas ≤ 15 := maxAng_le B hl
  unfold optimizer2c2e
  rw [wp_mbind]
  refine wp_mono (wp_allocMono (setNon0coeff_wp ht ?_ M.ctab M.stab M.cpool M.spool)) ?_
  · simp only [List.nodup_cons, List.mem_cons, List.not_mem_nil, or_false, not_or, List.nodup_nil, and_true]
    exact ⟨⟨c1, c2, c3⟩, ⟨s1, s2⟩, k1, not_false⟩
  rintro _ h2 ⟨⟨_, dD2, aI2⟩, m2⟩
  rw [wp_mbind]
  refine wp_mono (genIdx2_wp (F := fun p => idxF2c (initInt2c2e p.1 p.2 X.ng (decide (omega < 0)))) hm15
    (fun i k => nf_init2c i k _ _) ?_ ?_ (fun q hq => m2.I _ (M.ixa q hq)) (fun q hq => m2.I _ (M.ixbuf q hq))
    (fun q hq => m2.I _ (M.locw q hq))) ?_
  · rintro ⟨i, k⟩ p g hok Mx
    have h1 : i ≤ 15 := by have : i ≤ min (maxAng B nbas) 15 := hok.1; omega
    have h2 : k ≤ 15 := by have : k ≤ min (maxAng B nbas) 15 := hok.2; omega
    let e := initInt2c2e i k X.ng (decide (omega < 0))
    have eN : 3 * (e.nfj * e.nfi) = 3 * (ncart i * ncart k) := by
      show 3 * (lenCart k * lenCart i) = _
      simp only [lenCart_eq]; ring
    have := g1eIndex_wp (h := g) (idx := p) (loc := loc) (e := e) h1 h2 rfl rfl (by rw [eN]; exact Mx)
    rw [eN] at this
    exact this
  · simp only [List.nodup_cons, List.mem_cons, List.not_mem_nil, or_false, not_or, List.nodup_nil, and_true]
    exact ⟨⟨x1, x2⟩, y1, not_false⟩
  rintro _ h3 ⟨c, I⟩
  rw [wp_pure]
  refine ⟨rfl, ?_, by rw [I.dbl, dD2], ?_⟩
  · intro i k hi hk
    have a1 := le_maxAng B hi
    have a2 := le_maxAng B hk
    obtain ⟨b, d1, _, d3⟩ := I.done ((B i).l, (B k).l) True.intro ⟨by dsimp only; omega, by dsimp only; omega⟩
    refine ⟨b, d1, fun m hm => d3 m ?_⟩
    rw [nf_init2c] at hm
    exact hm
  · intro q hq
    simp only [List.mem_cons, List.not_mem_nil, or_false, not_or] at hq
    obtain ⟨q1, q2, q3, q4, q5, q6, q7⟩ := hq
    rw [I.frame q, aI2 q]
    · rintro (e | e | e | e)
      · exact q1 (blk_buf e)
      · exact q2 (blk_buf e)
      · exact q3 (blk_buf e)
      · exact q4 (blk_buf e)
    · rintro (e | e | e)
      · exact q5 (blk_buf e)
      · exact q6 (blk_buf e)
      · exact q7 (blk_buf e)

end Verif.Lemmas
