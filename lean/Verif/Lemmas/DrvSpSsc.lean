import Verif.Lemmas.DrvSp3
import Verif.Model.SscSp

/-! CINT3c2e_spinor_drv with Cartesian functions in the third shell. -/
namespace Verif.Lemmas
open Verif Verif.Model Verif.Prog Verif.Props Verif.Spec

variable {α : Type} [Field α] [LinearOrder α]

/-- the block with the Cartesian index of the third shell in the middle -/
def spinC (si ph : Bool) (ki kj : Int) (li lj lk : Nat) (x : Nat → Nat → α) (i j c : Nat) : Cx α :=
  spinor2 si ph ki kj li lj (fun t a b => Cx.ofR (x t ((b*ncart lk+c)*ncart li+a))) i j

set_option maxHeartbeats 1600000 in
theorem spTransSsc_wp {h : Heap α} {tab : JTab} {k : SpKind} {fpd li lj lk n buf o size goff : Nat} {ki kj : Int}
    {x : Nat → Nat → α} (hf : 0 < fpd) (hT : HoldsJ h tab.R tab.I) (hli : li < 13) (hlj : lj < 13)
    (htR : tab.R.buf ≠ buf) (htI : tab.I.buf ≠ buf) (hR : Room h buf o size)
    (hsz : o + ncart li*ncart lk*ncart lj*28 ≤ size)
    (G : ∀ t, t < (if k.si then 4 else 1) → ∀ m, m < ncart li*ncart lk*ncart lj →
      h.D ((⟨buf, goff⟩ : Ptr) + (t*n + m)) = .val (x t m) ∧ goff + (t*n+m) < o) :
    wp (spTransSsc k tab fpd li lj lk ki kj n buf (fpd*o) ⟨buf, goff⟩) (fun t h' =>
      (∀ im j c i, j < lenSpinorC2S kj lj → c < lenCart lk → i < lenSpinorC2S ki li →
        h'.D (side t im + ((j*lenCart lk+c)*lenSpinorC2S ki li + i)) = .val (part (spinC k.si k.ph ki kj li lj lk x i j c) im)) ∧
      From h (fun q => q.buf = buf ∧ o ≤ q.off) h' ∧
      ∀ im, (side t im).buf = buf) h := by
  let di := lenSpinorC2S ki li
  let dj := lenSpinorC2S kj lj
  let dk := lenCart lk
  let nfi := lenCart li
  let nfj := lenCart lj
  have hdi : di ≤ 2*nfi := lenSpinorC2S_le ki li
  have hdj : dj ≤ 2*nfj := lenSpinorC2S_le kj lj
  let F := ncart li*ncart lk*ncart lj
  have hsz' : o + F*28 ≤ size := hsz
  let N1 := di*dk*(nfj+nfj)
  have eN1 : N1 = 2*(nfj*dk*di*1) := by show di*dk*(nfj+nfj) = _; ring
  let N2 := di*dk*dj
  have eN2 : N2 = 1*dj*(dk*di) := by show di*dk*dj = _; ring
  have hN1 : N1 ≤ F*4 := by
    calc N1 = di*dk*(2*nfj) := by show di*dk*(nfj+nfj) = _; ring
      _ ≤ 2*nfi*dk*(2*nfj) := Nat.mul_le_mul_right _ (Nat.mul_le_mul_right _ hdi)
      _ = (ncart li*ncart lk*ncart lj)*4 := by show 2*ncart li*ncart lk*(2*ncart lj) = _; ring
  have hN2 : N2 ≤ F*4 := by
    calc N2 ≤ 2*nfi*dk*(2*nfj) := Nat.mul_le_mul (Nat.mul_le_mul_right _ hdi) hdj
      _ = (ncart li*ncart lk*ncart lj)*4 := by show 2*ncart li*ncart lk*(2*ncart lj) = _; ring
  unfold spTransSsc
  dsimp only
  rw [mallocD_eq hf]
  dsimp only
  rw [mallocD_eq hf]
  dsimp only
  rw [mallocD_eq hf]
  dsimp only
  rw [mallocD_eq hf]
  dsimp only
  have key := spTwo_wp (h := h) (tab := tab) (k := k) (R1 := ⟨buf, o⟩) (I1 := ⟨buf, o+N1⟩) (R2 := ⟨buf, o+N1+N1⟩)
    (I2 := ⟨buf, o+N1+N1+N2⟩) (g := ⟨buf, goff⟩) (C := dk) (n := n)
    (nket := dk*nfj) (nbra := di*dk) (ki := ki) (kj := kj)
    (x := fun t a m => x t (a*ncart li+m)) hT hli hlj (Nat.mul_comm _ _) (Nat.mul_comm _ _)
    (by rw [← eN1]; exact outS_of_room hR (by omega) (Nat.le_refl _) (by omega))
    (by rw [← eN2]; exact outS_of_room hR (by omega) (Nat.le_refl _) (by omega))
    (by
      rw [← eN1, ← eN2]
      intro q h1 h2
      obtain ⟨_, h3⟩ := reg2_room h1
      obtain ⟨_, h4⟩ := reg2_room h2
      omega)
    (by
      intro q hq
      have : q.buf = buf := by
        rcases hq with h1 | h1
        · exact (reg2_room h1).1
        · exact (reg2_room h1).1
      rw [this]
      exact ⟨htR.symm, htI.symm⟩)
    (by
      intro t ht a m ha hm
      have hm' : a*ncart li+m < F := by
        have h2 := radix_lt ha hm
        have e : nfj*dk*lenCart li = F := by show nfj*dk*nfi = nfi*dk*nfj; ring
        calc _ < _ := h2
          _ = F := e
      obtain ⟨g1, g2⟩ := G t ht _ hm'
      rw [← eN1]
      refine ⟨?_, fun hq => ?_⟩
      · rw [Ptr.add_assoc]; exact g1
      obtain ⟨_, h3⟩ := reg2_room hq
      have e : (((⟨buf, goff⟩ : Ptr) + t*n) + (a*lenCart li+m)).off = goff + (t*n + (a*ncart li+m)) := Nat.add_assoc _ _ _
      rw [e] at h3
      omega)
  rw [wp_mbind] at key ⊢
  refine wp_mono key ?_
  intro _ h2 h3
  rw [wp_mbind]
  refine wp_mono h3 ?_
  rintro _ h4 ⟨H, Fr⟩
  rw [wp_pure]
  refine ⟨fun im j c i hj hc hi => ?_, ?_, fun im => by cases im <;> rfl⟩
  · exact H im j c i hj hc hi
  · refine from_trans (From.refl _ _) Fr (fun q hq => hq) (fun q hq => ?_)
    rw [← eN1, ← eN2] at hq
    rcases hq with h1 | h1
    · obtain ⟨h2, h3⟩ := reg2_room h1
      exact ⟨h2, by omega⟩
    · obtain ⟨h2, h3⟩ := reg2_room h1
      exact ⟨h2, by omega⟩

/-- one component of the output of three-centre integrals -/
theorem spSsc_writes {V : Nat → Nat → Nat → Nat → Nat → Nat → α} {ls nctrs nfo nd : Nat → Nat} {nComp nT n buf size fpd : Nat}
    {out dims : Ptr} {tab : JTab} {kd : SpKind} {ki kj : Int} {nf : Nat}
    (hs : Sizes 3 nfo nctrs nd) (hf : 0 < fpd) (hn : n < nT) (hc : nComp = SpKind.e1 kd * nT) (hob : out.buf ≠ buf)
    (hbl : blkLen ls = ncart (ls 0) * ncart (ls 2) * ncart (ls 1)) (hnf : nf = blkLen ls)
    (h0 : nfo 0 = lenSpinorC2S ki (ls 0)) (h1 : nfo 1 = lenSpinorC2S kj (ls 1)) (h2 : nfo 2 = lenCart (ls 2))
    (hli : ls 0 < 13) (hlj : ls 1 < 13)
    (hfree : blkLen ls * nctrOf nctrs * nComp + ncart (ls 0)*ncart (ls 2)*ncart (ls 1)*28 ≤ size) :
    Writes (WBuf buf (blkLen ls * nctrOf nctrs * nComp))
      (ZOk (fun h => TabArg h tab buf out) 3 nd (fun t => nfo t * nctrs t) nT out dims buf size (blkLen ls * nctrOf nctrs * nComp)
        (ctrOf V ls nctrs))
      (c2sZ3c (shapeOf nfo nctrs nf)
        (spTransSsc kd tab fpd (ls 0) (ls 1) (ls 2) ki kj (blkLen ls * nctrOf nctrs) buf (fpd*(blkLen ls * nctrOf nctrs * nComp)))
        (out + 2*(nd 0*nd 1*nd 2*nd 3)*n) ((⟨buf, 0⟩ : Ptr) + blkLen ls * nctrOf nctrs * SpKind.e1 kd * n) dims) (fun _ => True)
      (fun k : Zx => inOut (shapeOf nfo nctrs nf) k.2)
      (fun k => out + 2*(nd 0*nd 1*nd 2*nd 3)*n + posZ (nd 0) (nd 1) (nd 2) k)
      (fun k => part (spinC kd.si kd.ph ki kj (ls 0) (ls 1) (ls 2) (fun c x => V (n*SpKind.e1 kd + c) (k.2.1/nfo 0) (k.2.2.1/nfo 1)
        (k.2.2.2.1/nfo 2) (k.2.2.2.2/nfo 3) x) (k.2.1%nfo 0) (k.2.2.1%nfo 1) (k.2.2.2.1%nfo 2)) k.1) := by
  have hS := hs.shapeR nf
  obtain ⟨t3a, t3b, t3c⟩ := hs.trivial 3 (by omega) (by omega)
  let Y : Nat → Nat → Cx α := fun b m => spinC kd.si kd.ph ki kj (ls 0) (ls 1) (ls 2)
      (fun c x => ctrOf V ls nctrs (blkLen ls * nctrOf nctrs * (n*SpKind.e1 kd + c) + b*blkLen ls + x))
      (m % nfo 0) (m / nfo 0 / nfo 2) (m / nfo 0 % nfo 2)
  have hW := c2sZ3c_writes (S := shapeOf nfo nctrs nf) (ni := nd 0) (nj := nd 1) (nk := nd 2)
      (trans := spTransSsc kd tab fpd (ls 0) (ls 1) (ls 2) ki kj (blkLen ls * nctrOf nctrs) buf (fpd*(blkLen ls * nctrOf nctrs * nComp)))
      (gctr := (⟨buf, 0⟩ : Ptr) + blkLen ls * nctrOf nctrs * SpKind.e1 kd * n) (out := out + 2*(nd 0*nd 1*nd 2*nd 3)*n) (dims := dims)
      (W := WBuf buf (blkLen ls * nctrOf nctrs * nComp))
      (ok := fun h => ZOk (fun h => TabArg h tab buf out) 3 nd (fun t => nfo t * nctrs t) nT out dims buf size
        (blkLen ls * nctrOf nctrs * nComp) (ctrOf V ls nctrs) h ∧ True)
      (Y := Y) ⟨hS.pos, hS.hni, hS.hnj, hS.hnk, ?_, ?_, ?_⟩ t3b t3a
      (fun h' hok => ⟨hok.1.dim 0 (by omega), hok.1.dim 1 (by omega), hok.1.dim 2 (by omega)⟩)
  · have hval : ∀ k : Zx, inOut (shapeOf nfo nctrs nf) k.2 →
        Y (blkNo (shapeOf nfo nctrs nf) k.2) (cellNo (shapeOf nfo nctrs nf) k.2) =
        spinC kd.si kd.ph ki kj (ls 0) (ls 1) (ls 2) (fun c x => V (n*SpKind.e1 kd + c) (k.2.1/nfo 0) (k.2.2.1/nfo 1)
        (k.2.2.2.1/nfo 2) (k.2.2.2.2/nfo 3) x) (k.2.1%nfo 0) (k.2.2.1%nfo 1) (k.2.2.2.1%nfo 2) := ?_
    · exact fun h2 hok => writes_val hW (fun k hk => congrArg (fun z => part z k.1) (hval k hk)) h2 ⟨hok, trivial⟩
    intro k hk
    have hp : k.2.1 % nfo 0 < nfo 0 := Nat.mod_lt _ (hs.nf_pos 0 (by omega))
    have hp2 : k.2.2.2.1 % nfo 2 < nfo 2 := Nat.mod_lt _ (hs.nf_pos 2 (by omega))
    have ec : cellNo (shapeOf nfo nctrs nf) k.2 = ((k.2.2.1%nfo 1)*nfo 2 + k.2.2.2.1%nfo 2)*nfo 0 + k.2.1%nfo 0 := by
      unfold cellNo posIklj shapeOf
      dsimp only
      rw [t3a, Nat.mod_one]
      ring
    show spinC _ _ _ _ _ _ _ _ (cellNo (shapeOf nfo nctrs nf) k.2 % nfo 0) (cellNo (shapeOf nfo nctrs nf) k.2 / nfo 0 / nfo 2)
      (cellNo (shapeOf nfo nctrs nf) k.2 / nfo 0 % nfo 2) = _
    rw [ec, (digit hp).1, (digit hp).2, (digit hp2).1, (digit hp2).2]
    refine spinor2_congr (fun t a b ha hb => congrArg Cx.ofR ?_)
    beta_reduce
    rw [ctrOf_blk V hk]
    rw [hbl]
    have h5 := radix_lt (radix_lt hb (lt_of_lt_of_eq hp2 h2)) ha
    calc _ < _ := h5
      _ = _ := by show ncart (ls 1) * ncart (ls 2) * ncart (ls 0) = _; ring
  · refine zTrans (fun h h' T A => T.keep A) hob hn (Nat.le_refl _) (fun _ _ _ _ => trivial) ?_
    intro b hb h3 hok _
    have key := spTransSsc_wp (k := kd) (ki := ki) (kj := kj) (n := blkLen ls * nctrOf nctrs)
        (goff := 0 + blkLen ls * nctrOf nctrs * SpKind.e1 kd * n + b*nf) (o := blkLen ls * nctrOf nctrs * nComp) (size := size)
        (x := fun c m => ctrOf V ls nctrs (blkLen ls * nctrOf nctrs * (n*SpKind.e1 kd + c) + b*blkLen ls + m)) hf hok.tab.holds hli hlj
        hok.tab.Rbuf hok.tab.Ibuf (fun k _ hk => hok.cache k hk) hfree (fun c hc' m hm => ?_)
    · refine wp_mono key ?_
      rintro t h' ⟨a1, a2, a3⟩
      refine ⟨fun im m hm => ?_, a2, a3⟩
      have hm2 : m < nfo 0 * (nfo 2 * nfo 1) := by
        have : (shapeOf nfo nctrs nf).di * (shapeOf nfo nctrs nf).dj * (shapeOf nfo nctrs nf).dk * (shapeOf nfo nctrs nf).dl =
            nfo 0 * (nfo 2 * nfo 1) := by
          show nfo 0 * nfo 1 * nfo 2 * nfo 3 = _
          rw [t3a]; ring
        rw [← this]; exact hm
      have q1 : m / nfo 0 < nfo 2 * nfo 1 := Nat.div_lt_of_lt_mul hm2
      have := a1 im (m/nfo 0/nfo 2) (m/nfo 0%nfo 2) (m%nfo 0) (by rw [← h1]; exact Nat.div_lt_of_lt_mul q1)
        (by rw [← h2]; exact Nat.mod_lt _ (hs.nf_pos 2 (by omega))) (by rw [← h0]; exact Nat.mod_lt _ (hs.nf_pos 0 (by omega)))
      rw [← h2, ← h0] at this
      rw [show (m/nfo 0/nfo 2*nfo 2 + m/nfo 0%nfo 2)*nfo 0 + m%nfo 0 = m by
        rw [Nat.div_add_mod', Nat.div_add_mod']] at this
      exact this
    rw [← hbl] at hm
    have hnc' : n*SpKind.e1 kd + c < nComp := by
      rw [hc, Nat.mul_comm (SpKind.e1 kd)]
      exact radix_lt hn hc'
    have h6 := ctr_lt (ls := ls) (nctrs := nctrs) hnc' hb hm
    rw [hnf]
    have e3 : 0 + blkLen ls * nctrOf nctrs * SpKind.e1 kd * n + b*blkLen ls + (c*(blkLen ls * nctrOf nctrs) + m) =
          0 + (blkLen ls * nctrOf nctrs * (n*SpKind.e1 kd + c) + b*blkLen ls + m) := by ring
    refine ⟨?_, by rw [e3, Nat.zero_add]; exact h6⟩
    rw [← hok.gctr _ h6]
    exact congrArg h3.D (congrArg (Ptr.mk buf) e3)
  · intro h2 hok k hk
    rw [Ptr.add_assoc]
    exact hok.1.out _ (inBlockZ_iff.2 ⟨n, k, hn, hk, rfl⟩)
  · have := cpZ_iklj (α := α) (S := shapeOf nfo nctrs nf) (ni := nd 0) (nj := nd 1) (nk := nd 2)
      (le_trans (Nat.le_mul_of_pos_right _ (hs.nctr_pos 0 (by omega))) hS.hni)
      (le_trans (Nat.le_mul_of_pos_right _ (hs.nctr_pos 1 (by omega))) hS.hnj)
      (le_trans (Nat.le_mul_of_pos_right _ (hs.nctr_pos 2 (by omega))) hS.hnk)
    rw [show (shapeOf nfo nctrs nf).dl = 1 from t3a] at this
    exact this

variable {X : Int2e α} {s : Call3 α}

/-- the sizes of the blocks -/
def Call3.nspC (s : Call3 α) (ki kj : Int) : Nat → Nat := four (lenSpinorC2S ki s.si.l) (lenSpinorC2S kj s.sj.l) (lenCart s.sk.l) 1

/-- CINT3c2e_spinor_drv -/
theorem drv3c2eSscSp_wp {V : Nat → Nat → Nat → Nat → Nat → α} {ret : Bool → Prop} {h : Heap α} {fpd buf size nT : Nat}
    {empty fl loc counts out : Ptr} {dims : Option Ptr} {nd : Nat → Nat}
    {tab : JTab} {kd : SpKind} {ki kj : Int} {loop : Ptr → Nat → Prog α Bool}
    (M : CallMem3 h fpd buf size empty fl loc counts) (hsize : cacheSize3c2eSp X s ≤ size)
    (hL : wp (loop ⟨buf, 0⟩ (fpd * ((s.env X).nf * s.nctr * X.nComp)))
      (Post3 X s V ret buf 0 empty fl loc (h.setI empty 1)) (h.setI empty 1))
    (hs : Sizes 3 (Call3.nspC s ki kj) (Call3.nctrs s) nd)
    (O : OutArgZ2 3 h nd (fun t => Call3.nspC s ki kj t * Call3.nctrs s t) nT out dims buf empty fl loc counts)
    (T : TabArg h tab buf out) (hc : X.nComp = SpKind.e1 kd * nT)
    (hli : s.si.l < 13) (hlj : s.sj.l < 13) :
    wp (drv3c2eSscSp X s loop (SpKind.e1 kd) nT kd tab ki kj fpd out dims buf 0 empty counts) (fun has h' =>
      (∀ n ic jc kc i j k, n < nT → ic < s.si.nctr → jc < s.sj.nctr → kc < s.sk.nctr →
        i < lenSpinorC2S ki s.si.l → j < lenSpinorC2S kj s.sj.l → k < lenCart s.sk.l →
        HoldsC h' out (outAt nd n (ic*lenSpinorC2S ki s.si.l+i) (jc*lenSpinorC2S kj s.sj.l+j) (kc*(lenCart s.sk.l)+k) 0)
          (spinC kd.si kd.ph ki kj s.si.l s.sj.l s.sk.l (fun c x => V (n*SpKind.e1 kd + c) ic jc kc x) i j k)) ∧
      (has = false → ∀ m, InBlock nd (fun t => Call3.nspC s ki kj t * Call3.nctrs s t) nT (m/2) → h'.D (out + m) = .val 0) ∧
      FrameZ h h' nd (fun t => Call3.nspC s ki kj t * Call3.nctrs s t) nT buf out empty fl loc counts ∧ ret has) h := by
  have hf := M.fpd_pos
  let di := lenSpinorC2S ki s.si.l
  let dj := lenSpinorC2S kj s.sj.l
  let dk := lenCart s.sk.l
  let ls := Call3.ls s
  let nctrs := Call3.nctrs s
  let nfo := Call3.nspC s ki kj
  let tot := blkLen ls * nctrOf nctrs * X.nComp
  have hnfE : (s.env X).nf = blkLen ls := nf_env3
  have hnc : (s.env X).nf * s.si.nctr * s.sj.nctr * s.sk.nctr = blkLen ls * nctrOf nctrs := by
    rw [hnfE, ← nctr_env3]
    unfold Call3.nctr
    ring
  have htot : (s.env X).nf * s.nctr * X.nComp = tot := by
    rw [hnfE, nctr_env3]
  have hblk : blkLen ls = ncart s.si.l * ncart s.sk.l * ncart s.sj.l := by
    rw [← hnfE]; rfl
  have hfree : tot + ncart s.si.l*ncart s.sk.l*ncart s.sj.l*28 ≤ size := by
    refine le_trans ?_ hsize
    unfold cacheSize3c2eSp
    dsimp only
    refine le_trans ?_ (le_max_right _ _)
    rw [hnc, hnfE, ← hblk]
    show tot + blkLen ls*28 ≤ tot + blkLen ls * 14 * 2
    omega
  unfold drv3c2eSscSp
  dsimp only
  rw [hnc, show blkLen ls * nctrOf nctrs * X.nComp = tot from rfl,
    show mallocD fpd buf 0 tot = (⟨buf, 0⟩, fpd * tot) from by
      have := mallocD_eq hf buf 0 tot; rw [Nat.zero_add] at this; exact this]
  dsimp only
  rw [htot] at hL
  refine front_wp (V := V3 V) (ls := ls) (nctrs := nctrs) (nComp := X.nComp) (buf := buf) (fl := fl) (loc := loc)
    (st := fun has => zOutStage 3 has nT (fun n out dims => c2sZ3c
      { ic := s.si.nctr, jc := s.sj.nctr, kc := s.sk.nctr, di := di, dj := dj, dk := dk, nf := (s.env X).nf }
      (spTransSsc kd tab fpd s.si.l s.sj.l s.sk.l ki kj (blkLen ls * nctrOf nctrs) buf (fpd*tot)) out
        ((⟨buf, 0⟩ : Ptr) + blkLen ls * nctrOf nctrs * SpKind.e1 kd * n) dims) out dims counts
      (fun t => four di dj dk 1 t * four s.si.nctr s.sj.nctr s.sk.nctr 1 t))
    M.emw (wp_mono hL fun _ _ => post3_postG) ?_
  rintro has h1 D ⟨hr, hret⟩
  let Z : Nat → Ix4 → Cx α := fun n k => spinC kd.si kd.ph ki kj s.si.l s.sj.l s.sk.l
    (fun c x => V (n*SpKind.e1 kd + c) (k.1/di) (k.2.1/dj) (k.2.2.1/dk) x) (k.1%di) (k.2.1%dj) (k.2.2.1%dk)
  have key := zOut (nd := nd) (nT := nT) (size := size) (counts := counts) (out := out) (dims := dims)
    (TAB := fun h => TabArg h tab buf out) (nfo := nfo) (Z := Z)
    (f := fun n out dims => c2sZ3c
      { ic := s.si.nctr, jc := s.sj.nctr, kc := s.sk.nctr, di := di, dj := dj, dk := dk, nf := (s.env X).nf }
      (spTransSsc kd tab fpd s.si.l s.sj.l s.sk.l ki kj (blkLen ls * nctrOf nctrs) buf (fpd*tot)) out
        ((⟨buf, 0⟩ : Ptr) + blkLen ls * nctrOf nctrs * SpKind.e1 kd * n) dims)
    D hs (s.env X).nf O M.countsw M.dbl T (fun h h' T A => T.keep A)
    (fun hb n k => spinor2_zero (fun c a b => by
      beta_reduce
      rw [hret hb]
      rfl)) ?_
  · refine wp_mono key ?_
    rintro _ h2 ⟨v, z, fr⟩
    refine ⟨fun n ic jc kc i j k hn p1 p2 p3 p4 p5 p6 => ?_, z, fr, hr⟩
    have := v n (ic*di+i) (jc*dj+j) (kc*dk+k) 0 hn (digit_lt p4 p1) (digit_lt p5 p2) (digit_lt p6 p3) Nat.one_pos
    have e : Z n (ic*di+i, jc*dj+j, kc*dk+k, 0) =
        spinC kd.si kd.ph ki kj s.si.l s.sj.l s.sk.l (fun c x => V (n*SpKind.e1 kd + c) ic jc kc x) i j k := by
      show spinC _ _ _ _ _ _ _ (fun c x => V (n*SpKind.e1 kd + c) ((ic*di+i)/di) ((jc*dj+j)/dj) ((kc*dk+k)/dk) x)
        ((ic*di+i)%di) ((jc*dj+j)%dj) ((kc*dk+k)%dk) = _
      rw [(digit p4).1, (digit p4).2, (digit p5).1, (digit p5).2, (digit p6).1, (digit p6).2]
    rw [e] at this
    exact this
  · intro n hn
    exact spSsc_writes (V := V3 V) (ls := ls) (nctrs := nctrs) (nfo := nfo) (nd := nd) (nComp := X.nComp) (nT := nT)
      (n := n) (buf := buf) (size := size) (fpd := fpd) (out := out) (dims := dims.getD counts) (tab := tab) (kd := kd) (ki := ki)
      (kj := kj) (nf := (s.env X).nf) hs hf hn hc O.h_obuf hblk hnfE rfl rfl rfl hli hlj hfree

end Verif.Lemmas
