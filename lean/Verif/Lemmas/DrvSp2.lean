import Verif.Lemmas.ZGen
import Verif.Lemmas.Drv2c

/-! CINT2c2e_spinor_drv. -/
namespace Verif.Lemmas
open Verif Verif.Model Verif.Prog Verif.Props Verif.Spec

variable {α : Type} [Field α] [LinearOrder α]

theorem TabArg.keep {h h' : Heap α} {tab : JTab} {buf : Nat} {out : Ptr} (T : TabArg h tab buf out)
    (hA : AgreeD h h' (fun q => q.buf = buf ∨ q.buf = out.buf)) : TabArg h' tab buf out := by
  refine ⟨holdsJ_agree T.holds hA ?_ ?_, T.Rbuf, T.Ibuf, T.Rout, T.Iout⟩
  · rintro q (hq | hq) <;> rw [hq]
    · exact T.Rbuf.symm
    · exact T.Rout.symm
  · rintro q (hq | hq) <;> rw [hq]
    · exact T.Ibuf.symm
    · exact T.Iout.symm

theorem writes_val {ι β : Type} {W : Ptr → Prop} {ok : Heap α → Prop} {f : Prog α β} {r : β → Prop} {P : ι → Prop} {addr : ι → Ptr}
    {v v' : ι → α} (H : Writes W ok f r P addr v) (e : ∀ k, P k → v k = v' k) : Writes W ok f r P addr v' :=
  fun h hok => wp_mono (H h hok) fun _ _ hw => ⟨hw.1, hw.2.congr (fun _ => Iff.rfl) (fun k hk => (e k hk).symm)⟩

/-- one component of the output of two-centre integrals -/
theorem sp1e_writes {V : Nat → Nat → Nat → Nat → Nat → Nat → α} {ls nctrs nfo nd : Nat → Nat} {nComp nT n buf size fpd : Nat}
    {out dims : Ptr} {tab : JTab} {kd : SpKind} {ki kj : Int} {nf : Nat}
    (hs : Sizes 2 nfo nctrs nd) (hf : 0 < fpd) (hn : n < nT) (hc : nComp = SpKind.e1 kd * nT) (hob : out.buf ≠ buf)
    (hbl : blkLen ls = ncart (ls 0) * ncart (ls 1)) (hnf : nf = blkLen ls)
    (h0 : nfo 0 = lenSpinorC2S ki (ls 0)) (h1 : nfo 1 = lenSpinorC2S kj (ls 1))
    (hli : ls 0 < 13) (hlj : ls 1 < 13) (hfree : blkLen ls * nctrOf nctrs * nComp + ncart (ls 0)*ncart (ls 1)*16 ≤ size) :
    Writes (WBuf buf (blkLen ls * nctrOf nctrs * nComp))
      (ZOk (fun h => TabArg h tab buf out) 2 nd (fun t => nfo t * nctrs t) nT out dims buf size (blkLen ls * nctrOf nctrs * nComp)
        (ctrOf V ls nctrs))
      (c2sZ1e (shapeOf nfo nctrs nf)
        (spTrans1e kd tab fpd (ls 0) (ls 1) ki kj (blkLen ls * nctrOf nctrs) buf (fpd*(blkLen ls * nctrOf nctrs * nComp)))
        (out + 2*(nd 0*nd 1*nd 2*nd 3)*n) ((⟨buf, 0⟩ : Ptr) + blkLen ls * nctrOf nctrs * SpKind.e1 kd * n) dims) (fun _ => True)
      (fun k : Zx => inOut (shapeOf nfo nctrs nf) k.2)
      (fun k => out + 2*(nd 0*nd 1*nd 2*nd 3)*n + posZ (nd 0) (nd 1) (nd 2) k)
      (fun k => part (spinor2 kd.si kd.ph ki kj (ls 0) (ls 1) (fun c a b => Cx.ofR (V (n*SpKind.e1 kd + c) (k.2.1/nfo 0) (k.2.2.1/nfo 1)
        (k.2.2.2.1/nfo 2) (k.2.2.2.2/nfo 3) (b*ncart (ls 0)+a))) (k.2.1%nfo 0) (k.2.2.1%nfo 1)) k.1) := by
  have hS := hs.shapeR nf
  obtain ⟨t2a, t2b, t2c⟩ := hs.trivial 2 (by omega) (by omega)
  obtain ⟨t3a, t3b, t3c⟩ := hs.trivial 3 (by omega) (by omega)
  let Y : Nat → Nat → Cx α := fun b m => spinor2 kd.si kd.ph ki kj (ls 0) (ls 1)
      (fun c a b' => Cx.ofR (ctrOf V ls nctrs (blkLen ls * nctrOf nctrs * (n*SpKind.e1 kd + c) + b*blkLen ls + (b'*ncart (ls 0)+a))))
      (m % nfo 0) (m / nfo 0)
  have hW := c2sZ1e_writes (S := shapeOf nfo nctrs nf) (ni := nd 0) (nj := nd 1) (nk := nd 2) (nj0 := nd 1)
      (trans := spTrans1e kd tab fpd (ls 0) (ls 1) ki kj (blkLen ls * nctrOf nctrs) buf (fpd*(blkLen ls * nctrOf nctrs * nComp)))
      (gctr := (⟨buf, 0⟩ : Ptr) + blkLen ls * nctrOf nctrs * SpKind.e1 kd * n) (out := out + 2*(nd 0*nd 1*nd 2*nd 3)*n) (dims := dims)
      (W := WBuf buf (blkLen ls * nctrOf nctrs * nComp))
      (ok := fun h => ZOk (fun h => TabArg h tab buf out) 2 nd (fun t => nfo t * nctrs t) nT out dims buf size
        (blkLen ls * nctrOf nctrs * nComp) (ctrOf V ls nctrs) h ∧ True)
      (Y := Y) ⟨hS.pos, hS.hni, hS.hnj, hS.hnk, ?_, ?_, ?_⟩ t2b t3b t2a t3a
      (fun h' hok => ⟨hok.1.dim 0 (by omega), hok.1.dim 1 (by omega)⟩)
  · have hval : ∀ k : Zx, inOut (shapeOf nfo nctrs nf) k.2 →
        Y (blkNo (shapeOf nfo nctrs nf) k.2) (cellNo (shapeOf nfo nctrs nf) k.2) =
        spinor2 kd.si kd.ph ki kj (ls 0) (ls 1) (fun c a b => Cx.ofR (V (n*SpKind.e1 kd + c) (k.2.1/nfo 0) (k.2.2.1/nfo 1)
        (k.2.2.2.1/nfo 2) (k.2.2.2.2/nfo 3) (b*ncart (ls 0)+a))) (k.2.1%nfo 0) (k.2.2.1%nfo 1) := ?_
    · exact fun h2 hok => writes_val hW (fun k hk => congrArg (fun z => part z k.1) (hval k hk)) h2 ⟨hok, trivial⟩
    intro k hk
    have hp : k.2.1 % nfo 0 < nfo 0 := Nat.mod_lt _ (hs.nf_pos 0 (by omega))
    have ec : cellNo (shapeOf nfo nctrs nf) k.2 = (k.2.2.1%nfo 1)*nfo 0 + k.2.1%nfo 0 := by
      unfold cellNo posIklj shapeOf
      dsimp only
      rw [t2a, t3a, Nat.mod_one, Nat.mod_one]
      ring
    show spinor2 _ _ _ _ _ _ _ (cellNo (shapeOf nfo nctrs nf) k.2 % nfo 0) (cellNo (shapeOf nfo nctrs nf) k.2 / nfo 0) = _
    rw [ec, (digit hp).1, (digit hp).2]
    unfold spinor2
    congr 1
    refine Finset.sum_congr rfl fun a ha => Finset.sum_congr rfl fun b hb => ?_
    have hx : b * ncart (ls 0) + a < blkLen ls := by
      rw [hbl, Nat.mul_comm (ncart (ls 0))]
      exact radix_lt (Finset.mem_range.1 hb) (Finset.mem_range.1 ha)
    refine Finset.sum_congr rfl fun p _ => Finset.sum_congr rfl fun q _ => ?_
    have e5 : ∀ c, _ := fun c => ctrOf_blk V (n := n*SpKind.e1 kd + c) hk hx
    simp only [e5]
  · have e32 : (shapeOf nfo nctrs nf).di * (shapeOf nfo nctrs nf).dj *
          (shapeOf nfo nctrs nf).dk * (shapeOf nfo nctrs nf).dl = nfo 0 * lenSpinorC2S kj (ls 1) := by
      show nfo 0 * nfo 1 * nfo 2 * nfo 3 = _
      rw [t2a, t3a, h1, Nat.mul_one, Nat.mul_one]
    rw [e32]
    refine zTrans (fun h h' T A => T.keep A) hob hn (Nat.le_refl _) (fun _ _ _ _ => trivial) ?_
    intro b hb h2 hok _
    have key := spTrans1e_wp (k := kd) (ki := ki) (kj := kj) (n := blkLen ls * nctrOf nctrs)
        (goff := 0 + blkLen ls * nctrOf nctrs * SpKind.e1 kd * n + b*nf) (o := blkLen ls * nctrOf nctrs * nComp) (size := size)
        (x := fun c m => ctrOf V ls nctrs (blkLen ls * nctrOf nctrs * (n*SpKind.e1 kd + c) + b*blkLen ls + m)) hf hok.tab.holds hli hlj
        hok.tab.Rbuf hok.tab.Ibuf (fun k _ hk => hok.cache k hk) hfree (fun c hc' m hm => ?_)
    · rw [← h0] at key
      exact key
    rw [← hbl] at hm
    have hnc' : n*SpKind.e1 kd + c < nComp := by
      rw [hc, Nat.mul_comm (SpKind.e1 kd)]
      exact radix_lt hn hc'
    have h6 := ctr_lt (ls := ls) (nctrs := nctrs) hnc' hb hm
    rw [hnf]
    have e3 : 0 + blkLen ls * nctrOf nctrs * SpKind.e1 kd * n + b*blkLen ls + (c*(blkLen ls * nctrOf nctrs) + m) =
          0 + (blkLen ls * nctrOf nctrs * (n*SpKind.e1 kd + c) + b*blkLen ls + m) := by ring
    refine ⟨?_, by rw [e3, Nat.zero_add]; exact h6⟩
    rw [← hok.gctr _ h6]
    exact congrArg h2.D (congrArg (Ptr.mk buf) e3)
  · intro h2 hok k hk
    rw [Ptr.add_assoc]
    exact hok.1.out _ (inBlockZ_iff.2 ⟨n, k, hn, hk, rfl⟩)
  · refine cpZ_ij ?_ t2a t3a
    exact le_trans (Nat.le_mul_of_pos_right _ (hs.nctr_pos 0 (by omega))) hS.hni

variable {K : Consts α} {X : Int2e α} {s : Call2c α} {keep : Nat → Nat → Bool} {w : Nat → Nat → Nat → α}

theorem post2c_postG {buf : Nat} {empty fl loc : Ptr} {h h' : Heap α} {res : Bool}
    (H : Post2c K X s keep w buf 0 empty fl loc h res h') :
    PostG (V2c K X s keep w) (fun r => r = true ↔ loopAny2c s keep) (Call2c.ls s) (Call2c.nctrs s) X.nComp buf empty fl loc
      h res h' := by
  obtain ⟨a, b, c, d, e⟩ := H
  refine ⟨a, fun hr => ?_, fun hr m => ?_, c, d, e⟩
  · rw [← nf_env2c (X := X), ← nctr_env2c]
    have := b hr
    unfold ctrOf
    rw [← nf_env2c (X := X)]
    exact this
  · unfold ctrOf ctrVal
    exact loopVal2c_empty (fun x => by rw [e.2 x] at hr; cases hr) _ _ _ _

/-- the values of the two-centre integrals with spinor functions -/
def spin2c (K : Consts α) (X : Int2e α) (s : Call2c α) (keep : Nat → Nat → Bool) (w : Nat → Nat → Nat → α) (kd : SpKind)
    (ki kk : Int) (n ic kc i k : Nat) : Cx α :=
  spinor2 kd.si kd.ph ki kk s.si.l s.sk.l (fun c a b => Cx.ofR (loopVal2c K X s keep w (n+c) ic kc (b*ncart s.si.l+a))) i k

theorem drv2c2eSp_wp {h : Heap α} {fpd buf size : Nat} {empty fl loc counts out : Ptr} {dims : Option Ptr} {nd : Nat → Nat}
    {tab : JTab} {kd : SpKind} {ki kk : Int} {loop : Ptr → Nat → Prog α Bool}
    (M : CallMem3 h fpd buf size empty fl loc counts) (hsize : cacheSize2c2e X s ≤ size)
    (hL : wp (loop ⟨buf, 0⟩ (fpd * ((s.env X).nf * (s.si.nctr * s.sk.nctr) * X.nComp)))
      (Post2c K X s keep w buf 0 empty fl loc (h.setI empty 1)) (h.setI empty 1))
    (hs : Sizes 2 (four (lenSpinorC2S ki s.si.l) (lenSpinorC2S kk s.sk.l) 1 1) (Call2c.nctrs s) nd)
    (O : OutArgZ2 2 h nd (fun t => four (lenSpinorC2S ki s.si.l) (lenSpinorC2S kk s.sk.l) 1 1 t * Call2c.nctrs s t) X.nComp out dims
      buf empty fl loc counts)
    (T : TabArg h tab buf out) (hkd : kd.si = false) (hli : s.si.l < 13) (hlk : s.sk.l < 13) :
    wp (drv2c2eSp X s loop kd tab ki kk fpd out dims buf 0 empty counts) (fun has h' =>
      (∀ n ic kc i k, n < X.nComp → ic < s.si.nctr → kc < s.sk.nctr → i < lenSpinorC2S ki s.si.l → k < lenSpinorC2S kk s.sk.l →
        HoldsC h' out (outAt nd n (ic*lenSpinorC2S ki s.si.l+i) (kc*lenSpinorC2S kk s.sk.l+k) 0 0)
          (spin2c K X s keep w kd ki kk n ic kc i k)) ∧
      (has = false → ∀ m, InBlock nd (fun t => four (lenSpinorC2S ki s.si.l) (lenSpinorC2S kk s.sk.l) 1 1 t *
        Call2c.nctrs s t) X.nComp (m/2) → h'.D (out + m) = .val 0) ∧
      FrameZ h h' nd (fun t => four (lenSpinorC2S ki s.si.l) (lenSpinorC2S kk s.sk.l) 1 1 t * Call2c.nctrs s t) X.nComp
        buf out empty fl loc counts ∧
      (has = true ↔ loopAny2c s keep)) h := by
  have hf := M.fpd_pos
  let di := lenSpinorC2S ki s.si.l
  let dk := lenSpinorC2S kk s.sk.l
  let ls := Call2c.ls s
  let nctrs := Call2c.nctrs s
  let nfo : Nat → Nat := four di dk 1 1
  let tot := blkLen ls * nctrOf nctrs * X.nComp
  have hnfE : (s.env X).nf = blkLen ls := nf_env2c
  have hnc : (s.env X).nf * s.si.nctr * s.sk.nctr = blkLen ls * nctrOf nctrs := by
    rw [hnfE, Nat.mul_assoc, nctr_env2c]
  have htot : (s.env X).nf * (s.si.nctr * s.sk.nctr) * X.nComp = tot := by
    rw [← Nat.mul_assoc, hnc]
  have hblk : blkLen ls = ncart s.si.l * ncart s.sk.l := by
    rw [← hnfE]; rfl
  have hfree : tot + ncart s.si.l*ncart s.sk.l*16 ≤ size := by
    refine le_trans ?_ hsize
    unfold cacheSize2c2e
    dsimp only
    refine le_trans ?_ (le_max_right _ _)
    rw [hnc, hnfE, ← hblk]
    show tot + blkLen ls*16 ≤ tot + blkLen ls * 8 * 2
    omega
  have he1 : SpKind.e1 kd = 1 := by unfold SpKind.e1; rw [hkd]; rfl
  unfold drv2c2eSp
  dsimp only
  rw [hnc, show blkLen ls * nctrOf nctrs * X.nComp = tot from rfl,
    show mallocD fpd buf 0 tot = (⟨buf, 0⟩, fpd * tot) from by
      have := mallocD_eq hf buf 0 tot; rw [Nat.zero_add] at this; exact this]
  dsimp only
  rw [htot] at hL
  refine front_wp (V := V2c K X s keep w) (ls := ls) (nctrs := nctrs) (nComp := X.nComp) (buf := buf) (fl := fl) (loc := loc)
    (st := fun has => zOutStage 2 has X.nComp (fun n out dims => c2sZ1e
      { ic := s.si.nctr, jc := s.sk.nctr, di := di, dj := dk, nf := (s.env X).nf }
      (spTrans1e kd tab fpd s.si.l s.sk.l ki kk (blkLen ls * nctrOf nctrs) buf (fpd*tot)) out
        ((⟨buf, 0⟩ : Ptr) + blkLen ls * nctrOf nctrs * n) dims) out dims counts
      (fun t => four di dk 1 1 t * four s.si.nctr s.sk.nctr 1 1 t))
    M.emw (wp_mono hL fun _ _ => post2c_postG) ?_
  intro has h1 D hret
  let Z : Nat → Ix4 → Cx α := fun n k => spinor2 kd.si kd.ph ki kk s.si.l s.sk.l
    (fun c a b => Cx.ofR (V2c K X s keep w (n+c) (k.1/di) (k.2.1/dk) (k.2.2.1/1) (k.2.2.2/1) (b*ncart s.si.l+a))) (k.1%di) (k.2.1%dk)
  have key := zOut (nd := nd) (nT := X.nComp) (size := size) (counts := counts) (out := out) (dims := dims)
    (TAB := fun h => TabArg h tab buf out) (nfo := nfo) (Z := Z)
    (f := fun n out dims => c2sZ1e
      { ic := s.si.nctr, jc := s.sk.nctr, di := di, dj := dk, nf := (s.env X).nf }
      (spTrans1e kd tab fpd s.si.l s.sk.l ki kk (blkLen ls * nctrOf nctrs) buf (fpd*tot)) out
        ((⟨buf, 0⟩ : Ptr) + blkLen ls * nctrOf nctrs * n) dims) D hs (s.env X).nf O M.countsw M.dbl T (fun h h' T A => T.keep A)
    (fun hb n k => spinor2_zero (fun c a b => by
      show Cx.ofR (V2c K X s keep w (n+c) _ _ _ _ _) = 0
      unfold V2c
      rw [loopVal2c_empty (fun x => by rw [hret.2 x] at hb; cases hb)]; rfl)) ?_
  · refine wp_mono key ?_
    rintro _ h2 ⟨v, z, fr⟩
    refine ⟨fun n ic kc i k hn p1 p2 p3 p4 => ?_, z, fr, hret⟩
    have := v n (ic*di+i) (kc*dk+k) 0 0 hn (digit_lt p3 p1) (digit_lt p4 p2) Nat.one_pos Nat.one_pos
    have e : Z n (ic*di+i, kc*dk+k, 0, 0) = spin2c K X s keep w kd ki kk n ic kc i k := by
      show spinor2 _ _ _ _ _ _ (fun c a b => Cx.ofR (V2c K X s keep w (n+c) ((ic*di+i)/di) ((kc*dk+k)/dk) _ _ _)) ((ic*di+i)%di) ((kc*dk+k)%dk) = _
      rw [(digit p3).1, (digit p3).2, (digit p4).1, (digit p4).2]
      rfl
    rw [e] at this
    exact this
  · intro n hn
    have := sp1e_writes (V := V2c K X s keep w) (ls := ls) (nctrs := nctrs) (nfo := nfo) (nd := nd) (nComp := X.nComp) (nT := X.nComp)
      (n := n) (buf := buf) (size := size) (fpd := fpd) (out := out) (dims := dims.getD counts) (tab := tab) (kd := kd) (ki := ki) (kj := kk)
      (nf := (s.env X).nf) hs hf hn (by rw [he1, Nat.one_mul]) O.h_obuf hblk hnfE rfl rfl hli hlk hfree
    rw [he1, Nat.mul_one, Nat.mul_one] at this
    exact this

end Verif.Lemmas
