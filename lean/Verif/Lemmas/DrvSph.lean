import Verif.Lemmas.DrvOut
import Verif.Lemmas.SphBlock

/-! CINT1e_drv with spherical output. -/
namespace Verif.Lemmas
open Verif Verif.Model Verif.Prog Verif.Props Verif.Spec

variable {α : Type} [Field α] [LinearOrder α]

/-- the digits of a position in the array of contracted integrals -/
theorem ctr_digits {nf ni nj n ic jc x : Nat} (hx : x < nf) (hic : ic < ni) (hjc : jc < nj) :
    let m := nf*ni*nj*n + (jc*ni+ic)*nf + x
    m / (nf*(ni*nj)) = n ∧ m % (nf*(ni*nj)) / nf % ni = ic ∧ m % (nf*(ni*nj)) / nf / ni = jc ∧ m % nf = x := by
  intro m
  have hb : jc * ni + ic < nj * ni := radix_lt hjc hic
  have hy : (jc*ni+ic)*nf + x < nf*(ni*nj) := by
    have e : nf*(ni*nj) = nj*ni*nf := by ring
    rw [e]; exact radix_lt hb hx
  have hm : m = nf*(ni*nj)*n + ((jc*ni+ic)*nf + x) := by
    show nf*ni*nj*n + (jc*ni+ic)*nf + x = _
    ring
  have q2 : m % (nf*(ni*nj)) = (jc*ni+ic)*nf + x := by rw [hm, Nat.mul_add_mod, Nat.mod_eq_of_lt hy]
  refine ⟨?_, ?_, ?_, ?_⟩
  · rw [hm, Nat.mul_add_div (by omega), Nat.div_eq_of_lt hy]; omega
  · rw [q2, (digit hx).1, (digit hic).2]
  · rw [q2, (digit hx).1, (digit hic).1]
  · have : m = nf*(ni*nj*n + (jc*ni+ic)) + x := by
      show nf*ni*nj*n + (jc*ni+ic)*nf + x = _
      ring
    rw [this, Nat.mul_add_mod, Nat.mod_eq_of_lt hx]

/-- Spherical output -/
theorem drv1e_sph {K : Consts α} {L : MathLib α} {X : Int1e α} {s : Call α} {w : Nat → Nat → Nat → α}
    {h : Heap α} {fpd buf size : Nat} {fl loc counts out tab : Ptr} {dims : Option Ptr} {nd : Nat → Nat}
    (M : CallMem h fpd buf size fl loc counts) (hsize : cacheSize1e X s ≤ size)
    (hs : Sizes 2 (two (s.si.l*2+1) (s.sj.l*2+1)) (two s.si.nctr s.sj.nctr) nd)
    (O : OutArg h nd (fun t => two (s.si.l*2+1) (s.sj.l*2+1) t * two s.si.nctr s.sj.nctr t) X.nComp out dims
      buf fl loc counts)
    (hT : HoldsTab h tab) (htb : tab.buf ≠ buf) (hto : out.buf ≠ tab.buf)
    (hK : EvalOK K L X s w) (hnc : 1 ≤ X.nComp) (hli : s.si.l ≤ 15) (hlj : s.sj.l ≤ 15) :
    ∃ has h', run (drv1e X s K L fpd (sphTrans1e tab fpd s.si.l s.sj.l) (two (s.si.l*2+1) (s.sj.l*2+1)) out dims
        buf 0 fl loc counts) h = some (has, h') ∧
      (∀ n ic jc i j, n < X.nComp → ic < s.si.nctr → jc < s.sj.nctr → i < s.si.l*2+1 → j < s.sj.l*2+1 →
        h'.D (out + outAt nd n (ic*(s.si.l*2+1)+i) (jc*(s.sj.l*2+1)+j) 0 0) =
          .val (sph2 s.si.l s.sj.l (fun x => loopVal K L X s w n ic jc x) i j)) ∧
      (has = false → ∀ m, InBlock nd (fun t => two (s.si.l*2+1) (s.sj.l*2+1) t * two s.si.nctr s.sj.nctr t) X.nComp m →
        h'.D (out + m) = .val 0) ∧
      (∀ q, q.buf ≠ buf → (∀ m, InBlock nd (fun t => two (s.si.l*2+1) (s.sj.l*2+1) t *
        two s.si.nctr s.sj.nctr t) X.nComp m → q ≠ out + m) → h'.D q = h.D q) ∧
      (∀ q, q.buf ≠ buf → q.buf ≠ fl.buf → q.buf ≠ loc.buf → q.buf ≠ counts.buf → h'.I q = h.I q) ∧
      (has = true ↔ loopAny L X s) := by
  let nf := (s.env X).nf
  have hnf : nf = ncart s.si.l * ncart s.sj.l := rfl
  let nc := nf * s.si.nctr * s.sj.nctr
  have hfree : nc * X.nComp + ncart s.si.l * (s.sj.l*2+1) * 2 ≤ size := by
    refine le_trans ?_ hsize
    unfold cacheSize1e
    refine le_trans ?_ (le_max_right _ _)
    have h1 : ncart s.si.l * (s.sj.l*2+1) ≤ nf := by rw [hnf]; exact Nat.mul_le_mul_left _ (nd_le_ncart _)
    show nc * X.nComp + _ ≤ nc * X.nComp + nf * 8 * 2
    omega
  obtain ⟨has, h', hr, hv, hz, hD, hI, hret⟩ := drv1e_run (trans := sphTrans1e tab fpd s.si.l s.sj.l)
    (Y := fun V n b m => sph2 s.si.l s.sj.l (fun x => V (nc*n + b*nf + x)) (m % (s.si.l*2+1)) (m / (s.si.l*2+1)))
    (E := fun h' => HoldsTab h' tab) (OutP := fun q => q.buf ≠ buf ∧ q.buf ≠ tab.buf) M hsize hs O hK hnc hli hlj (by
      intro V n hn
      have hlt : ∀ b m, b < s.sj.nctr * s.si.nctr → m < nf → nc*n + b*nf + m < nc * X.nComp := by
        intro b m hb hm
        have e : nc = s.sj.nctr*s.si.nctr*nf := by
          show nf * s.si.nctr * s.sj.nctr = _; ring
        have h5 : b*nf + m < s.sj.nctr*s.si.nctr*nf := radix_lt hb hm
        rw [← e] at h5
        have := radix_lt hn h5
        rw [Nat.mul_comm nc n, Nat.mul_comm nc, Nat.add_assoc]; exact this
      refine ⟨fun b hb h2 hok => ?_, fun h2 h3 hok hA hM hI' => ?_, fun q hw ho => ho.1 hw.1⟩
      · have hp : 0 < nf := by rw [hnf]; exact Nat.mul_pos (ncart_pos _) (ncart_pos _)
        have S : Stg h2 tab buf (nc * X.nComp) size h2 ((⟨buf, 0⟩ : Ptr) + nc*n + b*nf) (ncart s.si.l * ncart s.sj.l)
            (fun x => V (nc*n + b*nf + x)) (nc * X.nComp) := by
          refine ⟨hok.1, fun m hm => ?_, rfl, ?_, AgreeD.refl _ _, rfl, hok.2.2⟩
          · rw [← hok.2.1 _ (hlt b m hb hm)]
            simp only [Ptr.add_assoc, Nat.add_assoc]
          · have := hlt b (nf-1) hb (by omega)
            show 0 + nc*n + b*nf + nf ≤ nc * X.nComp
            omega
        refine wp_mono (sphTrans1e_wp M.fpd_pos (by omega) (by omega) htb S hfree) ?_
        intro tmp h3 S3
        exact ⟨S3.val, S3.agree, S3.int, fun m _ ho => ho.1 (S3.rbuf)⟩
      · refine ⟨holdsTab_agree hok.1 hA ?_, ?_, fun k hk => hM _ (hok.2.2 k hk)⟩
        · rintro q (⟨hw, _⟩ | hq)
          · rw [hw]; exact htb.symm
          · exact hq.2
        · refine hok.2.1.agree hA (fun i hi => ?_)
          rintro (⟨_, hq⟩ | hq)
          · have : nc * X.nComp ≤ 0 + i := hq
            have : i < nc * X.nComp := hi
            omega
          · exact hq.1 rfl)
    (fun h' hq l hl x hx => by
      rw [hq (tab + c2sOff.getD l 0 + x) htb]
      exact hT l hl x hx)
    (fun m _ => ⟨O.h_obuf, hto⟩)
    (fun V hV n b m => by
      unfold sph2
      simp [hV])
  refine ⟨has, h', hr, ?_, hz, hD, hI, hret⟩
  intro n ic jc i j hn h1 h2 h3 h4
  rw [hv n ic jc i j hn h1 h2 h3 h4]
  congr 1
  rw [(digit h3).1, (digit h3).2]
  unfold sph2
  refine Finset.sum_congr rfl fun a ha => Finset.sum_congr rfl fun b hb => ?_
  have hx : b * ncart s.si.l + a < nf := by
    rw [hnf, Nat.mul_comm (ncart s.si.l)]
    exact radix_lt (Finset.mem_range.1 hb) (Finset.mem_range.1 ha)
  obtain ⟨e1, e2, e3, e4⟩ := ctr_digits (n := n) hx h1 h2
  beta_reduce
  congr 1
  show loopVal K L X s w ((nc*n + (jc*s.si.nctr+ic)*nf + (b * ncart s.si.l + a)) / (nf * (s.si.nctr * s.sj.nctr)))
    ((nc*n + (jc*s.si.nctr+ic)*nf + (b * ncart s.si.l + a)) % (nf * (s.si.nctr * s.sj.nctr)) / nf % s.si.nctr)
    ((nc*n + (jc*s.si.nctr+ic)*nf + (b * ncart s.si.l + a)) % (nf * (s.si.nctr * s.sj.nctr)) / nf / s.si.nctr)
    ((nc*n + (jc*s.si.nctr+ic)*nf + (b * ncart s.si.l + a)) % nf) = _
  rw [e1, e2, e3, e4]

end Verif.Lemmas
