import Verif.Lemmas.GridsDrv

/-! The two kinds of output of CINT1e_grids_drv: Cartesian and spherical functions. -/
namespace Verif.Lemmas
open Verif Verif.Model Verif.Prog Verif.Props Verif.Spec

variable {α : Type} [Field α] [LinearOrder α]

theorem gpos_block (X : IntG α) (s : CallG α) {t r n N x : Nat} (hr : r < bgrids s.ngrids (104*t)) :
    dijG X s * s.ngrids * n + (104*t*(s.sj.nctr*s.si.nctr*(s.envG X).nf) + N*(bgrids s.ngrids (104*t)*(s.envG X).nf))
      + (x*bgrids s.ngrids (104*t) + r) =
    gpos s.ngrids (dijG X s) (104*((104*t+r)/104)) n (N*(s.envG X).nf+x) ((104*t+r)%104) := by
  have h104 := (bgrids_lt hr).2
  have e1 : (104*t+r)/104 = t := by omega
  have e2 : (104*t+r)%104 = r := by omega
  rw [e1, e2]
  unfold gpos dijG
  ring

/-- the numbers of a block in the cache -/
theorem GHolds.block {X : IntG α} {s : CallG α} {h : Heap α} {g : Ptr} {V : Nat → Nat → Nat → α}
    (H : GHolds X s h g V) {t r n N x : Nat} (hr : r < bgrids s.ngrids (104*t)) (hn : n < X.nComp)
    (hN : N < s.sj.nctr*s.si.nctr) (hx : x < (s.envG X).nf) :
    h.D (g + dijG X s * s.ngrids * n + (104*t*(s.sj.nctr*s.si.nctr*(s.envG X).nf) +
      N*(bgrids s.ngrids (104*t)*(s.envG X).nf)) + (x*bgrids s.ngrids (104*t) + r)) =
      .val (V n (104*t+r) (N*(s.envG X).nf+x)) := by
  rw [Ptr.add_assoc, Ptr.add_assoc, ← H n (104*t+r) (N*(s.envG X).nf+x) hn (bgrids_lt hr).1 ?_, ← gpos_block X s hr]
  · simp only [Nat.add_assoc]
  · have := radix_lt hN hx
    unfold dijG
    rw [show (s.envG X).nf * (s.si.nctr*s.sj.nctr) = s.sj.nctr*s.si.nctr*(s.envG X).nf by ring]
    exact this

theorem gpos_end (X : IntG α) (s : CallG α) {c gi N : Nat} (hc : c < X.nComp) (hg : gi < s.ngrids) (hN : N < dijG X s) :
    gpos s.ngrids (dijG X s) (104*(gi/104)) c N (gi%104) < dijG X s * s.ngrids * X.nComp := by
  exact gpos_lt hc hN (by unfold bgrids; omega)

/-- storing elsewhere keeps the numbers -/
theorem GHolds.agree {X : IntG α} {s : CallG α} {h h' : Heap α} {buf o0 o : Nat} {V : Nat → Nat → Nat → α}
    (H : GHolds X s h ⟨buf, o0⟩ V) {W : Ptr → Prop} (hA : AgreeD h h' W) (ho : o = o0 + dijG X s * s.ngrids * X.nComp)
    (hW : ∀ q, W q → (q.buf = buf ∧ o ≤ q.off) ∨ q.buf ≠ buf) : GHolds X s h' ⟨buf, o0⟩ V := by
  intro c gi N hc hg hN
  rw [hA _ (fun hw => ?_)]
  · exact H c gi N hc hg hN
  · have := gpos_end X s hc hg hN
    rcases hW _ hw with ⟨_, h2⟩ | h2
    · have : o ≤ o0 + gpos s.ngrids (dijG X s) (104*(gi/104)) c N (gi%104) := h2
      omega
    · exact h2 rfl

theorem nf_grids (X : IntG α) (s : CallG α) : (s.envG X).nf = ncart s.si.l * ncart s.sj.l := rfl

/-- Cartesian output -/
theorem drvGrids_cart {R : Rys2 α} {K : Consts α} {L : MathLib α} {X : IntG α} {s : CallG α}
    {w : Nat → Nat → (Nat → α) → Nat → α} {h : Heap α} {fpd sh buf size : Nat} {fl loc counts loc2 out : Ptr}
    {dims : Option Ptr} {nd : Nat → Nat}
    (M : CallMem h fpd buf size fl loc counts) (hsize : cacheSizeGrids X s ≤ size)
    (O : GOutArg h nd (three (ncart s.si.l*s.si.nctr) (ncart s.sj.l*s.sj.nctr) s.ngrids) X.nComp out dims buf fl loc counts loc2)
    (hK : EvalG R K L X s w) (hic : 1 ≤ s.si.nctr) (hjc : 1 ≤ s.sj.nctr) (hnc : 1 ≤ X.nComp)
    (hli : s.si.l ≤ 15) (hlj : s.sj.l ≤ 15) :
    ∃ has h', run (drvGrids X s R K L fpd sh (fun _ _ _ => pure) (two (ncart s.si.l) (ncart s.sj.l)) out dims buf 0 fl loc
        counts loc2) h = some (has, h') ∧
      (∀ n gi ic jc i j, n < X.nComp → gi < s.ngrids → ic < s.si.nctr → jc < s.sj.nctr → i < ncart s.si.l → j < ncart s.sj.l →
        h'.D (out + gridAt nd n gi (ic*ncart s.si.l+i) (jc*ncart s.sj.l+j)) =
          .val (gridVal K L X s w (s.grid gi) n ic jc (j*ncart s.si.l+i))) ∧
      (has = false → ∀ m, InGridBlock nd (three (ncart s.si.l*s.si.nctr) (ncart s.sj.l*s.sj.nctr) s.ngrids) X.nComp m →
        h'.D (out + m) = .val 0) ∧
      (∀ q, q.buf ≠ buf → (∀ m, InGridBlock nd (three (ncart s.si.l*s.si.nctr) (ncart s.sj.l*s.sj.nctr) s.ngrids) X.nComp m →
        q ≠ out + m) → h'.D q = h.D q) ∧
      (∀ q, q.buf ≠ buf → q.buf ≠ fl.buf → q.buf ≠ loc.buf → q.buf ≠ counts.buf → q.buf ≠ loc2.buf → h'.I q = h.I q) ∧
      (has = true ↔ ¬ PairEmpty L (s.pairArgsG X) ∧ gridAny L X s ∧ 0 < s.ngrids) := by
  obtain ⟨has, h', hr, hv, hz, hD, hI, hret⟩ := drvGrids_run (sh := sh) (trans := fun _ _ _ => pure)
    (Y := fun V n gi N m => V n gi (N*(s.envG X).nf + m)) (E := fun _ => True) (OutP := fun q => q.buf ≠ buf) (w := w)
    M hsize (ncart_pos _) (ncart_pos _) O hK hic hjc hnc hli hlj (by
      intro V n hn o
      refine ⟨fun t N ht hN h1 hok => ?_, fun h1 h2 hok hA hM hI' => ?_, fun q hw ho => ho hw.1⟩
      · intro b
        rw [wp_pure]
        refine ⟨?_, AgreeD.refl _ _, rfl⟩
        rintro ⟨g, i, j, z⟩ ⟨k1, k2, k3, k4⟩
        dsimp only at k1 k2 k3 k4 ⊢
        obtain rfl : z = 0 := by omega
        refine ⟨?_, fun x => x rfl⟩
        have hx : j*ncart s.si.l+i < (s.envG X).nf := by
          rw [nf_grids, Nat.mul_comm (ncart s.si.l) (ncart s.sj.l)]; exact radix_lt k3 k2
        have := hok.2.1.block k1 hn hN hx
        show h1.D (_ + (((0*ncart s.sj.l + j)*ncart s.si.l + i)*b + g)) = .val (V n (104*t+g) (N*(s.envG X).nf + (j*ncart s.si.l+i)))
        rw [Nat.zero_mul, Nat.zero_add]
        exact this
      · refine ⟨trivial, hok.2.1.agree hA rfl (fun q hq => hq), fun k hk => hM _ (hok.2.2 k hk)⟩)
    (fun _ _ => trivial) (fun m _ => O.h_obuf) (fun V gi hV n N m => hV _ _)
  refine ⟨has, h', hr, ?_, hz, hD, hI, hret⟩
  intro n gi ic jc i j hn hg h1 h2 h3 h4
  rw [hv n gi ic jc i j hn hg h1 h2 h3 h4]
  have hx : j*ncart s.si.l+i < (s.envG X).nf := by
    rw [nf_grids, Nat.mul_comm (ncart s.si.l) (ncart s.sj.l)]; exact radix_lt h4 h3
  unfold gridCtr
  rw [(digit hx).1, (digit hx).2, (digit h1).1, (digit h1).2]

/-- c2s_sph_1e_grids, one block of contracted functions of one block of points -/
theorem sphTransGrids_wp {h : Heap α} {tab gctr : Ptr} {buf o size fpd sh li lj b : Nat} {X : Nat → α}
    (hf : 0 < fpd) (hli : li < 16) (hlj : lj < 16) (hb : tab.buf ≠ buf) (hb2 : b ≤ 104)
    (S : Stg h tab buf o size h gctr (b * ncart li * ncart lj) X o)
    (hs : o + 104 * ncart li * (lj*2+1) * 2 + 14 ≤ size) :
    wp (sphTransGrids tab fpd sh li lj buf (fpd*o) b gctr) (fun r h' =>
      Stg h tab buf o size h' r (b*(li*2+1)*(lj*2+1)) (midV li b (ketV lj (b * ncart li) X)) size) h := by
  unfold sphTransGrids
  dsimp only
  rw [mallocA_eq0 hf]
  dsimp only
  rw [mallocA_eq0 hf]
  have a1 := alignA_le sh o
  have a2 := alignA_le sh (alignA sh o + 104 * lenCart li * (lj*2+1))
  have hi := nd_le_ncart li
  simp only [lenCart_eq] at *
  have k1 : b * ncart li * (lj*2+1) ≤ 104 * ncart li * (lj*2+1) :=
    Nat.mul_le_mul_right _ (Nat.mul_le_mul_right _ hb2)
  have k2 : b * (li*2+1) * (lj*2+1) ≤ b * ncart li * (lj*2+1) :=
    Nat.mul_le_mul_right _ (Nat.mul_le_mul_left _ hi)
  generalize hA : alignA sh o = A at *
  generalize hB : alignA sh (A + 104 * ncart li * (lj*2+1)) = B at *
  generalize hC : 104 * ncart li * (lj*2+1) = C at *
  rw [wp_mbind]
  refine wp_mono (Stg.ket (nbra := b * ncart li) (S.mono a1.1) hlj hb a1.1 (by omega) (nd_le_ncart lj)) ?_
  intro r1 h1 S1
  refine wp_mono (Stg.inner (nbra := b) (ncall := lj*2+1) (top := B) (S1.mono (by omega)) hli hb (by omega) (by omega) hi) ?_
  intro r2 h2 S2
  exact S2.mono (by omega)

/-- the transformed value -/
theorem gridTrans_val {li lj b : Nat} (X : Nat → α) {g i j : Nat} (hg : g < b) (hi : i < li*2+1) :
    midV li b (ketV lj (b * ncart li) X) ((j*(li*2+1)+i)*b + g) = sph2 li lj (fun x => X (x*b + g)) i j := by
  rw [midV_digits _ hi hg]
  unfold sphV sph2
  refine Finset.sum_congr rfl fun a ha => ?_
  have ha' := Finset.mem_range.1 ha
  have e : (j*ncart li + a)*b + g = j*(b*ncart li) + (a*b+g) := by ring
  have hlt : a*b + g < b*ncart li := digit_lt hg ha'
  unfold ketV sphV
  beta_reduce
  rw [e, (digit hlt).1, (digit hlt).2, Finset.mul_sum]
  refine Finset.sum_congr rfl fun c _ => ?_
  have e2 : c*(b*ncart li) + (a*b+g) = (c*ncart li + a)*b + g := by ring
  rw [e2]; ring

theorem end_arith {al A D B C : Nat} (l : A + D < B) (e : D + 1 = C) : al + A + C ≤ al + B := by omega

/-- Spherical output -/
theorem drvGrids_sph {R : Rys2 α} {K : Consts α} {L : MathLib α} {X : IntG α} {s : CallG α}
    {w : Nat → Nat → (Nat → α) → Nat → α} {h : Heap α} {fpd sh buf size : Nat} {fl loc counts loc2 out tab : Ptr}
    {dims : Option Ptr} {nd : Nat → Nat}
    (M : CallMem h fpd buf size fl loc counts) (hsize : cacheSizeGrids X s ≤ size)
    (O : GOutArg h nd (three ((s.si.l*2+1)*s.si.nctr) ((s.sj.l*2+1)*s.sj.nctr) s.ngrids) X.nComp out dims buf fl loc counts loc2)
    (hT : HoldsTab h tab) (htb : tab.buf ≠ buf) (hto : out.buf ≠ tab.buf)
    (hK : EvalG R K L X s w) (hic : 1 ≤ s.si.nctr) (hjc : 1 ≤ s.sj.nctr) (hnc : 1 ≤ X.nComp)
    (hli : s.si.l ≤ 15) (hlj : s.sj.l ≤ 15) :
    ∃ has h', run (drvGrids X s R K L fpd sh (sphTransGrids tab fpd sh s.si.l s.sj.l) (two (s.si.l*2+1) (s.sj.l*2+1)) out dims
        buf 0 fl loc counts loc2) h = some (has, h') ∧
      (∀ n gi ic jc i j, n < X.nComp → gi < s.ngrids → ic < s.si.nctr → jc < s.sj.nctr → i < s.si.l*2+1 → j < s.sj.l*2+1 →
        h'.D (out + gridAt nd n gi (ic*(s.si.l*2+1)+i) (jc*(s.sj.l*2+1)+j)) =
          .val (sph2 s.si.l s.sj.l (fun x => gridVal K L X s w (s.grid gi) n ic jc x) i j)) ∧
      (has = false → ∀ m, InGridBlock nd (three ((s.si.l*2+1)*s.si.nctr) ((s.sj.l*2+1)*s.sj.nctr) s.ngrids) X.nComp m →
        h'.D (out + m) = .val 0) ∧
      (∀ q, q.buf ≠ buf → (∀ m, InGridBlock nd (three ((s.si.l*2+1)*s.si.nctr) ((s.sj.l*2+1)*s.sj.nctr) s.ngrids) X.nComp m →
        q ≠ out + m) → h'.D q = h.D q) ∧
      (∀ q, q.buf ≠ buf → q.buf ≠ fl.buf → q.buf ≠ loc.buf → q.buf ≠ counts.buf → q.buf ≠ loc2.buf → h'.I q = h.I q) ∧
      (has = true ↔ ¬ PairEmpty L (s.pairArgsG X) ∧ gridAny L X s ∧ 0 < s.ngrids) := by
  have hfree : alignA sh 0 + dijG X s * s.ngrids * X.nComp + 104 * ncart s.si.l * (s.sj.l*2+1) * 2 + 14 ≤ size := by
    refine le_trans ?_ hsize
    unfold cacheSizeGrids
    refine le_trans ?_ (Nat.add_le_add_right (le_max_right _ _) 32)
    have h1 : ncart s.si.l * (s.sj.l*2+1) ≤ (s.envG X).nf := by rw [nf_grids]; exact Nat.mul_le_mul_left _ (nd_le_ncart _)
    have h2 : 104 * ncart s.si.l * (s.sj.l*2+1) * 2 ≤ 104 * (s.envG X).nf * 8 * 2 := by
      rw [Nat.mul_assoc 104]
      exact Nat.mul_le_mul_right _ (le_trans (Nat.mul_le_mul_left _ h1) (Nat.le_mul_of_pos_right _ (by omega)))
    have h3 := (alignA_le sh 0).2.1
    have h4 : s.ngrids * (s.envG X).nf * s.si.nctr * s.sj.nctr = dijG X s * s.ngrids := by unfold dijG; ring
    rw [h4]
    generalize dijG X s * s.ngrids * X.nComp = A at *
    generalize 104 * ncart s.si.l * (s.sj.l*2+1) * 2 = B at *
    generalize 104 * (s.envG X).nf * 8 * 2 = C at *
    omega
  obtain ⟨has, h', hr, hv, hz, hD, hI, hret⟩ := drvGrids_run (sh := sh) (trans := sphTransGrids tab fpd sh s.si.l s.sj.l)
    (Y := fun V n gi N m => sph2 s.si.l s.sj.l (fun x => V n gi (N*(s.envG X).nf + x)) (m % (s.si.l*2+1)) (m / (s.si.l*2+1)))
    (E := fun h' => HoldsTab h' tab) (OutP := fun q => q.buf ≠ buf ∧ q.buf ≠ tab.buf) (w := w)
    M hsize (by omega) (by omega) O hK hic hjc hnc hli hlj (by
      intro V n hn o
      refine ⟨fun t N ht hN h1 hok => ?_, fun h1 h2 hok hA hM hI' => ?_, fun q hw ho => ho.1 hw.1⟩
      · intro b
        let g0 : Ptr := (⟨buf, alignA sh 0⟩ : Ptr) + dijG X s * s.ngrids * n +
          (104*t*(s.sj.nctr*s.si.nctr*(s.envG X).nf) + N*(b*(s.envG X).nf))
        have hnf : (s.envG X).nf = ncart s.si.l * ncart s.sj.l := rfl
        have htn : 104*t < s.ngrids := by unfold nblk at ht; omega
        have hbp : 0 < b := by show 0 < min _ _; omega
        have hb104 : b ≤ 104 := by show min _ _ ≤ _; omega
        have hlt : ∀ x, x < b * ncart s.si.l * ncart s.sj.l → x % b < b ∧ x / b < (s.envG X).nf := by
          intro x hx
          refine ⟨Nat.mod_lt _ hbp, Nat.div_lt_of_lt_mul ?_⟩
          rw [hnf, ← Nat.mul_assoc]; exact hx
        have S : Stg h1 tab buf o size h1 g0 (b * ncart s.si.l * ncart s.sj.l)
            (fun x => V n (104*t + x % b) (N*(s.envG X).nf + x / b)) o := by
          refine ⟨hok.1, fun x hx => ?_, rfl, ?_, AgreeD.refl _ _, rfl, hok.2.2⟩
          · obtain ⟨x1, x2⟩ := hlt x hx
            have := hok.2.1.block x1 hn hN x2
            rw [← this]
            congr 2
            show x = x / b * b + x % b
            rw [Nat.mul_comm, Nat.div_add_mod]
          · show alignA sh 0 + dijG X s * s.ngrids * n + (104*t*(s.sj.nctr*s.si.nctr*(s.envG X).nf) + N*(b*(s.envG X).nf)) +
              b * ncart s.si.l * ncart s.sj.l ≤ alignA sh 0 + dijG X s * s.ngrids * X.nComp
            have hp : 0 < (s.envG X).nf := by rw [hnf]; exact Nat.mul_pos (ncart_pos _) (ncart_pos _)
            have hbl : b - 1 < bgrids s.ngrids (104*t) := by show b - 1 < b; omega
            have hNd : N*(s.envG X).nf + ((s.envG X).nf-1) < dijG X s := by
              have := radix_lt hN (show (s.envG X).nf - 1 < (s.envG X).nf by omega)
              unfold dijG
              rw [show (s.envG X).nf * (s.si.nctr*s.sj.nctr) = s.sj.nctr*s.si.nctr*(s.envG X).nf by ring]
              exact this
            have e := gpos_block X s (n := n) (N := N) (x := (s.envG X).nf - 1) hbl
            have l := gpos_end X s hn (bgrids_lt hbl).1 hNd
            rw [← e] at l
            have e2 : ((s.envG X).nf - 1)*b + (b-1) + 1 = b * ncart s.si.l * ncart s.sj.l := by
              rw [Nat.mul_assoc, ← hnf]
              obtain ⟨f, hf⟩ : ∃ f, (s.envG X).nf = f + 1 := ⟨_, (Nat.succ_pred_eq_of_pos hp).symm⟩
              rw [hf, Nat.add_sub_cancel, Nat.mul_add, Nat.mul_comm b f]
              omega
            have l2 : dijG X s * s.ngrids * n + (104*t*(s.sj.nctr*s.si.nctr*(s.envG X).nf) + N*(b*(s.envG X).nf)) +
              (((s.envG X).nf - 1)*b + (b-1)) < dijG X s * s.ngrids * X.nComp := l
            rw [Nat.add_assoc (alignA sh 0)]
            exact end_arith l2 e2
        refine wp_mono (sphTransGrids_wp (sh := sh) M.fpd_pos (by omega) (by omega) htb hb104 S hfree) ?_
        intro tmp h3 S3
        refine ⟨?_, S3.agree, S3.int⟩
        rintro ⟨g, i, j, z⟩ ⟨k1, k2, k3, k4⟩
        dsimp only at k1 k2 k3 k4 ⊢
        obtain rfl : z = 0 := by omega
        have k2' : i < s.si.l*2+1 := k2
        refine ⟨?_, fun x => x.1 S3.rbuf⟩
        show h3.D (tmp + (((0*(s.sj.l*2+1) + j)*(s.si.l*2+1) + i)*b + g)) = .val (sph2 s.si.l s.sj.l
          (fun x => V n (104*t+g) (N*(s.envG X).nf + x)) ((j*(s.si.l*2+1)+i) % (s.si.l*2+1)) ((j*(s.si.l*2+1)+i) / (s.si.l*2+1)))
        rw [Nat.zero_mul, Nat.zero_add, (digit k2').1, (digit k2').2]
        have hlt2 : (j*(s.si.l*2+1)+i)*b+g < b*(s.si.l*2+1)*(s.sj.l*2+1) := by
          have := radix_lt (radix_lt (show j < s.sj.l*2+1 from k3) k2') k1
          refine lt_of_lt_of_le this (le_of_eq ?_)
          show (s.sj.l*2+1)*(s.si.l*2+1)*b = _
          ring
        rw [S3.val _ hlt2, gridTrans_val _ k1 k2']
        congr 1
        unfold sph2
        refine Finset.sum_congr rfl fun a _ => Finset.sum_congr rfl fun c _ => ?_
        beta_reduce
        rw [(digit (show g < b from k1)).1, (digit (show g < b from k1)).2]
      · refine ⟨holdsTab_agree hok.1 hA ?_, hok.2.1.agree hA rfl (fun q hq => hq.imp id (fun x => x.1)), fun k hk => hM _ (hok.2.2 k hk)⟩
        rintro q (⟨hw, _⟩ | hq)
        · rw [hw]; exact htb.symm
        · exact hq.2)
    (fun h' hq l hl x hx => by
      rw [hq (tab + c2sOff.getD l 0 + x) htb]
      exact hT l hl x hx)
    (fun m _ => ⟨O.h_obuf, hto⟩)
    (fun V gi hV n N m => by
      unfold sph2
      simp [hV])
  refine ⟨has, h', hr, ?_, hz, hD, hI, hret⟩
  intro n gi ic jc i j hn hg h1 h2 h3 h4
  rw [hv n gi ic jc i j hn hg h1 h2 h3 h4]
  congr 1
  rw [(digit h3).1, (digit h3).2]
  unfold sph2
  refine Finset.sum_congr rfl fun a ha => Finset.sum_congr rfl fun b hb => ?_
  have hx : b * ncart s.si.l + a < (s.envG X).nf := by
    rw [nf_grids, Nat.mul_comm (ncart s.si.l)]
    exact radix_lt (Finset.mem_range.1 hb) (Finset.mem_range.1 ha)
  beta_reduce
  congr 1
  unfold gridCtr
  rw [(digit hx).1, (digit hx).2, (digit h1).1, (digit h1).2]

end Verif.Lemmas
