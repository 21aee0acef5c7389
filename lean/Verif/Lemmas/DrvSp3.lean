import Verif.Lemmas.DrvSp2
import Verif.Lemmas.SphBlock
import Verif.Lemmas.Drv3c
import Verif.Spec.Spin3

/-! CINT3c2e_spinor_drv. -/
namespace Verif.Lemmas
open Verif Verif.Model Verif.Prog Verif.Props Verif.Spec

section
variable {α : Type} [Field α]

/-- state while the auxiliary index of the components is transformed: the first `t` components are done -/
structure Inn (h0 : Heap α) (sph : Ptr) (lk nfi nfj n L o buf goff : Nat) (x : Nat → Nat → α) (t : Nat) (h : Heap α) : Prop where
  tab : HoldsTab h sph
  val : ∀ u, u < t → HoldsD h (if lk ≤ 1 then (⟨buf, goff⟩ : Ptr) + u*n else (⟨buf, o⟩ : Ptr) + u*L) L (midV lk nfi (x u))
  frm : From h0 (fun q => q.buf = buf ∧ o ≤ q.off ∧ q.off < o + t*L) h

theorem Inn.step {h0 : Heap α} {sph : Ptr} {lk nfi nfj n L o buf goff size nt : Nat} {x : Nat → Nat → α} {t : Nat} {h : Heap α}
    (S : Inn h0 sph lk nfi nfj n L o buf goff x t h) (hL : L = nfi*(lk*2+1)*nfj) (hl : lk < 16) (ht : t < nt)
    (hsp : sph.buf ≠ buf) (hR : Room h0 buf o size) (hsz : o + nt*L ≤ size)
    (G : ∀ u, u < nt → ∀ m, m < nfi*ncart lk*nfj → h0.D ((⟨buf, goff⟩ : Ptr) + (u*n + m)) = .val (x u m) ∧ goff + (u*n+m) < o) :
    wp (sph2eInner sph ((⟨buf, o⟩ : Ptr) + t*L) ((⟨buf, goff⟩ : Ptr) + t*n) lk nfi nfj (nfi*(lk*2+1)) (nfi*ncart lk))
      (fun r h' => r = (if lk ≤ 1 then (⟨buf, goff⟩ : Ptr) + t*n else (⟨buf, o⟩ : Ptr) + t*L) ∧
        Inn h0 sph lk nfi nfj n L o buf goff x (t+1) h') h := by
  have hin : ∀ u, u < nt → ∀ m, m < nfi*ncart lk*nfj → h.D ((⟨buf, goff⟩ : Ptr) + (u*n + m)) = .val (x u m) := by
    intro u hu m hm
    obtain ⟨g1, g2⟩ := G u hu m hm
    rw [S.frm.D _ (fun hq => ?_)]
    · exact g1
    · have : o ≤ goff + (u*n+m) := hq.2.1
      omega
  have hmul : t*L + L ≤ nt*L := by
    calc t*L + L = (t+1)*L := by ring
      _ ≤ nt*L := Nat.mul_le_mul_right _ ht
  refine wp_mono (wp_allocMono (sph2eInner_wp (X := x t) hl S.tab (fun m hm => ?_) (fun i hi => ?_) hsp ?_)) ?_
  · rw [Ptr.add_assoc]; exact hin t ht m hm
  · rw [← hL] at hi
    refine S.frm.al _ ?_
    rw [Ptr.add_assoc]
    exact hR (o + (t*L + i)) (by omega) (by omega)
  · intro i j hi hj e
    have h1 : goff + t*n + i = o + t*L + j := (congrArg Ptr.off e :)
    have := (G t ht i hi).2
    omega
  rintro r h' ⟨K, hm⟩
  rw [← hL] at K
  have hblk : ∀ q, Blk ((⟨buf, o⟩ : Ptr) + t*L) L q → q.buf = buf ∧ o + t*L ≤ q.off ∧ q.off < o + (t+1)*L := by
    rintro q ⟨j, hj, rfl⟩
    refine ⟨rfl, ?_, ?_⟩
    · show o + t*L ≤ o + t*L + j; omega
    · show o + t*L + j < o + (t+1)*L
      have : (t+1)*L = t*L + L := by ring
      omega
  refine ⟨K.res, holdsTab_agree S.tab K.agree (fun q hq e => hsp (by rw [← e, (hblk q hq).1])), fun u hu => ?_, ?_⟩
  · rcases Nat.lt_or_ge u t with h1 | h1
    · refine (S.val u h1).agree K.agree (fun i hi hq => ?_)
      obtain ⟨_, h2, _⟩ := hblk _ hq
      split at h2
      · have h3 : o + t*L ≤ goff + u*n + i := h2
        have hi' : i < nfi*ncart lk*nfj := by
          rename_i hl1
          rw [ncart_le1 hl1, ← hL]; exact hi
        have := (G u (by omega) i hi').2
        omega
      · have h3 : o + t*L ≤ o + u*L + i := h2
        have : (u+1)*L ≤ t*L := Nat.mul_le_mul_right _ h1
        have : (u+1)*L = u*L + L := by ring
        omega
    · obtain rfl : u = t := by omega
      have := K.val
      rw [K.res] at this
      exact this
  · refine from_trans S.frm ⟨K.agree, hm.D, K.int⟩ (fun q hq => ⟨hq.1, hq.2.1, ?_⟩) (fun q hq => ?_)
    · have := hq.2.2
      have : (t+1)*L = t*L + L := by ring
      omega
    · obtain ⟨h1, h2, h3⟩ := hblk q hq
      exact ⟨h1, by omega, h3⟩

end

section
variable {α : Type} [Field α] [LinearOrder α]

theorem spinor2_congr {si ph : Bool} {ki kj : Int} {li lj : Nat} {x y : Nat → Nat → Nat → Cx α} {i j : Nat}
    (H : ∀ t a b, a < ncart li → b < ncart lj → x t a b = y t a b) : spinor2 si ph ki kj li lj x i j = spinor2 si ph ki kj li lj y i j := by
  unfold spinor2
  congr 1
  refine Finset.sum_congr rfl fun a ha => Finset.sum_congr rfl fun b hb => ?_
  have e : (fun c => x c a b) = fun c => y c a b := funext fun c => H c a b (Finset.mem_range.1 ha) (Finset.mem_range.1 hb)
  rw [e]

theorem spin3_mid {si ph : Bool} {ki kj : Int} {li lj lk i j c : Nat} {x : Nat → Nat → α} (hc : c < lk*2+1) :
    spinor2 si ph ki kj li lj (fun t m b => Cx.ofR (midV lk (ncart li) (x t) ((b*(lk*2+1)+c)*ncart li+m))) i j =
      spin3 si ph ki kj li lj lk x i j c := by
  refine spinor2_congr (fun t a b ha _ => ?_)
  exact congrArg Cx.ofR (midV_digits (nbra := ncart li) (x t) hc ha)

set_option maxHeartbeats 1600000 in
theorem spTrans3c_wp {h : Heap α} {tab : JTab} {sph : Ptr} {k : SpKind} {fpd li lj lk n buf o size goff : Nat} {ki kj : Int}
    {x : Nat → Nat → α} (hf : 0 < fpd) (hT : HoldsJ h tab.R tab.I) (hsph : HoldsTab h sph) (hli : li < 13) (hlj : lj < 13)
    (hlk : lk < 16) (htR : tab.R.buf ≠ buf) (htI : tab.I.buf ≠ buf) (hts : sph.buf ≠ buf) (hR : Room h buf o size)
    (hsz : o + ncart li*ncart lk*ncart lj*28 ≤ size)
    (G : ∀ t, t < (if k.si then 4 else 1) → ∀ m, m < ncart li*ncart lk*ncart lj →
      h.D ((⟨buf, goff⟩ : Ptr) + (t*n + m)) = .val (x t m) ∧ goff + (t*n+m) < o) :
    wp (spTrans3c k sph tab fpd li lj lk ki kj n buf (fpd*o) ⟨buf, goff⟩) (fun t h' =>
      (∀ im j c i, j < lenSpinorC2S kj lj → c < lk*2+1 → i < lenSpinorC2S ki li →
        h'.D (side t im + ((j*(lk*2+1)+c)*lenSpinorC2S ki li + i)) = .val (part (spin3 k.si k.ph ki kj li lj lk x i j c) im)) ∧
      From h (fun q => q.buf = buf ∧ o ≤ q.off) h' ∧
      ∀ im, (side t im).buf = buf) h := by
  let di := lenSpinorC2S ki li
  let dj := lenSpinorC2S kj lj
  let dk := lk*2+1
  let nfi := lenCart li
  let nfj := lenCart lj
  let nfk := lenCart lk
  let nt := if k.si then 4 else 1
  have hnt : nt ≤ 4 := by show (if k.si then 4 else 1) ≤ 4; split <;> omega
  have hdi : di ≤ 2*nfi := lenSpinorC2S_le ki li
  have hdj : dj ≤ 2*nfj := lenSpinorC2S_le kj lj
  have hdk : dk ≤ nfk := nd_le_ncart lk
  let F := ncart li*ncart lk*ncart lj
  let L := nfi*dk*nfj
  have hLF : L ≤ F := Nat.mul_le_mul_right _ (Nat.mul_le_mul_left _ hdk)
  have hsz' : o + F*28 ≤ size := hsz
  let N0 := if k.si then L*4 else L
  have hN0 : N0 = nt*L := by
    show (if k.si then L*4 else L) = (if k.si then 4 else 1)*L
    split <;> omega
  let N1 := di*dk*(nfj+nfj)
  have eN1 : N1 = 2*(nfj*dk*di*1) := by show di*dk*(nfj+nfj) = _; ring
  let N2 := di*dk*dj
  have eN2 : N2 = 1*dj*(dk*di) := by show di*dk*dj = _; ring
  have hN1 : N1 ≤ F*4 := by
    calc N1 = di*dk*(2*nfj) := by show di*dk*(nfj+nfj) = _; ring
      _ ≤ 2*nfi*nfk*(2*nfj) := Nat.mul_le_mul_right _ (Nat.mul_le_mul hdi hdk)
      _ = (ncart li*ncart lk*ncart lj)*4 := by show 2*ncart li*ncart lk*(2*ncart lj) = _; ring
  have hN2 : N2 ≤ F*4 := by
    calc N2 ≤ 2*nfi*nfk*(2*nfj) := Nat.mul_le_mul (Nat.mul_le_mul hdi hdk) hdj
      _ = (ncart li*ncart lk*ncart lj)*4 := by show 2*ncart li*ncart lk*(2*ncart lj) = _; ring
  have hN0F : N0 ≤ F*4 := by
    rw [hN0, Nat.mul_comm F]
    exact Nat.mul_le_mul hnt hLF
  have S0 : Inn h sph lk nfi nfj n L o buf goff x 0 h :=
    ⟨hsph, fun u hu => absurd hu (Nat.not_lt_zero _), From.refl _ _⟩
  have hstep : ∀ t h1, t < nt → Inn h sph lk nfi nfj n L o buf goff x t h1 → _ := fun t h1 ht S =>
    S.step (size := size) (nt := nt) rfl hlk ht hts hR (by rw [← hN0]; omega) G
  unfold spTrans3c
  dsimp only
  rw [mallocD_eq hf]
  dsimp only
  rw [mallocD_eq hf]
  dsimp only
  rw [mallocD_eq hf]
  dsimp only
  rw [mallocD_eq hf]
  dsimp only
  rw [mallocD_eq hf]
  dsimp only
  let o1 := o + N0
  -- the bra and ket transformations
  have fin : ∀ h1, Inn h sph lk nfi nfj n L o buf goff x nt h1 →
      wp (do
        k.bra tab ⟨buf, o1⟩ ⟨buf, o1+N1⟩ (if lk ≤ 1 then ⟨buf, goff⟩ else ⟨buf, o⟩) (if lk ≤ 1 then n else L) (dk*nfj) ki li
        k.ket tab ⟨buf, o1+N1+N1⟩ ⟨buf, o1+N1+N1+N2⟩ ⟨buf, o1⟩ ⟨buf, o1+N1⟩ (di*dk) kj lj)
      (fun _ h' => (∀ im j c i, j < dj → c < dk → i < di →
        h'.D (side (((⟨buf, o1+N1+N1⟩, ⟨buf, o1+N1+N1+N2⟩)) : Ptr × Ptr) im + ((j*dk+c)*di + i)) =
          .val (part (spin3 k.si k.ph ki kj li lj lk x i j c) im)) ∧
        From h (fun q => q.buf = buf ∧ o ≤ q.off) h') h1 := by
    intro h1 S
    have hR1 : Room h1 buf o size := fun k h2 h3 => S.frm.al _ (hR k h2 h3)
    have hT1 : HoldsJ h1 tab.R tab.I := holdsJ_agree hT S.frm.D
      (fun q hq => by rw [hq.1]; exact htR.symm) (fun q hq => by rw [hq.1]; exact htI.symm)
    have key := spTwo_wp (h := h1) (tab := tab) (k := k) (R1 := ⟨buf, o1⟩) (I1 := ⟨buf, o1+N1⟩) (R2 := ⟨buf, o1+N1+N1⟩)
      (I2 := ⟨buf, o1+N1+N1+N2⟩) (g := if lk ≤ 1 then ⟨buf, goff⟩ else ⟨buf, o⟩) (C := dk) (n := if lk ≤ 1 then n else L)
      (nket := dk*nfj) (nbra := di*dk) (ki := ki) (kj := kj)
      (x := fun t a m => midV lk nfi (x t) (a*ncart li+m)) hT1 hli hlj (Nat.mul_comm _ _) (Nat.mul_comm _ _)
      (by rw [← eN1]; exact outS_of_room hR1 (by omega) (Nat.le_refl _) (by omega))
      (by rw [← eN2]; exact outS_of_room hR1 (by omega) (Nat.le_refl _) (by omega))
      (by
        rw [← eN1, ← eN2]
        intro q h1 h2
        obtain ⟨_, h3⟩ := reg2_room h1
        obtain ⟨_, h4⟩ := reg2_room h2
        omega)
      (by
        intro q hq
        have : q.buf = buf := by
          rcases hq with h1 | h1
          · exact (reg2_room h1).1
          · exact (reg2_room h1).1
        rw [this]
        exact ⟨htR.symm, htI.symm⟩)
      (by
        intro t ht a m ha hm
        have hm' : a*ncart li+m < L := by
          have h2 := radix_lt ha hm
          have e : nfj*dk*lenCart li = L := by show nfj*dk*nfi = nfi*dk*nfj; ring
          calc _ < _ := h2
            _ = L := e
        have hv := S.val t ht _ hm'
        rw [← eN1]
        by_cases hl1 : lk ≤ 1
        · rw [if_pos hl1] at hv
          rw [if_pos hl1, if_pos hl1]
          refine ⟨hv, fun hq => ?_⟩
          obtain ⟨_, h3⟩ := reg2_room hq
          have e : (((⟨buf, goff⟩ : Ptr) + t*n) + (a*lenCart li+m)).off = goff + (t*n + (a*ncart li+m)) := Nat.add_assoc _ _ _
          rw [e] at h3
          have := (G t ht (a*ncart li+m) (by
            have e : ncart li*ncart lk*ncart lj = L := by rw [ncart_le1 hl1]; rfl
            rw [e]; exact hm')).2
          omega
        · rw [if_neg hl1] at hv
          rw [if_neg hl1, if_neg hl1]
          refine ⟨hv, fun hq => ?_⟩
          obtain ⟨_, h3⟩ := reg2_room hq
          have e : (((⟨buf, o⟩ : Ptr) + t*L) + (a*lenCart li+m)).off = o + (t*L + (a*ncart li+m)) := Nat.add_assoc _ _ _
          rw [e] at h3
          have h5 : t*L + L ≤ nt*L := by
            calc t*L + L = (t+1)*L := by ring
              _ ≤ nt*L := Nat.mul_le_mul_right _ ht
          rw [← hN0] at h5
          omega)
    refine wp_mono key ?_
    rintro _ h' ⟨H, Fr⟩
    refine ⟨fun im j c i hj hc hi => ?_, from_trans S.frm Fr (fun q hq => ⟨hq.1, hq.2.1⟩) (fun q hq => ?_)⟩
    · refine (H im j c i hj hc hi).trans ?_
      exact congrArg (fun z => Cell.val (part z im)) (spin3_mid hc)
    · rw [← eN1, ← eN2] at hq
      rcases hq with h1 | h1
      · obtain ⟨h2, h3⟩ := reg2_room h1
        exact ⟨h2, by omega⟩
      · obtain ⟨h2, h3⟩ := reg2_room h1
        exact ⟨h2, by omega⟩
  have wrap : ∀ (h1 : Heap α), Inn h sph lk nfi nfj n L o buf goff x nt h1 → ∀ p : Prog α Unit,
      p = k.bra tab ⟨buf, o1⟩ ⟨buf, o1+N1⟩ (if lk ≤ 1 then ⟨buf, goff⟩ else ⟨buf, o⟩) (if lk ≤ 1 then n else L) (dk*nfj) ki li →
      wp p (fun _ h2 => wp (do
        k.ket tab ⟨buf, o1+N1+N1⟩ ⟨buf, o1+N1+N1+N2⟩ ⟨buf, o1⟩ ⟨buf, o1+N1⟩ (di*dk) kj lj
        pure ((⟨buf, o1+N1+N1⟩ : Ptr), (⟨buf, o1+N1+N1+N2⟩ : Ptr))) (fun t h' =>
        (∀ im j c i, j < dj → c < dk → i < di →
          h'.D (side t im + ((j*dk+c)*di + i)) = .val (part (spin3 k.si k.ph ki kj li lj lk x i j c) im)) ∧
        From h (fun q => q.buf = buf ∧ o ≤ q.off) h' ∧ ∀ im, (side t im).buf = buf) h2) h1 := by
    rintro h1 S p rfl
    have := fin h1 S
    rw [wp_mbind] at this
    refine wp_mono this ?_
    intro _ h2 h3
    rw [wp_mbind]
    refine wp_mono h3 ?_
    rintro _ h4 ⟨a, b⟩
    rw [wp_pure]
    exact ⟨a, b, fun im => by cases im <;> rfl⟩
  cases hk : k.si with
  | false =>
    have hnt1 : nt = 1 := by show (if k.si then 4 else 1) = 1; rw [hk]; rfl
    simp only [Bool.false_eq_true, if_false]
    rw [wp_mbind]
    have s0 := hstep 0 h (by omega) S0
    rw [Nat.zero_mul, Nat.zero_mul, Ptr.add_zero, Ptr.add_zero] at s0
    refine wp_mono s0 ?_
    rintro r h1 ⟨rfl, S1⟩
    have := wrap h1 (hnt1 ▸ S1) _ rfl
    unfold SpKind.bra at this
    rw [hk, if_neg (by simp)] at this
    have eo : o1 = o + L := by
      show o + (if k.si then L*4 else L) = _; rw [hk]; rfl
    rw [eo] at this
    rw [wp_mbind]
    exact this
  | true =>
    have hnt4 : nt = 4 := by show (if k.si then 4 else 1) = 4; rw [hk]; rfl
    simp only [if_true, wp_mbind]
    have s0 := hstep 0 h (by omega) S0
    rw [Nat.zero_mul, Nat.zero_mul, Ptr.add_zero, Ptr.add_zero] at s0
    refine wp_mono s0 ?_
    rintro r0 h1 ⟨rfl, S1⟩
    have s1 := hstep 1 h1 (by omega) S1
    rw [Nat.one_mul, Nat.one_mul] at s1
    refine wp_mono s1 ?_
    rintro r1 h2 ⟨rfl, S2⟩
    have s2 := hstep 2 h2 (by omega) S2
    rw [Nat.two_mul, Nat.two_mul, ← Ptr.add_assoc, ← Ptr.add_assoc] at s2
    refine wp_mono s2 ?_
    rintro r2 h3 ⟨rfl, S3⟩
    have s3 := hstep 3 h3 (by omega) S3
    rw [show 3*L = L+L+L by ring, show 3*n = n+n+n by ring, ← Ptr.add_assoc, ← Ptr.add_assoc, ← Ptr.add_assoc, ← Ptr.add_assoc] at s3
    refine wp_mono s3 ?_
    rintro r3 h4 ⟨rfl, S4⟩
    have := wrap h4 (hnt4 ▸ S4) _ rfl
    unfold SpKind.bra at this
    rw [hk, if_pos rfl] at this
    have eo : o1 = o + L*4 := by
      show o + (if k.si then L*4 else L) = _; rw [hk]; rfl
    rw [eo] at this
    simp only [wp_mbind] at this
    by_cases hl1 : lk ≤ 1
    · simp only [if_pos hl1] at this ⊢
      exact this
    · simp only [if_neg hl1] at this ⊢
      exact this

/-- the tables of the transformations: in buffers that are neither cache nor output -/
structure TabArg3 (h : Heap α) (tab : JTab) (sph : Ptr) (buf : Nat) (out : Ptr) : Prop where
  j : TabArg h tab buf out
  holds : HoldsTab h sph
  sbuf : sph.buf ≠ buf
  sout : sph.buf ≠ out.buf

theorem TabArg3.keep {h h' : Heap α} {tab : JTab} {sph : Ptr} {buf : Nat} {out : Ptr} (T : TabArg3 h tab sph buf out)
    (hA : AgreeD h h' (fun q => q.buf = buf ∨ q.buf = out.buf)) : TabArg3 h' tab sph buf out := by
  refine ⟨T.j.keep hA, holdsTab_agree T.holds hA ?_, T.sbuf, T.sout⟩
  rintro q (hq | hq) <;> rw [hq]
  · exact T.sbuf.symm
  · exact T.sout.symm

/-- one component of the output of three-centre integrals -/
theorem sp3c_writes {V : Nat → Nat → Nat → Nat → Nat → Nat → α} {ls nctrs nfo nd : Nat → Nat} {nComp nT n buf size fpd : Nat}
    {out dims sph : Ptr} {tab : JTab} {kd : SpKind} {ki kj : Int} {nf : Nat}
    (hs : Sizes 3 nfo nctrs nd) (hf : 0 < fpd) (hn : n < nT) (hc : nComp = SpKind.e1 kd * nT) (hob : out.buf ≠ buf)
    (hbl : blkLen ls = ncart (ls 0) * ncart (ls 2) * ncart (ls 1)) (hnf : nf = blkLen ls)
    (h0 : nfo 0 = lenSpinorC2S ki (ls 0)) (h1 : nfo 1 = lenSpinorC2S kj (ls 1)) (h2 : nfo 2 = ls 2*2+1)
    (hli : ls 0 < 13) (hlj : ls 1 < 13) (hlk : ls 2 < 16)
    (hfree : blkLen ls * nctrOf nctrs * nComp + ncart (ls 0)*ncart (ls 2)*ncart (ls 1)*28 ≤ size) :
    Writes (WBuf buf (blkLen ls * nctrOf nctrs * nComp))
      (ZOk (fun h => TabArg3 h tab sph buf out) 3 nd (fun t => nfo t * nctrs t) nT out dims buf size (blkLen ls * nctrOf nctrs * nComp)
        (ctrOf V ls nctrs))
      (c2sZ3c (shapeOf nfo nctrs nf)
        (spTrans3c kd sph tab fpd (ls 0) (ls 1) (ls 2) ki kj (blkLen ls * nctrOf nctrs) buf (fpd*(blkLen ls * nctrOf nctrs * nComp)))
        (out + 2*(nd 0*nd 1*nd 2*nd 3)*n) ((⟨buf, 0⟩ : Ptr) + blkLen ls * nctrOf nctrs * SpKind.e1 kd * n) dims) (fun _ => True)
      (fun k : Zx => inOut (shapeOf nfo nctrs nf) k.2)
      (fun k => out + 2*(nd 0*nd 1*nd 2*nd 3)*n + posZ (nd 0) (nd 1) (nd 2) k)
      (fun k => part (spin3 kd.si kd.ph ki kj (ls 0) (ls 1) (ls 2) (fun c x => V (n*SpKind.e1 kd + c) (k.2.1/nfo 0) (k.2.2.1/nfo 1)
        (k.2.2.2.1/nfo 2) (k.2.2.2.2/nfo 3) x) (k.2.1%nfo 0) (k.2.2.1%nfo 1) (k.2.2.2.1%nfo 2)) k.1) := by
  have hS := hs.shapeR nf
  obtain ⟨t3a, t3b, t3c⟩ := hs.trivial 3 (by omega) (by omega)
  let Y : Nat → Nat → Cx α := fun b m => spin3 kd.si kd.ph ki kj (ls 0) (ls 1) (ls 2)
      (fun c x => ctrOf V ls nctrs (blkLen ls * nctrOf nctrs * (n*SpKind.e1 kd + c) + b*blkLen ls + x))
      (m % nfo 0) (m / nfo 0 / nfo 2) (m / nfo 0 % nfo 2)
  have hW := c2sZ3c_writes (S := shapeOf nfo nctrs nf) (ni := nd 0) (nj := nd 1) (nk := nd 2)
      (trans := spTrans3c kd sph tab fpd (ls 0) (ls 1) (ls 2) ki kj (blkLen ls * nctrOf nctrs) buf (fpd*(blkLen ls * nctrOf nctrs * nComp)))
      (gctr := (⟨buf, 0⟩ : Ptr) + blkLen ls * nctrOf nctrs * SpKind.e1 kd * n) (out := out + 2*(nd 0*nd 1*nd 2*nd 3)*n) (dims := dims)
      (W := WBuf buf (blkLen ls * nctrOf nctrs * nComp))
      (ok := fun h => ZOk (fun h => TabArg3 h tab sph buf out) 3 nd (fun t => nfo t * nctrs t) nT out dims buf size
        (blkLen ls * nctrOf nctrs * nComp) (ctrOf V ls nctrs) h ∧ True)
      (Y := Y) ⟨hS.pos, hS.hni, hS.hnj, hS.hnk, ?_, ?_, ?_⟩ t3b t3a
      (fun h' hok => ⟨hok.1.dim 0 (by omega), hok.1.dim 1 (by omega), hok.1.dim 2 (by omega)⟩)
  · have hval : ∀ k : Zx, inOut (shapeOf nfo nctrs nf) k.2 →
        Y (blkNo (shapeOf nfo nctrs nf) k.2) (cellNo (shapeOf nfo nctrs nf) k.2) =
        spin3 kd.si kd.ph ki kj (ls 0) (ls 1) (ls 2) (fun c x => V (n*SpKind.e1 kd + c) (k.2.1/nfo 0) (k.2.2.1/nfo 1)
        (k.2.2.2.1/nfo 2) (k.2.2.2.2/nfo 3) x) (k.2.1%nfo 0) (k.2.2.1%nfo 1) (k.2.2.2.1%nfo 2) := ?_
    · exact fun h2 hok => writes_val hW (fun k hk => congrArg (fun z => part z k.1) (hval k hk)) h2 ⟨hok, trivial⟩
    intro k hk
    have hp : k.2.1 % nfo 0 < nfo 0 := Nat.mod_lt _ (hs.nf_pos 0 (by omega))
    have hp2 : k.2.2.2.1 % nfo 2 < nfo 2 := Nat.mod_lt _ (hs.nf_pos 2 (by omega))
    have ec : cellNo (shapeOf nfo nctrs nf) k.2 = ((k.2.2.1%nfo 1)*nfo 2 + k.2.2.2.1%nfo 2)*nfo 0 + k.2.1%nfo 0 := by
      unfold cellNo posIklj shapeOf
      dsimp only
      rw [t3a, Nat.mod_one]
      ring
    show spin3 _ _ _ _ _ _ _ _ (cellNo (shapeOf nfo nctrs nf) k.2 % nfo 0) (cellNo (shapeOf nfo nctrs nf) k.2 / nfo 0 / nfo 2)
      (cellNo (shapeOf nfo nctrs nf) k.2 / nfo 0 % nfo 2) = _
    rw [ec, (digit hp).1, (digit hp).2, (digit hp2).1, (digit hp2).2]
    refine spinor2_congr (fun t a b ha hb => congrArg Cx.ofR (Finset.sum_congr rfl fun c hc' => ?_))
    beta_reduce
    rw [ctrOf_blk V hk]
    rw [hbl]
    have h5 := radix_lt (radix_lt hb (Finset.mem_range.1 hc')) ha
    calc _ < _ := h5
      _ = _ := by ring
  · refine zTrans (fun h h' T A => T.keep A) hob hn (Nat.le_refl _) (fun _ _ _ _ => trivial) ?_
    intro b hb h3 hok _
    have key := spTrans3c_wp (k := kd) (ki := ki) (kj := kj) (n := blkLen ls * nctrOf nctrs)
        (goff := 0 + blkLen ls * nctrOf nctrs * SpKind.e1 kd * n + b*nf) (o := blkLen ls * nctrOf nctrs * nComp) (size := size)
        (x := fun c m => ctrOf V ls nctrs (blkLen ls * nctrOf nctrs * (n*SpKind.e1 kd + c) + b*blkLen ls + m)) hf hok.tab.j.holds
        hok.tab.holds hli hlj hlk
        hok.tab.j.Rbuf hok.tab.j.Ibuf hok.tab.sbuf (fun k _ hk => hok.cache k hk) hfree (fun c hc' m hm => ?_)
    · refine wp_mono key ?_
      rintro t h' ⟨a1, a2, a3⟩
      refine ⟨fun im m hm => ?_, a2, a3⟩
      have hm2 : m < nfo 0 * (nfo 2 * nfo 1) := by
        have : (shapeOf nfo nctrs nf).di * (shapeOf nfo nctrs nf).dj * (shapeOf nfo nctrs nf).dk * (shapeOf nfo nctrs nf).dl =
            nfo 0 * (nfo 2 * nfo 1) := by
          show nfo 0 * nfo 1 * nfo 2 * nfo 3 = _
          rw [t3a]; ring
        rw [← this]; exact hm
      have q1 : m / nfo 0 < nfo 2 * nfo 1 := Nat.div_lt_of_lt_mul hm2
      have := a1 im (m/nfo 0/nfo 2) (m/nfo 0%nfo 2) (m%nfo 0) (by rw [← h1]; exact Nat.div_lt_of_lt_mul q1)
        (by rw [← h2]; exact Nat.mod_lt _ (hs.nf_pos 2 (by omega))) (by rw [← h0]; exact Nat.mod_lt _ (hs.nf_pos 0 (by omega)))
      rw [← h2, ← h0] at this
      rw [show (m/nfo 0/nfo 2*nfo 2 + m/nfo 0%nfo 2)*nfo 0 + m%nfo 0 = m by
        rw [Nat.div_add_mod', Nat.div_add_mod']] at this
      exact this
    rw [← hbl] at hm
    have hnc' : n*SpKind.e1 kd + c < nComp := by
      rw [hc, Nat.mul_comm (SpKind.e1 kd)]
      exact radix_lt hn hc'
    have h6 := ctr_lt (ls := ls) (nctrs := nctrs) hnc' hb hm
    rw [hnf]
    have e3 : 0 + blkLen ls * nctrOf nctrs * SpKind.e1 kd * n + b*blkLen ls + (c*(blkLen ls * nctrOf nctrs) + m) =
          0 + (blkLen ls * nctrOf nctrs * (n*SpKind.e1 kd + c) + b*blkLen ls + m) := by ring
    refine ⟨?_, by rw [e3, Nat.zero_add]; exact h6⟩
    rw [← hok.gctr _ h6]
    exact congrArg h3.D (congrArg (Ptr.mk buf) e3)
  · intro h2 hok k hk
    rw [Ptr.add_assoc]
    exact hok.1.out _ (inBlockZ_iff.2 ⟨n, k, hn, hk, rfl⟩)
  · have := cpZ_iklj (α := α) (S := shapeOf nfo nctrs nf) (ni := nd 0) (nj := nd 1) (nk := nd 2)
      (le_trans (Nat.le_mul_of_pos_right _ (hs.nctr_pos 0 (by omega))) hS.hni)
      (le_trans (Nat.le_mul_of_pos_right _ (hs.nctr_pos 1 (by omega))) hS.hnj)
      (le_trans (Nat.le_mul_of_pos_right _ (hs.nctr_pos 2 (by omega))) hS.hnk)
    rw [show (shapeOf nfo nctrs nf).dl = 1 from t3a] at this
    exact this

variable {X : Int2e α} {s : Call3 α}

theorem post3_postG {V : Nat → Nat → Nat → Nat → Nat → α} {ret : Bool → Prop} {buf : Nat} {empty fl loc : Ptr} {h h' : Heap α} {res : Bool}
    (H : Post3 X s V ret buf 0 empty fl loc h res h') :
    PostG (V3 V) (fun r => ret r ∧ (r = false → ∀ n ic jc kc x, V n ic jc kc x = 0)) (Call3.ls s) (Call3.nctrs s) X.nComp buf empty fl loc h res h' := by
  obtain ⟨a, b, z, c, d, e⟩ := H
  refine ⟨a, fun hr => ?_, fun hr m => z hr _ _ _ _ _, c, d, e, z⟩
  have := b hr
  rw [nf_env3, nctr_env3] at this
  exact this

/-- the sizes of the blocks -/
def Call3.nsp (s : Call3 α) (ki kj : Int) : Nat → Nat := four (lenSpinorC2S ki s.si.l) (lenSpinorC2S kj s.sj.l) (s.sk.l*2+1) 1

/-- CINT3c2e_spinor_drv -/
theorem drv3c2eSp_wp {V : Nat → Nat → Nat → Nat → Nat → α} {ret : Bool → Prop} {h : Heap α} {fpd buf size nT : Nat}
    {empty fl loc counts out sph : Ptr} {dims : Option Ptr} {nd : Nat → Nat}
    {tab : JTab} {kd : SpKind} {ki kj : Int} {loop : Ptr → Nat → Prog α Bool}
    (M : CallMem3 h fpd buf size empty fl loc counts) (hsize : cacheSize3c2eSp X s ≤ size)
    (hL : wp (loop ⟨buf, 0⟩ (fpd * ((s.env X).nf * s.nctr * X.nComp)))
      (Post3 X s V ret buf 0 empty fl loc (h.setI empty 1)) (h.setI empty 1))
    (hs : Sizes 3 (Call3.nsp s ki kj) (Call3.nctrs s) nd)
    (O : OutArgZ2 3 h nd (fun t => Call3.nsp s ki kj t * Call3.nctrs s t) nT out dims buf empty fl loc counts)
    (T : TabArg3 h tab sph buf out) (hc : X.nComp = SpKind.e1 kd * nT)
    (hli : s.si.l < 13) (hlj : s.sj.l < 13) (hlk : s.sk.l < 16) :
    wp (drv3c2eSp X s loop (SpKind.e1 kd) nT kd sph tab ki kj fpd out dims buf 0 empty counts) (fun has h' =>
      (∀ n ic jc kc i j k, n < nT → ic < s.si.nctr → jc < s.sj.nctr → kc < s.sk.nctr →
        i < lenSpinorC2S ki s.si.l → j < lenSpinorC2S kj s.sj.l → k < s.sk.l*2+1 →
        HoldsC h' out (outAt nd n (ic*lenSpinorC2S ki s.si.l+i) (jc*lenSpinorC2S kj s.sj.l+j) (kc*(s.sk.l*2+1)+k) 0)
          (spin3 kd.si kd.ph ki kj s.si.l s.sj.l s.sk.l (fun c x => V (n*SpKind.e1 kd + c) ic jc kc x) i j k)) ∧
      (has = false → ∀ m, InBlock nd (fun t => Call3.nsp s ki kj t * Call3.nctrs s t) nT (m/2) → h'.D (out + m) = .val 0) ∧
      FrameZ h h' nd (fun t => Call3.nsp s ki kj t * Call3.nctrs s t) nT buf out empty fl loc counts ∧ ret has) h := by
  have hf := M.fpd_pos
  let di := lenSpinorC2S ki s.si.l
  let dj := lenSpinorC2S kj s.sj.l
  let dk := s.sk.l*2+1
  let ls := Call3.ls s
  let nctrs := Call3.nctrs s
  let nfo := Call3.nsp s ki kj
  let tot := blkLen ls * nctrOf nctrs * X.nComp
  have hnfE : (s.env X).nf = blkLen ls := nf_env3
  have hnc : (s.env X).nf * s.si.nctr * s.sj.nctr * s.sk.nctr = blkLen ls * nctrOf nctrs := by
    rw [hnfE, ← nctr_env3]
    unfold Call3.nctr
    ring
  have htot : (s.env X).nf * s.nctr * X.nComp = tot := by
    rw [hnfE, nctr_env3]
  have hblk : blkLen ls = ncart s.si.l * ncart s.sk.l * ncart s.sj.l := by
    rw [← hnfE]; rfl
  have hfree : tot + ncart s.si.l*ncart s.sk.l*ncart s.sj.l*28 ≤ size := by
    refine le_trans ?_ hsize
    unfold cacheSize3c2eSp
    dsimp only
    refine le_trans ?_ (le_max_right _ _)
    rw [hnc, hnfE, ← hblk]
    show tot + blkLen ls*28 ≤ tot + blkLen ls * 14 * 2
    omega
  unfold drv3c2eSp
  dsimp only
  rw [hnc, show blkLen ls * nctrOf nctrs * X.nComp = tot from rfl,
    show mallocD fpd buf 0 tot = (⟨buf, 0⟩, fpd * tot) from by
      have := mallocD_eq hf buf 0 tot; rw [Nat.zero_add] at this; exact this]
  dsimp only
  rw [htot] at hL
  refine front_wp (V := V3 V) (ls := ls) (nctrs := nctrs) (nComp := X.nComp) (buf := buf) (fl := fl) (loc := loc)
    (st := fun has => zOutStage 3 has nT (fun n out dims => c2sZ3c
      { ic := s.si.nctr, jc := s.sj.nctr, kc := s.sk.nctr, di := di, dj := dj, dk := dk, nf := (s.env X).nf }
      (spTrans3c kd sph tab fpd s.si.l s.sj.l s.sk.l ki kj (blkLen ls * nctrOf nctrs) buf (fpd*tot)) out
        ((⟨buf, 0⟩ : Ptr) + blkLen ls * nctrOf nctrs * SpKind.e1 kd * n) dims) out dims counts
      (fun t => four di dj dk 1 t * four s.si.nctr s.sj.nctr s.sk.nctr 1 t))
    M.emw (wp_mono hL fun _ _ => post3_postG) ?_
  rintro has h1 D ⟨hr, hret⟩
  let Z : Nat → Ix4 → Cx α := fun n k => spin3 kd.si kd.ph ki kj s.si.l s.sj.l s.sk.l
    (fun c x => V (n*SpKind.e1 kd + c) (k.1/di) (k.2.1/dj) (k.2.2.1/dk) x) (k.1%di) (k.2.1%dj) (k.2.2.1%dk)
  have key := zOut (nd := nd) (nT := nT) (size := size) (counts := counts) (out := out) (dims := dims)
    (TAB := fun h => TabArg3 h tab sph buf out) (nfo := nfo) (Z := Z)
    (f := fun n out dims => c2sZ3c
      { ic := s.si.nctr, jc := s.sj.nctr, kc := s.sk.nctr, di := di, dj := dj, dk := dk, nf := (s.env X).nf }
      (spTrans3c kd sph tab fpd s.si.l s.sj.l s.sk.l ki kj (blkLen ls * nctrOf nctrs) buf (fpd*tot)) out
        ((⟨buf, 0⟩ : Ptr) + blkLen ls * nctrOf nctrs * SpKind.e1 kd * n) dims)
    D hs (s.env X).nf O M.countsw M.dbl T (fun h h' T A => T.keep A)
    (fun hb n k => spinor2_zero (fun c a b => by
      rw [Finset.sum_eq_zero]
      · rfl
      · intro c _
        beta_reduce
        rw [hret hb, mul_zero])) ?_
  · refine wp_mono key ?_
    rintro _ h2 ⟨v, z, fr⟩
    refine ⟨fun n ic jc kc i j k hn p1 p2 p3 p4 p5 p6 => ?_, z, fr, hr⟩
    have := v n (ic*di+i) (jc*dj+j) (kc*dk+k) 0 hn (digit_lt p4 p1) (digit_lt p5 p2) (digit_lt p6 p3) Nat.one_pos
    have e : Z n (ic*di+i, jc*dj+j, kc*dk+k, 0) =
        spin3 kd.si kd.ph ki kj s.si.l s.sj.l s.sk.l (fun c x => V (n*SpKind.e1 kd + c) ic jc kc x) i j k := by
      show spin3 _ _ _ _ _ _ _ (fun c x => V (n*SpKind.e1 kd + c) ((ic*di+i)/di) ((jc*dj+j)/dj) ((kc*dk+k)/dk) x)
        ((ic*di+i)%di) ((jc*dj+j)%dj) ((kc*dk+k)%dk) = _
      rw [(digit p4).1, (digit p4).2, (digit p5).1, (digit p5).2, (digit p6).1, (digit p6).2]
    rw [e] at this
    exact this
  · intro n hn
    exact sp3c_writes (V := V3 V) (ls := ls) (nctrs := nctrs) (nfo := nfo) (nd := nd) (nComp := X.nComp) (nT := nT)
      (n := n) (buf := buf) (size := size) (fpd := fpd) (out := out) (dims := dims.getD counts) (tab := tab) (sph := sph) (kd := kd) (ki := ki)
      (kj := kj) (nf := (s.env X).nf) hs hf hn hc O.h_obuf hblk hnfE rfl rfl rfl hli hlj hlk hfree

end
end Verif.Lemmas
