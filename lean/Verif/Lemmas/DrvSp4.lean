import Verif.Lemmas.DrvSp3
import Verif.Lemmas.DrvOut2
import Verif.Lemmas.Int2eOpt
import Verif.Spec.Spin4

/-! CINT2e_spinor_drv. -/
namespace Verif.Lemmas
open Verif Verif.Model Verif.Prog Verif.Props Verif.Spec

section
variable {α : Type} [Field α] [LinearOrder α]

/-- a block of integrals whose first electron is transformed: real parts, then imaginary parts -/
def HalfAt (h : Heap α) (buf po no di C dj b : Nat) (Z : Nat → Nat → Nat → Cx α) : Prop :=
  ∀ im j c i, j < dj → c < C → i < di →
    h.D ⟨buf, po + b*(no*2) + ((if im then no else 0) + ((j*C+c)*di + i))⟩ = .val (part (Z i j c) im)

theorem HalfAt.from {h h' : Heap α} {buf po no di C dj b : Nat} {Z : Nat → Nat → Nat → Cx α} {W : Ptr → Prop}
    (H : HalfAt h buf po no di C dj b Z) (A : AgreeD h h' W) (hno : no = dj*C*di)
    (hW : ∀ x, po + b*(no*2) ≤ x → x < po + b*(no*2) + no*2 → ¬ W ⟨buf, x⟩) : HalfAt h' buf po no di C dj b Z := by
  intro im j c i hj hc hi
  have hx := radix_lt (radix_lt hj hc) hi
  rw [← hno] at hx
  rw [A _ (hW _ (Nat.le_add_right _ _) ?_)]
  · exact H im j c i hj hc hi
  · split <;> omega

set_option maxHeartbeats 1600000 in
/-- the transformation of the first electron -/
theorem c2sZ2e1_wp {h : Heap α} {tab : JTab} {k : SpKind} {fpd li lj lk ll nblk buf o po size goff : Nat} {ki kj : Int}
    {x : Nat → Nat → Nat → α} (hf : 0 < fpd) (hT : HoldsJ h tab.R tab.I) (hli : li < 13) (hlj : lj < 13)
    (htR : tab.R.buf ≠ buf) (htI : tab.I.buf ≠ buf) (hR : Room h buf po size) {no nf : Nat}
    (hno : no = lenSpinorC2S ki li*lenCart lk*lenCart ll*lenSpinorC2S kj lj)
    (hnf : nf = lenCart li*lenCart lk*lenCart ll*lenCart lj)
    (hpo : po + nblk*(no*2) ≤ o) (hsz : o + nf*8 ≤ size)
    (G : ∀ t, t < (if k.si then 4 else 1) → ∀ b, b < nblk → ∀ m, m < nf →
      h.D ⟨buf, goff + b*nf + t*(nf*nblk) + m⟩ = .val (x t b m) ∧ goff + b*nf + t*(nf*nblk) + m < po) :
    wp (c2sZ2e1 k tab fpd li lj lk ll ki kj nblk buf (fpd*o) ⟨buf, po⟩ ⟨buf, goff⟩) (fun _ h' =>
      (∀ b, b < nblk → HalfAt h' buf po no (lenSpinorC2S ki li) (lenCart lk*lenCart ll) (lenSpinorC2S kj lj) b
        (fun i j c => spinor2 k.si k.ph ki kj li lj (fun t m n => Cx.ofR (x t b ((n*(lenCart lk*lenCart ll)+c)*lenCart li+m))) i j)) ∧
      From h (fun q => q.buf = buf ∧ ((po ≤ q.off ∧ q.off < po + nblk*(no*2)) ∨ o ≤ q.off)) h') h := by
  let di := lenSpinorC2S ki li
  let dj := lenSpinorC2S kj lj
  let nfi := lenCart li
  let nfj := lenCart lj
  let C := lenCart lk*lenCart ll
  have hdi : di ≤ 2*nfi := lenSpinorC2S_le ki li
  let N1 := di*lenCart lk*lenCart ll*(nfj+nfj)
  have eN1 : N1 = 2*(nfj*C*di*1) := by
    show di*lenCart lk*lenCart ll*(nfj+nfj) = 2*(nfj*(lenCart lk*lenCart ll)*di*1); ring
  have eN2 : no = 1*dj*(C*di) := by
    rw [hno]; show di*lenCart lk*lenCart ll*dj = 1*dj*(lenCart lk*lenCart ll*di); ring
  have hN1 : N1 ≤ nf*4 := by
    calc N1 = di*(lenCart lk*lenCart ll*(2*nfj)) := by show di*lenCart lk*lenCart ll*(nfj+nfj) = _; ring
      _ ≤ 2*nfi*(lenCart lk*lenCart ll*(2*nfj)) := Nat.mul_le_mul_right _ hdi
      _ = nf*4 := by rw [hnf]; show _ = nfi*lenCart lk*lenCart ll*nfj*4; ring
  unfold c2sZ2e1
  dsimp only
  rw [← hno, ← hnf]
  rw [mallocD_eq hf]
  dsimp only
  rw [mallocD_eq hf]
  dsimp only
  rw [wp_mbind]
  refine wp_forS (fun b s h1 => s = ((⟨buf, goff + b*nf⟩ : Ptr), (⟨buf, po + b*(no*2)⟩ : Ptr)) ∧
      (∀ b', b' < b → HalfAt h1 buf po no di C dj b'
        (fun i j c => spinor2 k.si k.ph ki kj li lj (fun t m n => Cx.ofR (x t b' ((n*C+c)*nfi+m))) i j)) ∧
      From h (fun q => q.buf = buf ∧ ((po ≤ q.off ∧ q.off < po + b*(no*2)) ∨ o ≤ q.off)) h1) ?_ ?_ ?_
  · exact ⟨by rw [Nat.zero_mul, Nat.zero_mul]; rfl, fun b' hb' => absurd hb' (Nat.not_lt_zero _), From.refl _ _⟩
  · rintro b hb s h1 ⟨rfl, H, Fr⟩
    dsimp only
    have hb2 : (b+1)*(no*2) ≤ nblk*(no*2) := Nat.mul_le_mul_right _ hb
    have hb3 : (b+1)*(no*2) = b*(no*2) + no*2 := by ring
    have hR1 : Room h1 buf po size := fun k h2 h3 => Fr.al _ (hR k h2 h3)
    have hT1 : HoldsJ h1 tab.R tab.I := holdsJ_agree hT Fr.D
      (fun q hq => by rw [hq.1]; exact htR.symm) (fun q hq => by rw [hq.1]; exact htI.symm)
    have key := spTwo_wp (h := h1) (tab := tab) (k := k) (R1 := ⟨buf, o⟩) (I1 := ⟨buf, o+N1⟩) (R2 := ⟨buf, po + b*(no*2)⟩)
      (I2 := ⟨buf, po + b*(no*2) + no⟩) (g := ⟨buf, goff + b*nf⟩) (C := C) (n := nf*nblk)
      (nket := lenCart lk*lenCart ll*nfj) (nbra := di*lenCart lk*lenCart ll) (ki := ki) (kj := kj)
      (x := fun t a m => x t b (a*nfi+m)) hT1 hli hlj (Nat.mul_comm _ _) (by
        show di*lenCart lk*lenCart ll = lenCart lk*lenCart ll*di; ring)
      (by rw [← eN1]; exact outS_of_room hR1 (by omega) (Nat.le_refl _) (by omega))
      (by rw [← eN2]; exact outS_of_room hR1 (by omega) (Nat.le_refl _) (by omega))
      (by
        rw [← eN1, ← eN2]
        intro q h1 h2
        obtain ⟨_, h3⟩ := reg2_room h1
        obtain ⟨_, h4⟩ := reg2_room h2
        omega)
      (by
        intro q hq
        have : q.buf = buf := by
          rcases hq with h1 | h1
          · exact (reg2_room h1).1
          · exact (reg2_room h1).1
        rw [this]
        exact ⟨htR.symm, htI.symm⟩)
      (by
        intro t ht a m ha hm
        have hm' : a*nfi+m < nf := by
          have h2 := radix_lt ha hm
          calc _ < _ := h2
            _ = nf := by rw [hnf]; show nfj*(lenCart lk*lenCart ll)*nfi = nfi*lenCart lk*lenCart ll*nfj; ring
        obtain ⟨g1, g2⟩ := G t ht b hb _ hm'
        have e : ((⟨buf, goff+b*nf⟩ : Ptr) + t*(nf*nblk)) + (a*lenCart li+m) = ⟨buf, goff + b*nf + t*(nf*nblk) + (a*nfi+m)⟩ := rfl
        rw [e]
        rw [← eN1]
        refine ⟨?_, fun hq => ?_⟩
        · rw [Fr.D _ (fun hq => ?_)]
          · exact g1
          · have h3 := hq.2
            dsimp only at h3
            omega
        · obtain ⟨_, h3⟩ := reg2_room hq
          dsimp only at h3
          omega)
    rw [wp_mbind] at key ⊢
    refine wp_mono key ?_
    intro _ h2 key2
    rw [wp_mbind]
    refine wp_mono key2 ?_
    rintro _ h3 ⟨K, F3⟩
    rw [wp_pure]
    have F3' : From h1 (fun q => q.buf = buf ∧ ((po + b*(no*2) ≤ q.off ∧ q.off < po + (b+1)*(no*2)) ∨ o ≤ q.off)) h3 := by
      refine ⟨F3.D.mono ?_, F3.al, F3.I⟩
      intro q hq
      rw [← eN1, ← eN2] at hq
      rcases hq with h1 | h1
      · obtain ⟨h2, h3⟩ := reg2_room h1
        exact ⟨h2, by omega⟩
      · obtain ⟨h2, h3⟩ := reg2_room h1
        exact ⟨h2, by omega⟩
    refine ⟨?_, fun b' hb' => ?_, from_trans Fr F3' ?_ ?_⟩
    · show ((⟨buf, goff + b*nf + nf⟩ : Ptr), (⟨buf, po + b*(no*2) + no*2⟩ : Ptr)) = _
      rw [show goff + b*nf + nf = goff + (b+1)*nf by ring, show po + b*(no*2) + no*2 = po + (b+1)*(no*2) by ring]
    · rcases Nat.lt_succ_iff_lt_or_eq.1 hb' with hlt | rfl
      · refine (H b' hlt).from F3'.D (by rw [eN2]; ring) ?_
        intro y h4 h5 ⟨_, h6⟩
        have h7 : (b'+1)*(no*2) ≤ b*(no*2) := Nat.mul_le_mul_right _ hlt
        have h8 : (b'+1)*(no*2) = b'*(no*2) + no*2 := by ring
        dsimp only at h6
        omega
      · intro im j c i hj hc hi
        have := K im j c i hj hc hi
        cases im
        · refine Eq.trans ?_ this
          exact congrArg (fun z => h3.D ⟨buf, z⟩) (by
            show po + b'*(no*2) + (0 + ((j*C+c)*di+i)) = po + b'*(no*2) + ((j*C+c)*di+i)
            rw [Nat.zero_add])
        · refine Eq.trans ?_ this
          exact congrArg (fun z => h3.D ⟨buf, z⟩) (by
            show po + b'*(no*2) + (no + ((j*C+c)*di+i)) = po + b'*(no*2) + no + ((j*C+c)*di+i)
            exact (Nat.add_assoc _ _ _).symm)
    · rintro q ⟨h4, h5⟩
      exact ⟨h4, by omega⟩
    · rintro q ⟨h4, h5⟩
      exact ⟨h4, by omega⟩
  · rintro s h1 ⟨-, H, Fr⟩
    rw [wp_pure]
    exact ⟨H, Fr⟩

/-- the second electron: `di` functions before the bra, `dj` behind the ket -/
theorem spTwo2_wp {h : Heap α} {tab : JTab} {k : SpKind} {R1 I1 R2 I2 g : Ptr} {di dj n lk ll : Nat} {kk kl : Int}
    {x : Nat → Nat → Nat → Nat → Cx α} (hT : HoldsJ h tab.R tab.I) (hlk : lk < 13) (hll : ll < 13)
    (O1 : OutS h R1 I1 (2*(lenCart ll*dj*lenSpinorC2S kk lk*di))) (O2 : OutS h R2 I2 (dj*lenSpinorC2S kl ll*(di*lenSpinorC2S kk lk)))
    (hD : ∀ q, Reg2 R1 I1 (2*(lenCart ll*dj*lenSpinorC2S kk lk*di)) q →
      ¬ Reg2 R2 I2 (dj*lenSpinorC2S kl ll*(di*lenSpinorC2S kk lk)) q)
    (hB : ∀ q, (Reg2 R1 I1 (2*(lenCart ll*dj*lenSpinorC2S kk lk*di)) q ∨
      Reg2 R2 I2 (dj*lenSpinorC2S kl ll*(di*lenSpinorC2S kk lk)) q) → q.buf ≠ tab.R.buf ∧ q.buf ≠ tab.I.buf)
    (G : ∀ t, t < (if k.si then 4 else 1) → InZ h (Reg2 R1 I1 (2*(lenCart ll*dj*lenSpinorC2S kk lk*di))) (g + t*n)
      (g + t*n + lenCart ll*dj*lenCart lk*di) (lenCart ll*dj) (lenCart lk) di (x t)) :
    wp (do
      k.bra1 tab R1 I1 g n di (lenCart ll*dj) kk lk
      k.ket1 tab R2 I2 R1 I1 (di*lenSpinorC2S kk lk) dj kl ll) (fun _ h' =>
      (∀ im j l c i, j < dj → l < lenSpinorC2S kl ll → c < lenSpinorC2S kk lk → i < di →
        h'.D (side (R2, I2) im + ((j*lenSpinorC2S kl ll + l)*(di*lenSpinorC2S kk lk) + (c*di+i))) =
          .val (part (spinor2 k.si k.ph kk kl lk ll (fun t m n => x t (j*lenCart ll+n) m i) c l) im)) ∧
      From h (fun q => Reg2 R1 I1 (2*(lenCart ll*dj*lenSpinorC2S kk lk*di)) q ∨
        Reg2 R2 I2 (dj*lenSpinorC2S kl ll*(di*lenSpinorC2S kk lk)) q) h') h := by
  obtain ⟨ck, hck, Ck⟩ := coefOK_of_tab (kappa := kk) hT hlk
  obtain ⟨cl, hcl, Cl⟩ := coefOK_of_tab (kappa := kl) hT hll
  rw [wp_mbind]
  refine wp_mono (bra1_kind hck O1 (Ck _ (fun q hq => hB q (Or.inl hq))) G) ?_
  rintro _ h1 ⟨H1, F1⟩
  let dk := lenSpinorC2S kk lk
  let nfl := lenCart ll
  have hkp : ∀ s a n b, b < di*dk → kPos (dj*nfl*(di*dk)) nfl (di*dk) s a n b =
      kPos (nfl*dj*dk*di) dk di s (a*nfl + n) (b/di) (b%di) := by
    intro s a n b hb
    have e : b/di*di + b%di = b := by
      rw [Nat.mul_comm]; exact Nat.div_add_mod _ _
    unfold kPos
    have e1 : (a*nfl+n)*(di*dk)+b = ((a*nfl+n)*dk + b/di)*di + b%di := by
      conv_lhs => rw [← e]
      ring
    rw [e1, show dj*nfl*(di*dk) = nfl*dj*dk*di by ring]
  have hG : InS h1 (Reg2 R2 I2 (dj*lenSpinorC2S kl ll*(di*dk))) R1 I1 (dj*nfl*(di*dk)) dj nfl (di*dk)
      (fun s a n b => braT (cjCoef kk lk) (lenCart lk)
        (fun s t a m b => spinMat k.si (fun c => x c a m b) s t) s (a*nfl+n) (b/di) (b%di)) := by
    intro s a n b ha hn hb
    have hd : 0 < di := by
      rcases Nat.eq_zero_or_pos di with h | h
      · rw [h] at hb; simp at hb
      · exact h
    have hc : b/di < dk := Nat.div_lt_of_lt_mul hb
    have ha' : a*nfl + n < nfl*dj := by rw [Nat.mul_comm nfl]; exact radix_lt ha hn
    have hp := kPos_lt (sp := s) ha' hc (Nat.mod_lt b hd)
    obtain ⟨h2, h3⟩ := H1 s (a*nfl+n) (b/di) (b%di) ha' hc (Nat.mod_lt _ hd)
    rw [hkp s a n b hb]
    exact ⟨⟨h2, hD _ (Or.inl ⟨_, hp, rfl⟩)⟩, h3, hD _ (Or.inr ⟨_, hp, rfl⟩)⟩
  refine wp_mono (ket1_wp hcl (outS_from O2 F1) ((Cl _ hB).mono F1) hG) ?_
  rintro _ h2 ⟨H2, F2⟩
  refine ⟨fun im j l c i hj hl hc hi => ?_, from_trans F1 F2 (fun _ => Or.inl) (fun _ => Or.inr)⟩
  have := H2 j l (c*di+i) hj hl (by rw [Nat.mul_comm di]; exact radix_lt hc hi)
  have e : phase k.ph (ketT (cjCoef kl ll) (lenCart ll) (fun s a n b => braT (cjCoef kk lk) (lenCart lk)
        (fun s t a m b => spinMat k.si (fun c => x c a m b) s t) s (a*nfl+n) (b/di) (b%di)) j l (c*di+i)) =
        spinor2 k.si k.ph kk kl lk ll (fun t m n => x t (j*lenCart ll+n) m i) c l := by
    rw [← spinor2_eq]
    unfold ketT braT
    simp only [(digit hi).1, (digit hi).2]
    rfl
  dsimp only at this
  rw [e] at this
  cases im
  · exact this.1
  · exact this.2


/-- the transformation of the second electron of one block -/
theorem spTrans2e2_wp {h : Heap α} {tab : JTab} {k : SpKind} {fpd lk ll di dj nblk buf o size po : Nat} {kk kl : Int}
    {x : Nat → Nat → Nat → Nat → Cx α} (hf : 0 < fpd) (hT : HoldsJ h tab.R tab.I) (hlk : lk < 13) (hll : ll < 13)
    (htR : tab.R.buf ≠ buf) (htI : tab.I.buf ≠ buf) (hR : Room h buf o size) {no : Nat}
    (hno : no = di*lenCart lk*lenCart ll*dj)
    (hsz : o + di*lenSpinorC2S kk lk*(lenCart ll+lenCart ll)*dj*4 ≤ size)
    (G : ∀ t, t < (if k.si then 4 else 1) → ∀ im a n i, a < lenCart ll*dj → n < lenCart lk → i < di →
      h.D ⟨buf, po + t*(no*2*nblk) + ((if im then no else 0) + ((a*lenCart lk+n)*di+i))⟩ = .val (part (x t a n i) im) ∧
      po + t*(no*2*nblk) + ((if im then no else 0) + ((a*lenCart lk+n)*di+i)) < o) :
    wp (spTrans2e2 k tab fpd ll lk kk kl di dj nblk buf (fpd*o) ⟨buf, po⟩) (fun t h' =>
      (∀ im j l c i, j < dj → l < lenSpinorC2S kl ll → c < lenSpinorC2S kk lk → i < di →
        h'.D (side t im + ((j*lenSpinorC2S kl ll + l)*(di*lenSpinorC2S kk lk) + (c*di+i))) =
          .val (part (spinor2 k.si k.ph kk kl lk ll (fun t m n => x t (j*lenCart ll+n) m i) c l) im)) ∧
      From h (fun q => q.buf = buf ∧ o ≤ q.off) h' ∧
      ∀ im, (side t im).buf = buf) h := by
  let dk := lenSpinorC2S kk lk
  let dl := lenSpinorC2S kl ll
  let nfl := lenCart ll
  have hdl : dl ≤ 2*nfl := lenSpinorC2S_le kl ll
  let N1 := di*dk*(nfl+nfl)*dj
  have eN1 : N1 = 2*(nfl*dj*dk*di) := by show di*dk*(nfl+nfl)*dj = _; ring
  let N2 := di*dk*dl*dj
  have eN2 : N2 = dj*dl*(di*dk) := by show di*dk*dl*dj = _; ring
  have hN2 : N2 ≤ N1 := by
    refine Nat.mul_le_mul_right _ (Nat.mul_le_mul_left _ ?_)
    omega
  have hsz' : o + N1*4 ≤ size := hsz
  have core : ∀ p1 p2 p3 p4 : Nat, o ≤ p1 → o ≤ p3 → p1 + N1 ≤ p2 → p3 + N2 ≤ p4 → p2 + N1 ≤ size → p4 + N2 ≤ size →
      (p2 + N1 ≤ p3 ∨ p4 + N2 ≤ p1) →
      wp (do
        k.bra1 tab ⟨buf, p1⟩ ⟨buf, p2⟩ ⟨buf, po⟩ (no*2*nblk) di (nfl*dj) kk lk
        k.ket1 tab ⟨buf, p3⟩ ⟨buf, p4⟩ ⟨buf, p1⟩ ⟨buf, p2⟩ (di*dk) dj kl ll
        pure ((⟨buf, p3⟩ : Ptr), (⟨buf, p4⟩ : Ptr))) (fun t h' =>
      (∀ im j l c i, j < dj → l < dl → c < dk → i < di →
        h'.D (side t im + ((j*dl + l)*(di*dk) + (c*di+i))) =
          .val (part (spinor2 k.si k.ph kk kl lk ll (fun t m n => x t (j*nfl+n) m i) c l) im)) ∧
      From h (fun q => q.buf = buf ∧ o ≤ q.off) h' ∧
      ∀ im, (side t im).buf = buf) h := by
    intro p1 p2 p3 p4 q1 q2 q3 q4 q5 q6 q7
    have key := spTwo2_wp (h := h) (tab := tab) (k := k) (R1 := ⟨buf, p1⟩) (I1 := ⟨buf, p2⟩) (R2 := ⟨buf, p3⟩)
      (I2 := ⟨buf, p4⟩) (g := ⟨buf, po⟩) (di := di) (dj := dj) (n := no*2*nblk) (kk := kk) (kl := kl) (x := x) hT hlk hll
      (by rw [← eN1]; exact outS_of_room hR q1 q3 q5)
      (by rw [← eN2]; exact outS_of_room hR q2 q4 q6)
      (by
        rw [← eN1, ← eN2]
        intro q h1 h2
        obtain ⟨_, h3⟩ := reg2_room h1
        obtain ⟨_, h4⟩ := reg2_room h2
        omega)
      (by
        intro q hq
        have : q.buf = buf := by
          rcases hq with h1 | h1
          · exact (reg2_room h1).1
          · exact (reg2_room h1).1
        rw [this]
        exact ⟨htR.symm, htI.symm⟩)
      (by
        intro t ht a n i ha hn hi
        obtain ⟨g1, g2⟩ := G t ht false a n i ha hn hi
        obtain ⟨g3, g4⟩ := G t ht true a n i ha hn hi
        simp only [if_true, Bool.false_eq_true, if_false, Nat.zero_add] at g1 g2 g3 g4
        rw [← eN1]
        have e : ((⟨buf, po⟩ : Ptr) + t*(no*2*nblk) + lenCart ll*dj*lenCart lk*di) + ((a*lenCart lk+n)*di+i) =
            ⟨buf, po + t*(no*2*nblk) + (no + ((a*lenCart lk+n)*di+i))⟩ := by
          rw [show lenCart ll*dj*lenCart lk*di = no by rw [hno]; ring, Ptr.add_assoc]
          rfl
        refine ⟨⟨g1, fun hq => ?_⟩, ?_⟩
        · obtain ⟨_, h3⟩ := reg2_room hq
          have e2 : (((⟨buf, po⟩ : Ptr) + t*(no*2*nblk)) + ((a*lenCart lk+n)*di+i)).off =
            po + t*(no*2*nblk) + ((a*lenCart lk+n)*di+i) := rfl
          rw [e2] at h3
          omega
        · rw [e]
          refine ⟨g3, fun hq => ?_⟩
          obtain ⟨_, h3⟩ := reg2_room hq
          dsimp only at h3
          omega)
    rw [wp_mbind] at key ⊢
    refine wp_mono key ?_
    intro _ h1 key1
    rw [wp_mbind]
    refine wp_mono key1 ?_
    rintro _ h' ⟨H, F⟩
    rw [wp_pure]
    refine ⟨H, ⟨F.D.mono ?_, F.al, F.I⟩, fun im => by cases im <;> rfl⟩
    intro q h1
    rw [← eN1, ← eN2] at h1
    rcases h1 with h1 | h1
    · obtain ⟨h2, h3⟩ := reg2_room h1
      exact ⟨h2, by omega⟩
    · obtain ⟨h2, h3⟩ := reg2_room h1
      exact ⟨h2, by omega⟩
  unfold spTrans2e2
  dsimp only
  rw [← hno]
  rw [mallocD_eq hf]
  dsimp only
  rw [mallocD_eq hf]
  dsimp only
  rw [mallocD_eq hf]
  dsimp only
  rw [mallocD_eq hf]
  dsimp only
  obtain ⟨si, ph⟩ := k
  cases si with
  | false =>
    simp only [Bool.false_and, Bool.false_eq_true, if_false]
    exact core o (o+N1) (o+N1+N1) (o+N1+N1+N2) (by omega) (by omega) (by omega) (by omega) (by omega) (by omega) (by omega)
  | true =>
    cases ph with
    | false =>
      simp only [Bool.true_and, Bool.false_eq_true, if_false, if_true]
      exact core o (o+N1) (o+N1+N1) (o+N1+N1+N1) (by omega) (by omega) (by omega) (by omega) (by omega) (by omega) (by omega)
    | true =>
      simp only [Bool.true_and, if_true]
      exact core (o+N1+N1) (o+N1+N1+N1) o (o+N1) (by omega) (by omega) (by omega) (by omega) (by omega) (by omega) (by omega)


/-- the half transformed integrals of one tensor element, in terms of the array of contracted integrals -/
def halfOf (v : Nat → α) (ls : Nat → Nat) (kap : Nat → Int) (k1 : SpKind) (nc nf n e2 m b i j c : Nat) : Cx α :=
  spinor2 k1.si k1.ph (kap 0) (kap 1) (ls 0) (ls 1) (fun t p q =>
    Cx.ofR (v (nc*((n*e2+m)*SpKind.e1 k1+t) + b*nf + ((q*(lenCart (ls 2)*lenCart (ls 3))+c)*lenCart (ls 0)+p)))) i j

/-- the transformation of the first electron for one tensor element -/
theorem sp2e1_all {TAB : Heap α → Prop} {r : Nat} {nd cnt ls : Nat → Nat} {nblk nComp nT n buf size fpd : Nat}
    {out dims : Ptr} {tab : JTab} {k1 : SpKind} {kap : Nat → Int} {no n1 nf e2 : Nat} {v : Nat → α} {h : Heap α}
    (hf : 0 < fpd) (hn : n < nT) (hc : nComp = SpKind.e1 k1 * e2 * nT) (hob : out.buf ≠ buf)
    (hTk : ∀ h h', TAB h → AgreeD h h' (fun q => q.buf = buf ∨ q.buf = out.buf) → TAB h')
    (hTA : ∀ h, TAB h → TabArg h tab buf out)
    (hno : no = lenSpinorC2S (kap 0) (ls 0)*lenCart (ls 2)*lenCart (ls 3)*lenSpinorC2S (kap 1) (ls 1)) (hn1 : n1 = no*nblk)
    (hnf : nf = lenCart (ls 0)*lenCart (ls 2)*lenCart (ls 3)*lenCart (ls 1))
    (hli : ls 0 < 13) (hlj : ls 1 < 13) (hfree : nf*nblk*nComp + n1*e2*2 + nf*8 ≤ size)
    (hok : ZOk TAB r nd cnt nT out dims buf size (nf*nblk*nComp) v h) :
    wp (forN e2 fun m' => c2sZ2e1 k1 tab fpd (ls 0) (ls 1) (ls 2) (ls 3) (kap 0) (kap 1) nblk buf (fpd*(nf*nblk*nComp + n1*e2*2))
        ((⟨buf, nf*nblk*nComp⟩ : Ptr) + 2*(n1*m')) ((⟨buf, 0⟩ : Ptr) + nf*nblk*SpKind.e1 k1*(n*e2+m'))) (fun _ h' =>
      (∀ m, m < e2 → ∀ b, b < nblk → HalfAt h' buf (nf*nblk*nComp + 2*(n1*m)) no (lenSpinorC2S (kap 0) (ls 0))
        (lenCart (ls 2)*lenCart (ls 3)) (lenSpinorC2S (kap 1) (ls 1)) b (halfOf v ls kap k1 (nf*nblk) nf n e2 m b)) ∧
      ZOk TAB r nd cnt nT out dims buf size (nf*nblk*nComp) v h' ∧ From h (WBuf buf (nf*nblk*nComp)) h') h := by
  generalize htot : nf*nblk*nComp = tot at *
  refine wp_forN (fun m h1 =>
      (∀ m', m' < m → ∀ b, b < nblk → HalfAt h1 buf (tot + 2*(n1*m')) no (lenSpinorC2S (kap 0) (ls 0))
        (lenCart (ls 2)*lenCart (ls 3)) (lenSpinorC2S (kap 1) (ls 1)) b (halfOf v ls kap k1 (nf*nblk) nf n e2 m' b)) ∧
      ZOk TAB r nd cnt nT out dims buf size tot v h1 ∧ From h (WBuf buf tot) h1)
    ⟨fun m hm => absurd hm (Nat.not_lt_zero _), hok, From.refl _ _⟩ ?_ (fun _ x => x)
  rintro m hm h1 ⟨H, hok1, Fr⟩
  have T := hTA h1 hok1.tab
  have hmul : n1*m + n1 ≤ n1*e2 := by
    calc n1*m + n1 = n1*(m+1) := by ring
      _ ≤ n1*e2 := Nat.mul_le_mul_left _ hm
  have hno2 : nblk*(no*2) = 2*n1 := by rw [hn1]; ring
  have key := c2sZ2e1_wp (h := h1) (tab := tab) (k := k1) (fpd := fpd) (lk := ls 2) (ll := ls 3) (nblk := nblk) (buf := buf)
    (o := tot + n1*e2*2) (po := tot + 2*(n1*m)) (size := size) (goff := 0 + nf*nblk*SpKind.e1 k1*(n*e2+m)) (ki := kap 0) (kj := kap 1)
    (x := fun t b y => v (nf*nblk*((n*e2+m)*SpKind.e1 k1+t) + b*nf + y))
    hf T.holds hli hlj T.Rbuf T.Ibuf (fun k _ hk => hok1.cache k hk) hno hnf (by omega) hfree (fun t ht b hb y hy => ?_)
  · refine wp_mono key ?_
    rintro _ h2 ⟨K, F2⟩
    have F2' : From h1 (WBuf buf tot) h2 := ⟨F2.D.mono (fun q hq => ⟨hq.1, by omega⟩), F2.al, F2.I⟩
    refine ⟨fun m' hm' b hb => ?_, hok1.keep hTk hob (Nat.le_refl _) (F2'.D.mono fun _ => Or.inl) F2'.al F2'.I,
      from_trans Fr F2' (fun _ x => x) (fun _ x => x)⟩
    rcases Nat.lt_succ_iff_lt_or_eq.1 hm' with hlt | rfl
    · refine (H m' hlt b hb).from F2.D (by rw [hno]; ring) ?_
      intro y h4 h5 ⟨_, h6⟩
      dsimp only at h6
      have h7 : n1*m' + n1 ≤ n1*m := by
        calc n1*m' + n1 = n1*(m'+1) := by ring
          _ ≤ n1*m := Nat.mul_le_mul_left _ hlt
      have h8 : b*(no*2) + no*2 ≤ nblk*(no*2) := by
        calc b*(no*2) + no*2 = (b+1)*(no*2) := by ring
          _ ≤ _ := Nat.mul_le_mul_right _ hb
      omega
    · exact K b hb
  · have hcomp : (n*e2+m)*SpKind.e1 k1+t < nComp := by
      have h3 := radix_lt (radix_lt hn hm) ht
      calc _ < _ := h3
        _ = nComp := by rw [hc]; show _ = SpKind.e1 k1 * e2 * nT; unfold SpKind.e1; ring
    have h6 : nf*nblk*((n*e2+m)*SpKind.e1 k1+t) + b*nf + y < tot := by
      have h7 := radix_lt hcomp (radix_lt hb hy)
      calc nf*nblk*((n*e2+m)*SpKind.e1 k1+t) + b*nf + y = ((n*e2+m)*SpKind.e1 k1+t)*(nblk*nf) + (b*nf + y) := by ring
        _ < _ := h7
        _ = tot := by rw [← htot]; ring
    have e3 : 0 + nf*nblk*SpKind.e1 k1*(n*e2+m) + b*nf + t*(nf*nblk) + y =
        0 + (nf*nblk*((n*e2+m)*SpKind.e1 k1+t) + b*nf + y) := by ring
    rw [e3]
    exact ⟨hok1.gctr _ h6, by omega⟩

set_option maxHeartbeats 800000 in
/-- one component of the output of two-electron integrals -/
theorem sp2e_writes {V : Nat → Nat → Nat → Nat → Nat → Nat → α} {ls nctrs nfo nd : Nat → Nat} {nComp nT n buf size fpd : Nat}
    {out dims : Ptr} {tab : JTab} {k1 k2 : SpKind} {kap : Nat → Int} {no n1 : Nat}
    (hs : Sizes 4 nfo nctrs nd) (hf : 0 < fpd) (hn : n < nT) (hc : nComp = SpKind.e1 k1 * SpKind.e1 k2 * nT) (hob : out.buf ≠ buf)
    (hfo : ∀ t, t < 4 → nfo t = lenSpinorC2S (kap t) (ls t))
    (hno : no = nfo 0*lenCart (ls 2)*lenCart (ls 3)*nfo 1) (hn1 : n1 = no*nctrOf nctrs)
    (hl : ∀ t, t < 4 → ls t < 13)
    (hfree : blkLen ls * nctrOf nctrs * nComp + n1*SpKind.e1 k2*2 + blkLen ls*64 ≤ size) :
    Writes (WBuf buf (blkLen ls * nctrOf nctrs * nComp))
      (ZOk (fun h => TabArg h tab buf out) 4 nd (fun t => nfo t * nctrs t) nT out dims buf size (blkLen ls * nctrOf nctrs * nComp)
        (ctrOf V ls nctrs))
      (do
        forN (SpKind.e1 k2) fun m' => c2sZ2e1 k1 tab fpd (ls 0) (ls 1) (ls 2) (ls 3) (kap 0) (kap 1) (nctrOf nctrs) buf
          (fpd*(blkLen ls * nctrOf nctrs * nComp + n1*SpKind.e1 k2*2)) ((⟨buf, blkLen ls * nctrOf nctrs * nComp⟩ : Ptr) + 2*(n1*m'))
          ((⟨buf, 0⟩ : Ptr) + blkLen ls * nctrOf nctrs*SpKind.e1 k1*(n*SpKind.e1 k2+m'))
        c2sZ2e2 (shapeOf nfo nctrs (no*2)) (spTrans2e2 k2 tab fpd (ls 3) (ls 2) (kap 2) (kap 3) (nfo 0) (nfo 1) (nctrOf nctrs) buf
          (fpd*(blkLen ls * nctrOf nctrs * nComp + n1*SpKind.e1 k2*2))) (out + 2*(nd 0*nd 1*nd 2*nd 3)*n)
          ⟨buf, blkLen ls * nctrOf nctrs * nComp⟩ dims) (fun _ => True)
      (fun k : Zx => inOut (shapeOf nfo nctrs (no*2)) k.2)
      (fun k => out + 2*(nd 0*nd 1*nd 2*nd 3)*n + posZ (nd 0) (nd 1) (nd 2) k)
      (fun k => part (spin4 k1.si k1.ph k2.si k2.ph kap ls (fun c1 c2 x => V ((n*SpKind.e1 k2+c2)*SpKind.e1 k1 + c1) (k.2.1/nfo 0)
        (k.2.2.1/nfo 1) (k.2.2.2.1/nfo 2) (k.2.2.2.2/nfo 3) x) (k.2.1%nfo 0) (k.2.2.1%nfo 1) (k.2.2.2.1%nfo 2) (k.2.2.2.2%nfo 3)) k.1) := by
  have hS := hs.shapeR (no*2)
  have hnf : blkLen ls = lenCart (ls 0)*lenCart (ls 2)*lenCart (ls 3)*lenCart (ls 1) := by
    show ncart (ls 0) * ncart (ls 1) * ncart (ls 2) * ncart (ls 3) = ncart (ls 0) * ncart (ls 2) * ncart (ls 3) * ncart (ls 1)
    ring
  have g0 := hfo 0 (by omega)
  have g1 := hfo 1 (by omega)
  have g2 := hfo 2 (by omega)
  have g3 := hfo 3 (by omega)
  have hdi : nfo 0 ≤ 2*lenCart (ls 0) := by rw [g0]; exact lenSpinorC2S_le _ _
  have hdj : nfo 1 ≤ 2*lenCart (ls 1) := by rw [g1]; exact lenSpinorC2S_le _ _
  have hdk : nfo 2 ≤ 2*lenCart (ls 2) := by rw [g2]; exact lenSpinorC2S_le _ _
  have hlen : nfo 0*nfo 2*(lenCart (ls 3)+lenCart (ls 3))*nfo 1*4 ≤ blkLen ls*64 := by
    calc nfo 0*nfo 2*(lenCart (ls 3)+lenCart (ls 3))*nfo 1*4
        ≤ 2*lenCart (ls 0)*(2*lenCart (ls 2))*(lenCart (ls 3)+lenCart (ls 3))*(2*lenCart (ls 1))*4 :=
          Nat.mul_le_mul_right _ (Nat.mul_le_mul (Nat.mul_le_mul_right _ (Nat.mul_le_mul hdi hdk)) hdj)
      _ = blkLen ls*64 := by rw [hnf]; ring
  have hnblk : nctrs 3*nctrs 2*nctrs 1*nctrs 0 = nctrOf nctrs := by unfold nctrOf; ring
  let tot := blkLen ls * nctrOf nctrs * nComp
  let top := tot + n1*SpKind.e1 k2*2
  let nf := blkLen ls
  let e2 := SpKind.e1 k2
  let v := ctrOf V ls nctrs
  let half : Nat → Nat → Nat → Nat → Nat → Cx α := fun m b i j c => halfOf v ls kap k1 (blkLen ls*nctrOf nctrs) nf n e2 m b i j c
  let Y : Nat → Nat → Cx α := fun b m => spinor2 k2.si k2.ph (kap 2) (kap 3) (ls 2) (ls 3)
      (fun t p q => half t b (m%nfo 0) (m/nfo 0/nfo 2/nfo 3) (q*lenCart (ls 2) + p)) (m/nfo 0%nfo 2) (m/nfo 0/nfo 2%nfo 3)
  let ok' : Heap α → Prop := fun h => ∀ m, m < e2 → ∀ b, b < nctrOf nctrs → HalfAt h buf (tot + 2*(n1*m)) no (nfo 0)
        (lenCart (ls 2)*lenCart (ls 3)) (nfo 1) b (half m b)
  have hpos : ∀ m, m < e2 → ∀ b, b < nctrOf nctrs → tot + 2*(n1*m) + b*(no*2) + no*2 ≤ top := by
    intro m hm b hb
    have h7 : n1*m + n1 ≤ n1*e2 := by
      calc n1*m + n1 = n1*(m+1) := by ring
        _ ≤ n1*e2 := Nat.mul_le_mul_left _ hm
    have h8 : b*(no*2) + no*2 ≤ 2*n1 := by
      calc b*(no*2) + no*2 = (b+1)*(no*2) := by ring
        _ ≤ nctrOf nctrs*(no*2) := Nat.mul_le_mul_right _ hb
        _ = 2*n1 := by rw [hn1]; ring
    show _ ≤ tot + n1*e2*2
    omega
  have hno' : no = nfo 1*(lenCart (ls 2)*lenCart (ls 3))*nfo 0 := by rw [hno]; ring
  have hW := c2sZ2e2_writes (S := shapeOf nfo nctrs (no*2)) (ni := nd 0) (nj := nd 1) (nk := nd 2) (nl := nd 3)
      (trans := spTrans2e2 k2 tab fpd (ls 3) (ls 2) (kap 2) (kap 3) (nfo 0) (nfo 1) (nctrOf nctrs) buf (fpd*top))
      (gctr := ⟨buf, tot⟩) (out := out + 2*(nd 0*nd 1*nd 2*nd 3)*n) (dims := dims)
      (W := WBuf buf top)
      (ok := fun h => ZOk (fun h => TabArg h tab buf out) 4 nd (fun t => nfo t * nctrs t) nT out dims buf size tot v h ∧ ok' h)
      (Y := Y) ⟨hS.pos, hS.hni, hS.hnj, hS.hnk, ?_, ?_, ?_⟩
      (fun h' hok => ⟨hok.1.dim 0 (by omega), hok.1.dim 1 (by omega), hok.1.dim 2 (by omega), hok.1.dim 3 (by omega)⟩)
  · have hval : ∀ k : Zx, inOut (shapeOf nfo nctrs (no*2)) k.2 →
        Y (blkNo (shapeOf nfo nctrs (no*2)) k.2) (cellNo (shapeOf nfo nctrs (no*2)) k.2) =
        spin4 k1.si k1.ph k2.si k2.ph kap ls (fun c1 c2 x => V ((n*SpKind.e1 k2+c2)*SpKind.e1 k1 + c1) (k.2.1/nfo 0)
        (k.2.2.1/nfo 1) (k.2.2.2.1/nfo 2) (k.2.2.2.2/nfo 3) x) (k.2.1%nfo 0) (k.2.2.1%nfo 1) (k.2.2.2.1%nfo 2) (k.2.2.2.2%nfo 3) := ?_
    · have hW' := writes_val hW (fun k hk => congrArg (fun z => part z k.1) (hval k hk))
      intro h hok
      rw [wp_mbind]
      have first := sp2e1_all (TAB := fun h => TabArg h tab buf out) (r := 4) (nd := nd) (cnt := fun t => nfo t*nctrs t) (ls := ls)
        (nblk := nctrOf nctrs) (nComp := nComp) (nT := nT) (n := n) (buf := buf) (size := size) (fpd := fpd) (out := out) (dims := dims)
        (tab := tab) (k1 := k1) (kap := kap) (no := no) (n1 := n1) (nf := blkLen ls) (e2 := SpKind.e1 k2) (v := v) (h := h)
        hf hn hc hob (fun h h' T A => T.keep A) (fun _ x => x) (by rw [hno, g0, g1]) hn1 hnf (hl 0 (by omega)) (hl 1 (by omega))
        (by omega) hok
      refine wp_mono first ?_
      rintro _ h1 ⟨A1, A2, A3⟩
      refine wp_mono (hW' h1 ⟨A2, fun m hm b hb => ?_⟩) ?_
      · have := A1 m hm b hb
        rw [← g0, ← g1] at this
        exact this
      · rintro r h2 ⟨hr, w⟩
        refine ⟨hr, w.val, fun q hq hk => ?_, fun q hq => w.alloc q (A3.al q hq), by rw [w.int, A3.I]⟩
        rw [w.frame q (fun x => hq ⟨x.1, le_trans (Nat.le_add_right _ _) x.2⟩) hk]
        exact A3.D q hq
    intro k hk
    have hp0 : k.2.1 % nfo 0 < nfo 0 := Nat.mod_lt _ (hs.nf_pos 0 (by omega))
    have hp2 : k.2.2.2.1 % nfo 2 < nfo 2 := Nat.mod_lt _ (hs.nf_pos 2 (by omega))
    have hp3 : k.2.2.2.2 % nfo 3 < nfo 3 := Nat.mod_lt _ (hs.nf_pos 3 (by omega))
    have ec : cellNo (shapeOf nfo nctrs (no*2)) k.2 =
        ((k.2.2.1%nfo 1*nfo 3 + k.2.2.2.2%nfo 3)*nfo 2 + k.2.2.2.1%nfo 2)*nfo 0 + k.2.1%nfo 0 := rfl
    show spinor2 k2.si k2.ph (kap 2) (kap 3) (ls 2) (ls 3) (fun t p q => half t (blkNo (shapeOf nfo nctrs (no*2)) k.2)
      (cellNo (shapeOf nfo nctrs (no*2)) k.2 % nfo 0) (cellNo (shapeOf nfo nctrs (no*2)) k.2/nfo 0/nfo 2/nfo 3)
      (q*lenCart (ls 2)+p)) (cellNo (shapeOf nfo nctrs (no*2)) k.2/nfo 0%nfo 2) (cellNo (shapeOf nfo nctrs (no*2)) k.2/nfo 0/nfo 2%nfo 3) = _
    rw [ec, (digit hp0).1, (digit hp0).2, (digit hp2).1, (digit hp2).2, (digit hp3).1, (digit hp3).2]
    unfold spin4
    refine spinor2_congr (fun t a b ha hb => ?_)
    show halfOf _ _ _ _ _ _ _ _ _ _ _ _ _ = _
    unfold halfOf
    refine spinor2_congr (fun c1 p q hp hq => congrArg Cx.ofR ?_)
    have e : (q*(lenCart (ls 2)*lenCart (ls 3)) + (b*lenCart (ls 2)+a))*lenCart (ls 0)+p =
        ((q*ncart (ls 3)+b)*ncart (ls 2)+a)*ncart (ls 0)+p := by
      show (q*(ncart (ls 2)*ncart (ls 3)) + (b*ncart (ls 2)+a))*ncart (ls 0)+p = _
      ring
    rw [e]
    refine ctrOf_blk V hk ?_
    have h5 := radix_lt (radix_lt (radix_lt hq hb) ha) hp
    calc _ < _ := h5
      _ = ncart (ls 0) * ncart (ls 1) * ncart (ls 2) * ncart (ls 3) := by ring
  · refine zTrans (tot := tot) (fun h h' T A => T.keep A) hob hn (top := top) (Nat.le_add_right _ _) (ok' := ok') ?_ ?_
    · intro h h' H A m hm b hb
      refine (H m hm b hb).from A hno' ?_
      have h9 := hpos m hm b hb
      rintro y h4 h5 (⟨_, h6⟩ | ⟨_, _, h6⟩)
      · dsimp only at h6
        omega
      · exact hob (congrArg Ptr.buf h6 :).symm
    intro b hb h3 hok hok2
    have hb' : b < nctrOf nctrs := by rw [← hnblk]; exact hb
    have key := spTrans2e2_wp (h := h3) (k := k2) (tab := tab) (fpd := fpd) (lk := ls 2) (ll := ls 3) (di := nfo 0) (dj := nfo 1)
        (nblk := nctrOf nctrs) (buf := buf) (o := top) (size := size) (po := tot + b*(no*2)) (kk := kap 2) (kl := kap 3)
        (x := fun t a n i => half t b i (a/lenCart (ls 3)) (a%lenCart (ls 3)*lenCart (ls 2)+n)) hf hok.tab.holds
        (hl 2 (by omega)) (hl 3 (by omega)) hok.tab.Rbuf hok.tab.Ibuf (fun k _ hk => hok.cache k hk) hno
        (by rw [← g2]; show tot + n1*SpKind.e1 k2*2 + _ ≤ size; omega)
        (fun t ht im a m i ha hm hi => ?_)
    · refine wp_mono key ?_
      rintro t h' ⟨a1, a2, a3⟩
      refine ⟨fun im m hm => ?_, a2, a3⟩
      have hm2 : m < nfo 0 * (nfo 2 * (nfo 3 * nfo 1)) := by
        have : nfo 0 * nfo 1 * nfo 2 * nfo 3 = nfo 0 * (nfo 2 * (nfo 3 * nfo 1)) := by ring
        rw [← this]; exact hm
      have q1 : m / nfo 0 < nfo 2 * (nfo 3 * nfo 1) := Nat.div_lt_of_lt_mul hm2
      have q2 : m / nfo 0 / nfo 2 < nfo 3 * nfo 1 := Nat.div_lt_of_lt_mul q1
      have := a1 im (m/nfo 0/nfo 2/nfo 3) (m/nfo 0/nfo 2%nfo 3) (m/nfo 0%nfo 2) (m%nfo 0) (Nat.div_lt_of_lt_mul q2)
        (by rw [← g3]; exact Nat.mod_lt _ (hs.nf_pos 3 (by omega))) (by rw [← g2]; exact Nat.mod_lt _ (hs.nf_pos 2 (by omega)))
        (Nat.mod_lt _ (hs.nf_pos 0 (by omega)))
      rw [← g2, ← g3] at this
      rw [show (m/nfo 0/nfo 2/nfo 3*nfo 3 + m/nfo 0/nfo 2%nfo 3)*(nfo 0*nfo 2) + (m/nfo 0%nfo 2*nfo 0 + m%nfo 0) = m by
        rw [Nat.div_add_mod']
        calc m/nfo 0/nfo 2*(nfo 0*nfo 2) + (m/nfo 0%nfo 2*nfo 0 + m%nfo 0) =
            (m/nfo 0/nfo 2*nfo 2 + m/nfo 0%nfo 2)*nfo 0 + m%nfo 0 := by ring
          _ = m := by rw [Nat.div_add_mod', Nat.div_add_mod']] at this
      refine this.trans (congrArg (fun z => Cell.val (part z im)) ?_)
      refine spinor2_congr (fun t p q hp hq => ?_)
      beta_reduce
      have hq' : q < lenCart (ls 3) := hq
      rw [(digit hq').1, (digit hq').2]
    have ht' : t < e2 := ht
    have hnl : 0 < lenCart (ls 3) := by
      rcases Nat.eq_zero_or_pos (lenCart (ls 3)) with h | h
      · rw [h] at ha; simp at ha
      · exact h
    have q1 : a/lenCart (ls 3) < nfo 1 := Nat.div_lt_of_lt_mul ha
    have q2 : a%lenCart (ls 3)*lenCart (ls 2)+m < lenCart (ls 2)*lenCart (ls 3) := by
      rw [Nat.mul_comm (lenCart (ls 2))]
      exact radix_lt (Nat.mod_lt _ hnl) hm
    have hv := hok2 t ht' b hb' im _ _ i q1 q2 hi
    have hx := radix_lt (radix_lt q1 q2) hi
    rw [← hno'] at hx
    have e4 : (a/lenCart (ls 3)*(lenCart (ls 2)*lenCart (ls 3)) + (a%lenCart (ls 3)*lenCart (ls 2)+m))*nfo 0 + i =
        (a*lenCart (ls 2)+m)*nfo 0+i := by
      conv_rhs => rw [← Nat.div_add_mod' a (lenCart (ls 3))]
      ring
    have e5 : t*(no*2*nctrOf nctrs) = 2*(n1*t) := by rw [hn1]; ring
    have h9 := hpos t ht' b hb'
    rw [e4] at hv hx
    rw [e5, show tot + b*(no*2) + 2*(n1*t) = tot + 2*(n1*t) + b*(no*2) by ring]
    refine ⟨hv, ?_⟩
    split <;> omega
  · intro h2 hok k hk
    rw [Ptr.add_assoc]
    exact hok.1.out _ (inBlockZ_iff.2 ⟨n, k, hn, hk, rfl⟩)
  · exact cpZ_iklj (α := α) (S := shapeOf nfo nctrs (no*2)) (ni := nd 0) (nj := nd 1) (nk := nd 2)
      (le_trans (Nat.le_mul_of_pos_right _ (hs.nctr_pos 0 (by omega))) hS.hni)
      (le_trans (Nat.le_mul_of_pos_right _ (hs.nctr_pos 1 (by omega))) hS.hnj)
      (le_trans (Nat.le_mul_of_pos_right _ (hs.nctr_pos 2 (by omega))) hS.hnk)


variable {X : Int2e α} {s : Call2 α}

/-- the sizes of the blocks -/
def Call2.nsp (s : Call2 α) (kap : Nat → Int) : Nat → Nat :=
  four (lenSpinorC2S (kap 0) s.si.l) (lenSpinorC2S (kap 1) s.sj.l) (lenSpinorC2S (kap 2) s.sk.l) (lenSpinorC2S (kap 3) s.sl.l)

/-- CINT2e_spinor_drv -/
theorem drv2eSp_wp {V : Nat → Nat → Nat → Nat → Nat → Nat → α} {ret : Bool → Prop} {h : Heap α} {fpd buf size nT : Nat}
    {empty fl loc counts out : Ptr} {dims : Option Ptr} {nd : Nat → Nat}
    {tab : JTab} {k1 k2 : SpKind} {kap : Nat → Int} {loop : Ptr → Nat → Prog α Bool}
    (M : CallMem2 h fpd buf size empty fl loc counts) (hsize : cacheSize2eSp X s (SpKind.e1 k2) (kap 0) (kap 1) ≤ size)
    (hL : wp (loop ⟨buf, 0⟩ (fpd * ((s.env X).nf * s.nctr * X.nComp)))
      (PostG V ret (Call2.ls s) (Call2.nctrs s) X.nComp buf empty fl loc (h.setI empty 1)) (h.setI empty 1))
    (hz : ∀ r, ret r → r = false → ∀ n ic jc kc lc x, V n ic jc kc lc x = 0)
    (hs : Sizes 4 (Call2.nsp s kap) (Call2.nctrs s) nd)
    (O : OutArgZ2 4 h nd (fun t => Call2.nsp s kap t * Call2.nctrs s t) nT out dims buf empty fl loc counts)
    (T : TabArg h tab buf out) (hc : X.nComp = SpKind.e1 k1 * SpKind.e1 k2 * nT)
    (hl : ∀ t, t < 4 → Call2.ls s t < 13) :
    wp (drv2eSp X s loop (SpKind.e1 k1) (SpKind.e1 k2) nT k1 k2 tab kap fpd out dims buf 0 empty counts) (fun has h' =>
      (∀ n ic jc kc lc i j k l, n < nT → ic < s.si.nctr → jc < s.sj.nctr → kc < s.sk.nctr → lc < s.sl.nctr →
        i < lenSpinorC2S (kap 0) s.si.l → j < lenSpinorC2S (kap 1) s.sj.l → k < lenSpinorC2S (kap 2) s.sk.l →
        l < lenSpinorC2S (kap 3) s.sl.l →
        HoldsC h' out (outAt nd n (ic*lenSpinorC2S (kap 0) s.si.l+i) (jc*lenSpinorC2S (kap 1) s.sj.l+j)
            (kc*lenSpinorC2S (kap 2) s.sk.l+k) (lc*lenSpinorC2S (kap 3) s.sl.l+l))
          (spin4 k1.si k1.ph k2.si k2.ph kap (Call2.ls s)
            (fun c1 c2 x => V ((n*SpKind.e1 k2+c2)*SpKind.e1 k1 + c1) ic jc kc lc x) i j k l)) ∧
      (has = false → ∀ m, InBlock nd (fun t => Call2.nsp s kap t * Call2.nctrs s t) nT (m/2) → h'.D (out + m) = .val 0) ∧
      FrameZ h h' nd (fun t => Call2.nsp s kap t * Call2.nctrs s t) nT buf out empty fl loc counts ∧ ret has) h := by
  have hf := M.fpd_pos
  let di := lenSpinorC2S (kap 0) s.si.l
  let dj := lenSpinorC2S (kap 1) s.sj.l
  let dk := lenSpinorC2S (kap 2) s.sk.l
  let dl := lenSpinorC2S (kap 3) s.sl.l
  let ls := Call2.ls s
  let nctrs := Call2.nctrs s
  let nfo := Call2.nsp s kap
  let e1 := SpKind.e1 k1
  let e2 := SpKind.e1 k2
  let n1 := s.n1 (kap 0) (kap 1)
  let no := di*lenCart s.sk.l*lenCart s.sl.l*dj
  let tot := blkLen ls * nctrOf nctrs * X.nComp
  let top := tot + n1*e2*2
  have hn1 : n1 = no*nctrOf nctrs := by
    show Call2.n1 s (kap 0) (kap 1) = di*lenCart s.sk.l*lenCart s.sl.l*dj*(s.si.nctr*s.sj.nctr*s.sk.nctr*s.sl.nctr)
    unfold Call2.n1
    ring
  have hnfE : (s.env X).nf = blkLen ls := nf_env2
  have hnc : (s.env X).nf * s.si.nctr * s.sj.nctr * s.sk.nctr * s.sl.nctr = blkLen ls * nctrOf nctrs := by
    rw [hnfE]
    show _ = blkLen ls * (s.si.nctr*s.sj.nctr*s.sk.nctr*s.sl.nctr)
    ring
  have htot : (s.env X).nf * s.nctr * X.nComp = tot := by
    rw [hnfE]
    rfl
  have hfree : tot + n1*e2*2 + blkLen ls*64 ≤ size := by
    refine le_trans ?_ hsize
    unfold cacheSize2eSp
    dsimp only
    refine le_trans ?_ (le_max_right _ _)
    rw [hnc, hnfE]
    show tot + n1*e2*2 + blkLen ls*64 ≤ tot + n1*e2*2 + blkLen ls * 32 * 2
    omega
  unfold drv2eSp
  dsimp only
  rw [hnc, show blkLen ls * nctrOf nctrs * X.nComp = tot from rfl,
    show mallocD fpd buf 0 tot = (⟨buf, 0⟩, fpd * tot) from by
      have := mallocD_eq hf buf 0 tot; rw [Nat.zero_add] at this; exact this]
  dsimp only
  rw [mallocD_eq hf]
  dsimp only
  rw [htot] at hL
  let F : Nat → Ptr → Ptr → Prog α Unit := fun n out dims => do
      forN e2 fun m' => c2sZ2e1 k1 tab fpd s.si.l s.sj.l s.sk.l s.sl.l (kap 0) (kap 1) (nctrOf nctrs) buf (fpd*top)
        ((⟨buf, tot⟩ : Ptr) + 2*(n1*m')) ((⟨buf, 0⟩ : Ptr) + blkLen ls * nctrOf nctrs*e1*(n*e2+m'))
      c2sZ2e2 (shapeOf nfo nctrs (no*2)) (spTrans2e2 k2 tab fpd s.sl.l s.sk.l (kap 2) (kap 3) di dj (nctrOf nctrs) buf (fpd*top)) out
        ⟨buf, tot⟩ dims
  refine front_wp (V := V) (ls := ls) (nctrs := nctrs) (nComp := X.nComp) (buf := buf) (fl := fl) (loc := loc)
    (st := fun has => zOutStage 4 has nT F out dims counts (fun t => nfo t * nctrs t))
    M.emw hL ?_
  rintro has h1 D hr
  let Z : Nat → Ix4 → Cx α := fun n k => spin4 k1.si k1.ph k2.si k2.ph kap ls
    (fun c1 c2 x => V ((n*e2+c2)*e1 + c1) (k.1/nfo 0) (k.2.1/nfo 1) (k.2.2.1/nfo 2) (k.2.2.2/nfo 3) x)
    (k.1%nfo 0) (k.2.1%nfo 1) (k.2.2.1%nfo 2) (k.2.2.2%nfo 3)
  have key := zOut (nd := nd) (nT := nT) (size := size) (counts := counts) (out := out) (dims := dims)
    (TAB := fun h => TabArg h tab buf out) (nfo := nfo) (Z := Z) (f := F)
    D hs (no*2) O M.countsw M.dbl T (fun h h' T A => T.keep A)
    (fun hb n k => spinor2_zero (fun c a b => spinor2_zero (fun c a b => by
        beta_reduce
        rw [hz has hr hb]
        rfl))) ?_
  · refine wp_mono key ?_
    rintro _ h2 ⟨v, z, fr⟩
    refine ⟨fun n ic jc kc lc i j k l hn q1 q2 q3 q4 p1 p2 p3 p4 => ?_, z, fr, hr⟩
    have := v n (ic*di+i) (jc*dj+j) (kc*dk+k) (lc*dl+l) hn (digit_lt p1 q1) (digit_lt p2 q2) (digit_lt p3 q3) (digit_lt p4 q4)
    have e : Z n (ic*di+i, jc*dj+j, kc*dk+k, lc*dl+l) =
        spin4 k1.si k1.ph k2.si k2.ph kap ls (fun c1 c2 x => V ((n*e2+c2)*e1 + c1) ic jc kc lc x) i j k l := by
      show spin4 _ _ _ _ _ _ (fun c1 c2 x => V ((n*e2+c2)*e1 + c1) ((ic*di+i)/di) ((jc*dj+j)/dj) ((kc*dk+k)/dk) ((lc*dl+l)/dl) x)
        ((ic*di+i)%di) ((jc*dj+j)%dj) ((kc*dk+k)%dk) ((lc*dl+l)%dl) = _
      rw [(digit p1).1, (digit p1).2, (digit p2).1, (digit p2).2, (digit p3).1, (digit p3).2, (digit p4).1, (digit p4).2]
    rw [e] at this
    exact this
  · intro n hn
    exact sp2e_writes (V := V) (ls := ls) (nctrs := nctrs) (nfo := nfo) (nd := nd) (nComp := X.nComp) (nT := nT)
      (n := n) (buf := buf) (size := size) (fpd := fpd) (out := out) (dims := dims.getD counts) (tab := tab) (k1 := k1) (k2 := k2)
      (kap := kap) (no := no) (n1 := n1) hs hf hn hc O.h_obuf
      (fun t ht => by
        match t, ht with
        | 0, _ => rfl
        | 1, _ => rfl
        | 2, _ => rfl
        | 3, _ => rfl) rfl hn1 hl hfree

theorem cacheSize2e_le_sp {e2 : Nat} {ki kj : Int} : cacheSize2e X s ≤ cacheSize2eSp X s e2 ki kj := by
  unfold cacheSize2e cacheSize2eSp
  dsimp only
  refine max_le_max (le_refl _) ?_
  omega

variable {R : Rys2 α} {K : Consts α} {L : MathLib α} {keep : Nat → Nat → Nat → Nat → Bool} {w : Nat → Nat → Nat → Nat → Nat → α}

/-- the loop over primitives without optimizer -/
theorem loop2e_postG {h : Heap α} {fpd buf size : Nat} {empty fl loc counts : Ptr}
    (M : CallMem2 h fpd buf size empty fl loc counts) (hsize : cacheSize2e X s ≤ size)
    (hp : ∀ t, t < 4 → 0 < Call2.nctrs s t) (hK : EvalOK2 R K L X s keep w) (hnc : 1 ≤ X.nComp)
    (hl : ∀ t, t < 4 → Call2.ls s t ≤ 15) :
    wp (loop2eRun X s R K L fpd ⟨buf, 0⟩ empty buf (fpd * ((s.env X).nf * s.nctr * X.nComp)) fl loc)
      (PostG (loopVal2 R K L X s keep w) (fun r => (r = true ↔ loopAny2 R K L X s keep) ∧
          (r = false → ∀ n ic jc kc lc x, loopVal2 R K L X s keep w n ic jc kc lc x = 0))
        (Call2.ls s) (Call2.nctrs s) X.nComp buf empty fl loc (h.setI empty 1)) (h.setI empty 1) := by
  have hf := M.fpd_pos
  have hic : 1 ≤ s.si.nctr := hp 0 (by omega)
  have hjc : 1 ≤ s.sj.nctr := hp 1 (by omega)
  have hkc : 1 ≤ s.sk.nctr := hp 2 (by omega)
  have hlc : 1 ≤ s.sl.nctr := hp 3 (by omega)
  have hncE : (s.env X).nf * s.si.nctr * s.sj.nctr * s.sk.nctr * s.sl.nctr = (s.env X).nf * s.nctr := by
    unfold Call2.nctr; ring
  have am0 := allocMono_setI (h := h) (q := empty) (x := 1)
  have LM : LoopMem2 X s (h.setI empty 1) fpd buf size 0 ((s.env X).nf * s.nctr * X.nComp) empty fl loc := by
    refine ⟨hf, ⟨fun k hk _ => M.dbl k hk, fun m hm _ => am0.I _ (M.int m hm)⟩, ?_, by omega, Heap.setI_I_self _ _ _,
      fun k hk => am0.I _ (M.flw k hk), fun k hk => am0.I _ (M.locw k hk), M.ebuf, M.efl, M.eloc, M.flbuf, M.locbuf⟩
    rw [← hncE]
    exact le_trans (used2_le_cacheSize X s hf hjc hkc hlc) hsize
  refine wp_mono (loop2eRun_wp LM hK hic hjc hkc hlc hnc (hl 0 (by omega)) (hl 1 (by omega)) (hl 2 (by omega)) (hl 3 (by omega))) ?_
  rintro res h1 ⟨hfl, hv, hz, hD, hI, hret⟩
  refine ⟨hfl, fun hr => ?_, fun hr m => hz hr _ _ _ _ _ _, hD, hI, hret, hz⟩
  have := hv hr
  rw [show (s.env X).nf = blkLen (Call2.ls s) from nf_env2] at this
  exact this

/-- the loop over primitives with optimizer -/
theorem loop2eOpt_postG {O : Opt2} {h : Heap α} {i j k l fpd buf size : Nat} {empty fl loc counts : Ptr}
    {Vij Vkl : Nat → Nat → Nat → α} {Eij Ekl : Prop}
    (M : CallMem2 h fpd buf size empty fl loc counts) (hsize : cacheSize2e X s ≤ size) (S : OptArg O buf empty fl loc)
    (A : OptAt L X s O h i j k l Vij Vkl Eij Ekl) (hz : EmptyZero s Vij Vkl Eij Ekl)
    (hp : ∀ t, t < 4 → 0 < Call2.nctrs s t) (hK : EvalOKP R K X s Vij Vkl keep w) (hnc : 1 ≤ X.nComp)
    (hl : ∀ t, t < 4 → Call2.ls s t ≤ 15) :
    wp (loop2eOpt X s R K L O i j k l fpd ⟨buf, 0⟩ empty buf (fpd * ((s.env X).nf * s.nctr * X.nComp)) fl loc)
      (PostG (expected (quartetV R K X s Vij Vkl) keep w) (fun r => RetO R K X s O i j Vij Vkl Eij Ekl keep (Stops2 L X s O h i j k l) r ∧
          (r = false → ∀ n ic jc kc lc x, expected (quartetV R K X s Vij Vkl) keep w n ic jc kc lc x = 0))
        (Call2.ls s) (Call2.nctrs s) X.nComp buf empty fl loc (h.setI empty 1)) (h.setI empty 1) := by
  have hf := M.fpd_pos
  have hic : 1 ≤ s.si.nctr := hp 0 (by omega)
  have hjc : 1 ≤ s.sj.nctr := hp 1 (by omega)
  have hkc : 1 ≤ s.sk.nctr := hp 2 (by omega)
  have hlc : 1 ≤ s.sl.nctr := hp 3 (by omega)
  have am0 := allocMono_setI (h := h) (q := empty) (x := 1)
  have A0 : OptAt L X s O (h.setI empty 1) i j k l Vij Vkl Eij Ekl := by
    refine A.agree (W := fun _ => False) (W' := fun q => q = empty) (fun q _ => rfl) (fun q hq => Heap.setI_I_ne _ _ hq)
      (fun q x => x.elim) ?_
    rintro q rfl
    exact S.sem
  have LM : LoopMemO X s O (h.setI empty 1) fpd buf size 0 ((s.env X).nf * s.nctr * X.nComp) empty fl loc := by
    refine ⟨hf, ⟨fun k hk _ => M.dbl k hk, fun m hm _ => am0.I _ (M.int m hm)⟩, ?_, by omega, Heap.setI_I_self _ _ _,
      fun k hk => am0.I _ (M.flw k hk), fun k hk => am0.I _ (M.locw k hk), M.ebuf, M.efl, M.eloc, M.flbuf, M.locbuf,
      S.sbuf.1, S.sem.1, S.sfl.1, S.sloc.1, S.flloc⟩
    exact le_trans (usedO_le_cacheSize X s hf hjc hkc hlc) hsize
  refine wp_mono (loop2eOpt_wp LM A0 hz hK hic hjc hkc hlc hnc (hl 0 (by omega)) (hl 1 (by omega))
    (hl 2 (by omega)) (hl 3 (by omega))) ?_
  rintro res h1 ⟨hfl, hv, hzz, hD, hI, hret⟩
  have hst : Stops2 L X s O (h.setI empty 1) i j k l = Stops2 L X s O h i j k l :=
    propext (Stops2.congr fun t p hO q hq => Heap.setI_I_ne _ _ (fun e => (S.sem.2 t p hO).1 (by rw [← e]; exact hq.symm)))
  refine ⟨hfl, fun hr => ?_, fun hr m => hzz hr _ _ _ _ _ _, hD, hI, hst ▸ hret, hzz⟩
  have := hv hr
  rw [show (s.env X).nf = blkLen (Call2.ls s) from nf_env2] at this
  exact this

end
end Verif.Lemmas
