import Verif.Lemmas.DrvSp1e
import Verif.Lemmas.GridsLoop
import Verif.Model.GridsSpinor

/-! The kernels of the spinor transformation for a block of points. -/
namespace Verif.Lemmas
open Verif Verif.Model Verif.Prog Verif.Spec Verif.Props

variable {α : Type} [Field α]

/-- an array of real numbers with three indices -/
def InR3 (h : Heap α) (Reg : Ptr → Prop) (g : Ptr) (A nf B : Nat) (x : Nat → Nat → Nat → α) : Prop :=
  ∀ a n b, a < A → n < nf → b < B → Rd h Reg (g + ((a*nf+n)*B+b)) (x a n b)

variable [DecidableEq α]

theorem bra1Sf_wp {h : Heap α} {tab c : JTab} {gspR gspI g1 : Ptr} {A B l : Nat} {kappa : Int} {U : Nat → Bool → Nat → Cx α}
    {x : Nat → Nat → Nat → α} (hc : tab.at kappa l = some c)
    (O : OutS h gspR gspI (2*(A*lenSpinorC2S kappa l*B)))
    (C : CoefOK h (Reg2 gspR gspI (2*(A*lenSpinorC2S kappa l*B))) c (lenSpinorC2S kappa l) (lenCart l) U)
    (G : InR3 h (Reg2 gspR gspI (2*(A*lenSpinorC2S kappa l*B))) g1 A (lenCart l) B x) :
    wp (bra1Sf tab gspR gspI g1 B A kappa l) (fun _ h' =>
      HoldsS h' gspR gspI (A*lenSpinorC2S kappa l*B) A (lenSpinorC2S kappa l) B
        (braT U (lenCart l) (fun s t a n b => scalar2 (Cx.ofR (x a n b)) s t)) ∧
      From h (Reg2 gspR gspI (2*(A*lenSpinorC2S kappa l*B))) h') h := by
  unfold bra1Sf JTab.with
  rw [hc]
  dsimp only
  refine bra1_wp O ?_
  intro a i n ha hi hn
  obtain ⟨⟨a1, a2⟩, a3, a4⟩ := C i false n hi hn
  obtain ⟨⟨b1, b2⟩, b3, b4⟩ := C i true n hi hn
  simp only [Bool.false_eq_true, if_false, if_true, Nat.zero_add, ← Nat.add_assoc] at a1 a2 a3 a4 b1 b2 b3 b4
  refine Adds.ld a1 a2 (Adds.ld a3 a4 (Adds.ld b1 b2 (Adds.ld b3 b4 ?_)))
  refine addCol (z := fun t i b => star (U i false n) * scalar2 (Cx.ofR (x a n b)) false t +
    star (U i true n) * scalar2 (Cx.ofR (x a n b)) true t) fun b hb => ?_
  obtain ⟨c1, c2⟩ := G a n b ha hn hb
  refine Adds.ld c1 c2 ?_
  refine add4 O ha hi hb
    (z := fun t i b => star (U i false n) * scalar2 (Cx.ofR (x a n b)) false t +
      star (U i true n) * scalar2 (Cx.ofR (x a n b)) true t)
    ?_ ?_ ?_ ?_ ?_ ?_ ?_ ?_
  · simp [scalar2, Cx.ofR]
  · simp [scalar2, Cx.ofR]
  · simp [scalar2, Cx.ofR]
  · simp [scalar2, Cx.ofR]
  · refine congrArg (gspR + ·) ?_; unfold kPos; simp
  · refine congrArg (gspI + ·) ?_; unfold kPos; simp
  · rw [Ptr.add_assoc]; refine congrArg (gspR + ·) ?_; unfold kPos; simp; ring
  · rw [Ptr.add_assoc]; refine congrArg (gspI + ·) ?_; unfold kPos; simp; ring

theorem bra1Si_wp {h : Heap α} {tab c : JTab} {gspR gspI gx gy gz g1 : Ptr} {A B l : Nat} {kappa : Int}
    {U : Nat → Bool → Nat → Cx α} {x : Nat → Nat → Nat → Nat → α} (hc : tab.at kappa l = some c)
    (O : OutS h gspR gspI (2*(A*lenSpinorC2S kappa l*B)))
    (C : CoefOK h (Reg2 gspR gspI (2*(A*lenSpinorC2S kappa l*B))) c (lenSpinorC2S kappa l) (lenCart l) U)
    (G0 : InR3 h (Reg2 gspR gspI (2*(A*lenSpinorC2S kappa l*B))) gx A (lenCart l) B (x 0))
    (G1 : InR3 h (Reg2 gspR gspI (2*(A*lenSpinorC2S kappa l*B))) gy A (lenCart l) B (x 1))
    (G2 : InR3 h (Reg2 gspR gspI (2*(A*lenSpinorC2S kappa l*B))) gz A (lenCart l) B (x 2))
    (G3 : InR3 h (Reg2 gspR gspI (2*(A*lenSpinorC2S kappa l*B))) g1 A (lenCart l) B (x 3)) :
    wp (bra1Si tab gspR gspI gx gy gz g1 B A kappa l) (fun _ h' =>
      HoldsS h' gspR gspI (A*lenSpinorC2S kappa l*B) A (lenSpinorC2S kappa l) B
        (braT U (lenCart l) (fun s t a n b => pauli (fun c => Cx.ofR (x c a n b)) s t)) ∧
      From h (Reg2 gspR gspI (2*(A*lenSpinorC2S kappa l*B))) h') h := by
  unfold bra1Si JTab.with
  rw [hc]
  dsimp only
  refine bra1_wp O ?_
  intro a i n ha hi hn
  obtain ⟨⟨a1, a2⟩, a3, a4⟩ := C i false n hi hn
  obtain ⟨⟨b1, b2⟩, b3, b4⟩ := C i true n hi hn
  simp only [Bool.false_eq_true, if_false, if_true, Nat.zero_add, ← Nat.add_assoc] at a1 a2 a3 a4 b1 b2 b3 b4
  refine Adds.ld a1 a2 (Adds.ld a3 a4 (Adds.ld b1 b2 (Adds.ld b3 b4 ?_)))
  refine addCol (z := fun t i b => star (U i false n) * pauli (fun c => Cx.ofR (x c a n b)) false t +
    star (U i true n) * pauli (fun c => Cx.ofR (x c a n b)) true t) fun b hb => ?_
  obtain ⟨c1, c2⟩ := G3 a n b ha hn hb
  obtain ⟨d1, d2⟩ := G0 a n b ha hn hb
  obtain ⟨e1, e2⟩ := G1 a n b ha hn hb
  obtain ⟨f1, f2⟩ := G2 a n b ha hn hb
  refine Adds.ld c1 c2 (Adds.ld d1 d2 (Adds.ld e1 e2 (Adds.ld f1 f2 ?_)))
  refine add4 O ha hi hb
    (z := fun t i b => star (U i false n) * pauli (fun c => Cx.ofR (x c a n b)) false t +
      star (U i true n) * pauli (fun c => Cx.ofR (x c a n b)) true t)
    ?_ ?_ ?_ ?_ ?_ ?_ ?_ ?_
  · simp [pauli, Cx.i, Cx.ofR]; ring
  · simp [pauli, Cx.i, Cx.ofR]; ring
  · simp [pauli, Cx.i, Cx.ofR]; ring
  · simp [pauli, Cx.i, Cx.ofR]; ring
  · refine congrArg (gspR + ·) ?_; unfold kPos; simp
  · refine congrArg (gspI + ·) ?_; unfold kPos; simp
  · rw [Ptr.add_assoc]; refine congrArg (gspR + ·) ?_; unfold kPos; simp; ring
  · rw [Ptr.add_assoc]; refine congrArg (gspI + ·) ?_; unfold kPos; simp; ring

theorem braG_kind {h : Heap α} {tab c : JTab} {gspR gspI g : Ptr} {A B l n : Nat} {kappa : Int} {k : SpKind}
    {U : Nat → Bool → Nat → Cx α} {x : Nat → Nat → Nat → Nat → α} (hc : tab.at kappa l = some c)
    (O : OutS h gspR gspI (2*(A*lenSpinorC2S kappa l*B)))
    (C : CoefOK h (Reg2 gspR gspI (2*(A*lenSpinorC2S kappa l*B))) c (lenSpinorC2S kappa l) (lenCart l) U)
    (G : ∀ t, t < (if k.si then 4 else 1) → InR3 h (Reg2 gspR gspI (2*(A*lenSpinorC2S kappa l*B))) (g + t*n)
      A (lenCart l) B (x t)) :
    wp (k.braG tab gspR gspI g n B A kappa l) (fun _ h' =>
      HoldsS h' gspR gspI (A*lenSpinorC2S kappa l*B) A (lenSpinorC2S kappa l) B
        (braT U (lenCart l) (fun s t a m b => spinMat k.si (fun c => Cx.ofR (x c a m b)) s t)) ∧
      From h (Reg2 gspR gspI (2*(A*lenSpinorC2S kappa l*B))) h') h := by
  unfold SpKind.braG spinMat
  obtain ⟨si, ph⟩ := k
  cases si with
  | false =>
    have G0 := G 0 (show 0 < 1 by decide)
    rw [Nat.zero_mul, Ptr.add_zero] at G0
    exact bra1Sf_wp hc O C G0
  | true =>
    have G0 := G 0 (show 0 < 4 by decide)
    rw [Nat.zero_mul, Ptr.add_zero] at G0
    have G1 := G 1 (show 1 < 4 by decide)
    rw [Nat.one_mul] at G1
    have G2 := G 2 (show 2 < 4 by decide)
    rw [show g + 2*n = g + n + n by rw [Ptr.add_assoc, Nat.two_mul]] at G2
    have G3 := G 3 (show 3 < 4 by decide)
    rw [show g + 3*n = g + n + n + n by rw [Ptr.add_assoc, Ptr.add_assoc]; exact congrArg (g + ·) (by ring)] at G3
    exact bra1Si_wp hc O C G0 G1 G2 G3

/-- the two transformations of a block of `B` points -/
theorem spGrid_wp {h : Heap α} {tab : JTab} {k : SpKind} {R1 I1 R2 I2 g : Ptr} {B n li lj : Nat} {ki kj : Int}
    {x : Nat → Nat → Nat → Nat → α} (hT : HoldsJ h tab.R tab.I) (hli : li < 13) (hlj : lj < 13)
    (O1 : OutS h R1 I1 (2*(lenCart lj*lenSpinorC2S ki li*B))) (O2 : OutS h R2 I2 (1*lenSpinorC2S kj lj*(B*lenSpinorC2S ki li)))
    (hD : ∀ q, Reg2 R1 I1 (2*(lenCart lj*lenSpinorC2S ki li*B)) q →
      ¬ Reg2 R2 I2 (1*lenSpinorC2S kj lj*(B*lenSpinorC2S ki li)) q)
    (hB : ∀ q, (Reg2 R1 I1 (2*(lenCart lj*lenSpinorC2S ki li*B)) q ∨
      Reg2 R2 I2 (1*lenSpinorC2S kj lj*(B*lenSpinorC2S ki li)) q) → q.buf ≠ tab.R.buf ∧ q.buf ≠ tab.I.buf)
    (G : ∀ t, t < (if k.si then 4 else 1) → InR3 h (Reg2 R1 I1 (2*(lenCart lj*lenSpinorC2S ki li*B))) (g + t*n)
      (lenCart lj) (lenCart li) B (x t)) :
    wp (do
      k.braG tab R1 I1 g n B (lenCart lj) ki li
      k.ket tab R2 I2 R1 I1 (B*lenSpinorC2S ki li) kj lj) (fun _ h' =>
      (∀ im j i b, j < lenSpinorC2S kj lj → i < lenSpinorC2S ki li → b < B →
        h'.D (side (R2, I2) im + ((j*lenSpinorC2S ki li + i)*B + b)) =
          .val (part (spinor2 k.si k.ph ki kj li lj (fun t m n => Cx.ofR (x t n m b)) i j) im)) ∧
      From h (fun q => Reg2 R1 I1 (2*(lenCart lj*lenSpinorC2S ki li*B)) q ∨
        Reg2 R2 I2 (1*lenSpinorC2S kj lj*(B*lenSpinorC2S ki li)) q) h') h := by
  obtain ⟨ci, hci, Ci⟩ := coefOK_of_tab (kappa := ki) hT hli
  obtain ⟨cj, hcj, Cj⟩ := coefOK_of_tab (kappa := kj) hT hlj
  rw [wp_mbind]
  refine wp_mono (braG_kind hci O1 (Ci _ (fun q hq => hB q (Or.inl hq))) G) ?_
  rintro _ h1 ⟨H1, F1⟩
  have hkp : ∀ s n b, kPos (1*lenCart lj*(B*lenSpinorC2S ki li)) (lenCart lj) (B*lenSpinorC2S ki li) s 0 n b =
      kPos (lenCart lj*lenSpinorC2S ki li*B) (lenSpinorC2S ki li) B s n (b/B) (b%B) := by
    intro s n b
    have e : b/B*B + b%B = b := by
      rw [Nat.mul_comm]; exact Nat.div_add_mod _ _
    unfold kPos
    have e1 : (0*lenCart lj+n)*(B*lenSpinorC2S ki li)+b = (n*lenSpinorC2S ki li+b/B)*B + b%B := by
      conv_lhs => rw [← e]
      ring
    rw [e1, show 1*lenCart lj*(B*lenSpinorC2S ki li) = lenCart lj*lenSpinorC2S ki li*B by ring]
  have hG : InS h1 (Reg2 R2 I2 (1*lenSpinorC2S kj lj*(B*lenSpinorC2S ki li))) R1 I1 (1*lenCart lj*(B*lenSpinorC2S ki li)) 1 (lenCart lj)
      (B*lenSpinorC2S ki li) (fun s _ n b => braT (cjCoef ki li) (lenCart li)
        (fun s t a m b => spinMat k.si (fun c => Cx.ofR (x c a m b)) s t) s n (b/B) (b%B)) := by
    intro s a n b ha hn hb
    obtain rfl : a = 0 := by omega
    have hB0 : 0 < B := by
      rcases Nat.eq_zero_or_pos B with h | h
      · rw [h] at hb; simp at hb
      · exact h
    have hi : b/B < lenSpinorC2S ki li := Nat.div_lt_of_lt_mul hb
    have hp := kPos_lt (sp := s) hn hi (Nat.mod_lt b hB0)
    obtain ⟨h2, h3⟩ := H1 s n (b/B) (b%B) hn hi (Nat.mod_lt _ hB0)
    rw [hkp s n b]
    exact ⟨⟨h2, hD _ (Or.inl ⟨_, hp, rfl⟩)⟩, h3, hD _ (Or.inr ⟨_, hp, rfl⟩)⟩
  refine wp_mono (ket_wp hcj (outS_from O2 F1) ((Cj _ hB).mono F1) hG) ?_
  rintro _ h2 ⟨H2, F2⟩
  refine ⟨fun im j i b hj hi hb => ?_, from_trans F1 F2 (fun _ => Or.inl) (fun _ => Or.inr)⟩
  have hib : i*B+b < B*lenSpinorC2S ki li := by rw [Nat.mul_comm B]; exact radix_lt hi hb
  have := H2 0 j (i*B+b) Nat.one_pos hj hib
  rw [show (0*lenSpinorC2S kj lj+j)*(B*lenSpinorC2S ki li)+(i*B+b) = (j*lenSpinorC2S ki li+i)*B+b by ring] at this
  have e : phase k.ph (ketT (cjCoef kj lj) (lenCart lj) (fun s _ n b => braT (cjCoef ki li) (lenCart li)
        (fun s t a m b => spinMat k.si (fun c => Cx.ofR (x c a m b)) s t) s n (b/B) (b%B)) 0 j
          (i*B+b)) = spinor2 k.si k.ph ki kj li lj (fun t m n => Cx.ofR (x t n m b)) i j := by
    rw [← spinor2_eq]
    unfold ketT braT
    simp only [(digit hb).1, (digit hb).2]
  dsimp only at this
  rw [e] at this
  cases im
  · exact this.1
  · exact this.2

/-- c2s_sf_1e_grids etc., one block of contracted functions of one block of points; the lengths of the arrays are multiples
of eight, so only the first allocation can lose cells to alignment -/
theorem spTransGrids_wp {h : Heap α} {tab : JTab} {k : SpKind} {fpd sh li lj n b buf o size goff : Nat} {ki kj : Int}
    {x : Nat → Nat → Nat → Nat → α} (hf : 0 < fpd) (hT : HoldsJ h tab.R tab.I) (hli : li < 13) (hlj : lj < 13)
    (htR : tab.R.buf ≠ buf) (htI : tab.I.buf ≠ buf) (hb2 : b ≤ 104) (hR : Room h buf o size)
    (hsz : o + 104*(ncart li*ncart lj)*16 + 7 ≤ size)
    (G : ∀ t, t < (if k.si then 4 else 1) → ∀ j i m, j < ncart lj → i < ncart li → m < b →
      h.D ((⟨buf, goff⟩ : Ptr) + (t*n + ((j*ncart li+i)*b+m))) = .val (x t j i m) ∧ goff + (t*n+((j*ncart li+i)*b+m)) < o) :
    wp (spTransGrids k tab fpd sh li lj ki kj n buf (fpd*o) b ⟨buf, goff⟩) (fun t h' =>
      (∀ im j i m, j < lenSpinorC2S kj lj → i < lenSpinorC2S ki li → m < b →
        h'.D (side t im + ((j*lenSpinorC2S ki li+i)*b+m)) =
        .val (part (spinor2 k.si k.ph ki kj li lj (fun t a c => Cx.ofR (x t c a m)) i j) im)) ∧
      From h (fun q => q.buf = buf ∧ o ≤ q.off) h' ∧
      ∀ im, (side t im).buf = buf) h := by
  let di := lenSpinorC2S ki li
  let dj := lenSpinorC2S kj lj
  let nfj := lenCart lj
  have hdi : di ≤ 2*ncart li := lenSpinorC2S_le ki li
  have hdj : dj ≤ 2*ncart lj := lenSpinorC2S_le kj lj
  let N := 104*di*(nfj+nfj)
  let N1 := 2*(nfj*di*b)
  let N2 := 1*dj*(b*di)
  have hN : N ≤ 104*(ncart li*ncart lj)*4 := by
    calc N = 104*di*(2*nfj) := by show 104*di*(nfj+nfj) = _; ring
      _ ≤ 104*(2*ncart li)*(2*ncart lj) := Nat.mul_le_mul (Nat.mul_le_mul_left _ hdi) (le_of_eq rfl)
      _ = _ := by ring
  have hN1 : N1 ≤ N := by
    calc N1 = b*(di*(2*nfj)) := by show 2*(nfj*di*b) = _; ring
      _ ≤ 104*(di*(2*nfj)) := Nat.mul_le_mul_right _ hb2
      _ = _ := by show _ = 104*di*(nfj+nfj); ring
  have hN2 : N2 ≤ N := by
    calc N2 = b*(di*dj) := by show 1*dj*(b*di) = _; ring
      _ ≤ 104*(di*(2*nfj)) := Nat.mul_le_mul hb2 (Nat.mul_le_mul_left _ hdj)
      _ = _ := by show _ = 104*di*(nfj+nfj); ring
  unfold spTransGrids
  dsimp only
  rw [mallocA_eq0 hf]
  dsimp only
  rw [mallocA_eq0 hf]
  dsimp only
  rw [mallocA_eq0 hf]
  dsimp only
  rw [mallocA_eq0 hf]
  dsimp only
  have a1 := alignA_le sh o
  have e8 : N = 8*(13*di*(nfj+nfj)) := by show 104*di*(nfj+nfj) = _; ring
  obtain ⟨A1, hA1⟩ : ∃ A, A = alignA sh o := ⟨_, rfl⟩
  have ha2 : alignA sh (alignA sh o + N) = A1 + N := by rw [e8, alignA_add, hA1]
  have ha3 : alignA sh (A1 + N + N) = A1 + N + N := by
    have := alignA_add sh o (2*(13*di*(nfj+nfj)))
    rw [show 8*(2*(13*di*(nfj+nfj))) = N + N by rw [e8]; ring, ← Nat.add_assoc, ← hA1] at this
    exact this
  have ha4 : alignA sh (A1 + N + N + N) = A1 + N + N + N := by
    have := alignA_add sh o (3*(13*di*(nfj+nfj)))
    rw [show 8*(3*(13*di*(nfj+nfj))) = N + N + N by rw [e8]; ring, ← Nat.add_assoc, ← Nat.add_assoc, ← hA1] at this
    exact this
  obtain ⟨A2, hA2⟩ : ∃ A, A = A1 + N := ⟨_, rfl⟩
  obtain ⟨A3, hA3⟩ : ∃ A, A = A2 + N := ⟨_, rfl⟩
  obtain ⟨A4, hA4⟩ : ∃ A, A = A3 + N := ⟨_, rfl⟩
  rw [← hA1] at a1
  show wp (k.braG tab ⟨buf, alignA sh o⟩ ⟨buf, alignA sh (alignA sh o + N)⟩ ⟨buf, goff⟩ n b nfj ki li >>= fun _ =>
    k.ket tab ⟨buf, alignA sh (alignA sh (alignA sh o + N) + N)⟩ ⟨buf, alignA sh (alignA sh (alignA sh (alignA sh o + N) + N) + N)⟩
      ⟨buf, alignA sh o⟩ ⟨buf, alignA sh (alignA sh o + N)⟩ (b*di) kj lj >>= fun _ =>
    pure ((⟨buf, alignA sh (alignA sh (alignA sh o + N) + N)⟩ : Ptr),
      (⟨buf, alignA sh (alignA sh (alignA sh (alignA sh o + N) + N) + N)⟩ : Ptr))) _ h
  rw [ha2, ha3, ha4, ← hA1, ← hA2, ← hA3, ← hA4]
  have hend : A4 + N ≤ size := by omega
  have key := spGrid_wp (h := h) (tab := tab) (k := k) (R1 := ⟨buf, A1⟩) (I1 := ⟨buf, A2⟩) (R2 := ⟨buf, A3⟩)
    (I2 := ⟨buf, A4⟩) (g := ⟨buf, goff⟩) (B := b) (n := n) (ki := ki) (kj := kj) (li := li) (lj := lj)
    (x := x) hT hli hlj
    (show OutS h ⟨buf, A1⟩ ⟨buf, A2⟩ N1 from outS_of_room hR a1.1 (by omega) (by omega))
    (show OutS h ⟨buf, A3⟩ ⟨buf, A4⟩ N2 from outS_of_room hR (by omega) (by omega) (by omega))
    (by
      intro q h1 h2
      obtain ⟨_, h3⟩ := reg2_room (N := N1) h1
      obtain ⟨_, h4⟩ := reg2_room (N := N2) h2
      omega)
    (by
      intro q hq
      have : q.buf = buf := by
        rcases hq with h1 | h1
        · exact (reg2_room h1).1
        · exact (reg2_room h1).1
      rw [this]
      exact ⟨htR.symm, htI.symm⟩)
    (by
      intro t ht a i m ha hi hm
      obtain ⟨g1, g2⟩ := G t ht a i m ha hi hm
      refine ⟨by rw [Ptr.add_assoc]; exact g1, fun hq => ?_⟩
      obtain ⟨_, h3⟩ := reg2_room (N := N1) hq
      have e : (((⟨buf, goff⟩ : Ptr) + t*n) + ((a*lenCart li+i)*b+m)).off = goff + (t*n + ((a*ncart li+i)*b+m)) := Nat.add_assoc _ _ _
      rw [e] at h3
      omega)
  rw [wp_mbind] at key ⊢
  refine wp_mono key ?_
  intro _ h1 key1
  rw [wp_mbind]
  refine wp_mono key1 ?_
  rintro _ h' ⟨H, F⟩
  rw [wp_pure]
  refine ⟨fun im j i m hj hi hm => H im j i m hj hi hm, ⟨fun q hq => F.D q (fun h1 => hq ?_), F.al, F.I⟩, fun im => by cases im <;> rfl⟩
  rcases h1 with h1 | h1
  · obtain ⟨h2, h3⟩ := reg2_room (N := N1) h1
    exact ⟨h2, by omega⟩
  · obtain ⟨h2, h3⟩ := reg2_room (N := N2) h1
    exact ⟨h2, by omega⟩

end Verif.Lemmas
