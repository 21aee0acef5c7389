import Verif.Lemmas.ZStage

/-! Bra and ket transformation of one block. -/
namespace Verif.Lemmas
open Verif Verif.Model Verif.Prog Verif.Spec Verif.Props

variable {α : Type} [Field α]

theorem lenCart_eq (l : Nat) : lenCart l = ncart l := rfl

theorem lenSpinorC2S_le (kappa : Int) (l : Nat) : lenSpinorC2S kappa l ≤ 2*ncart l := by
  have h : 4*l+2 ≤ 2*ncart l := by
    unfold ncart
    have e : (l+1)*(l+2) = l*l + 3*l + 2 := by ring
    have : l ≤ l*l := Nat.le_mul_self l
    have h2 : 2 ∣ (l+1)*(l+2) := (Nat.even_mul_succ_self (l+1)).two_dvd
    have := Nat.div_mul_cancel h2
    omega
  refine le_trans ?_ h
  unfold lenSpinorC2S
  split
  · omega
  · split <;> omega

theorem jRow_lt {kappa : Int} {l m : Nat} (hm : m < lenSpinorC2S kappa l) : jRow kappa l m < 4*l+2 := by
  unfold lenSpinorC2S at hm
  unfold jRow
  split_ifs at hm ⊢ <;> omega

theorem cj_offsets : ∀ l, l < 13 → ∃ o, cjLt.getD l none = some o ∧ cjGt.getD l none = some (o + 2*l*(2*ncart l)) := by
  decide +kernel

/-- the tables give the coefficients -/
theorem coefOK_of_tab {h : Heap α} {tab : JTab} {kappa : Int} {l : Nat} (H : HoldsJ h tab.R tab.I) (hl : l < 13) :
    ∃ c, tab.at kappa l = some c ∧ ∀ Reg : Ptr → Prop, (∀ q, Reg q → q.buf ≠ tab.R.buf ∧ q.buf ≠ tab.I.buf) →
      CoefOK h Reg c (lenSpinorC2S kappa l) (lenCart l) (cjCoef kappa l) := by
  obtain ⟨o, e1, e2⟩ := cj_offsets l hl
  let o' := if kappa < 0 then o + 2*l*(2*ncart l) else o
  have hat : tab.at kappa l = some ⟨tab.R + o', tab.I + o'⟩ := by
    unfold JTab.at
    by_cases hk : kappa < 0
    · rw [if_pos hk, e2]; simp only [o', if_pos hk]; rfl
    · rw [if_neg hk, e1]; simp only [o', if_neg hk]; rfl
  refine ⟨_, hat, fun Reg hReg i s n hi hn => ?_⟩
  have hn' : n < ncart l := hn
  have hx : (if s then ncart l else 0) + n < 2*ncart l := by split <;> omega
  obtain ⟨hR, hI⟩ := H l hl (jRow kappa l i) (jRow_lt hi) _ hx
  rw [e1] at hR hI
  have e3 : o' + (i*lenCart l*2 + ((if s then lenCart l else 0) + n)) =
      (some o).getD 0 + (jRow kappa l i*(2*ncart l) + ((if s then ncart l else 0) + n)) := by
    rw [lenCart_eq]
    unfold jRow
    by_cases hk : kappa < 0
    · simp only [o', if_pos hk, Option.getD_some]; ring
    · simp only [o', if_neg hk, Option.getD_some]; ring
  refine ⟨⟨?_, fun x => (hReg _ x).1 rfl⟩, ?_, fun x => (hReg _ x).2 rfl⟩
  · rw [Ptr.add_assoc, e3]; exact hR
  · rw [Ptr.add_assoc, e3]; exact hI

theorem from_trans {h0 h1 h2 : Heap α} {A B C : Ptr → Prop} (H1 : From h0 A h1) (H2 : From h1 B h2) (hA : ∀ q, A q → C q)
    (hB : ∀ q, B q → C q) : From h0 C h2 :=
  ⟨fun q hq => by rw [H2.D q (fun x => hq (hB q x)), H1.D q (fun x => hq (hA q x))], fun q hq => H2.al q (H1.al q hq),
    by rw [H2.I, H1.I]⟩

theorem CoefOK.mono {h h' : Heap α} {A B : Ptr → Prop} {c : JTab} {nd nf : Nat} {U : Nat → Bool → Nat → Cx α}
    (H : CoefOK h (fun q => A q ∨ B q) c nd nf U) (F : From h A h') : CoefOK h' B c nd nf U := by
  intro i s n hi hn
  obtain ⟨⟨a1, a2⟩, a3, a4⟩ := H i s n hi hn
  exact ⟨⟨by rw [F.D _ (fun x => a2 (Or.inl x))]; exact a1, fun x => a2 (Or.inr x)⟩,
    by rw [F.D _ (fun x => a4 (Or.inl x))]; exact a3, fun x => a4 (Or.inr x)⟩

theorem outS_from {h h' : Heap α} {A : Ptr → Prop} {R I : Ptr} {N : Nat} (O : OutS h R I N) (F : From h A h') : OutS h' R I N :=
  ⟨fun k hk => F.al _ (O.alR k hk), fun k hk => F.al _ (O.alI k hk), O.dj⟩

/-- the two transformations of one electron, as sums -/
theorem spinor2_eq {si ph : Bool} {k1 k2 : Int} {l1 l2 : Nat} {x : Nat → Nat → Nat → Cx α} {i j : Nat} :
    phase ph (ketT (cjCoef k2 l2) (lenCart l2) (fun t _ n _ => braT (cjCoef k1 l1) (lenCart l1)
      (fun s t _ m _ => spinMat si (fun c => x c m n) s t) t 0 i 0) 0 j 0) = spinor2 si ph k1 k2 l1 l2 x i j := by
  unfold spinor2 ketT braT
  congr 1
  rw [Finset.sum_comm]
  refine Finset.sum_congr rfl fun n _ => ?_
  rw [Finset.mul_sum, Finset.mul_sum, ← Finset.sum_add_distrib]
  refine Finset.sum_congr rfl fun m _ => ?_
  simp only [Fintype.sum_bool]
  ring

variable [DecidableEq α]

/-- the first electron: `C` functions between the bra and the ket -/
theorem spTwo_wp {h : Heap α} {tab : JTab} {k : SpKind} {R1 I1 R2 I2 g : Ptr} {C n nket nbra li lj : Nat} {ki kj : Int}
    {x : Nat → Nat → Nat → α} (hT : HoldsJ h tab.R tab.I) (hli : li < 13) (hlj : lj < 13)
    (hnk : nket = lenCart lj*C) (hnb : nbra = C*lenSpinorC2S ki li)
    (O1 : OutS h R1 I1 (2*(lenCart lj*C*lenSpinorC2S ki li*1))) (O2 : OutS h R2 I2 (1*lenSpinorC2S kj lj*(C*lenSpinorC2S ki li)))
    (hD : ∀ q, Reg2 R1 I1 (2*(lenCart lj*C*lenSpinorC2S ki li*1)) q →
      ¬ Reg2 R2 I2 (1*lenSpinorC2S kj lj*(C*lenSpinorC2S ki li)) q)
    (hB : ∀ q, (Reg2 R1 I1 (2*(lenCart lj*C*lenSpinorC2S ki li*1)) q ∨
      Reg2 R2 I2 (1*lenSpinorC2S kj lj*(C*lenSpinorC2S ki li)) q) → q.buf ≠ tab.R.buf ∧ q.buf ≠ tab.I.buf)
    (G : ∀ t, t < (if k.si then 4 else 1) → InR h (Reg2 R1 I1 (2*(lenCart lj*C*lenSpinorC2S ki li*1))) (g + t*n)
      (lenCart lj*C) (lenCart li) (x t)) :
    wp (do
      k.bra tab R1 I1 g n nket ki li
      k.ket tab R2 I2 R1 I1 nbra kj lj) (fun _ h' =>
      (∀ im j c i, j < lenSpinorC2S kj lj → c < C → i < lenSpinorC2S ki li →
        h'.D (side (R2, I2) im + ((j*C + c)*lenSpinorC2S ki li + i)) =
          .val (part (spinor2 k.si k.ph ki kj li lj (fun t m n => Cx.ofR (x t (n*C+c) m)) i j) im)) ∧
      From h (fun q => Reg2 R1 I1 (2*(lenCart lj*C*lenSpinorC2S ki li*1)) q ∨
        Reg2 R2 I2 (1*lenSpinorC2S kj lj*(C*lenSpinorC2S ki li)) q) h') h := by
  subst hnk hnb
  obtain ⟨ci, hci, Ci⟩ := coefOK_of_tab (kappa := ki) hT hli
  obtain ⟨cj, hcj, Cj⟩ := coefOK_of_tab (kappa := kj) hT hlj
  rw [wp_mbind]
  refine wp_mono (bra_kind hci O1 (Ci _ (fun q hq => hB q (Or.inl hq))) G) ?_
  rintro _ h1 ⟨H1, F1⟩
  have hkp : ∀ s n b, b < C*lenSpinorC2S ki li → kPos (1*lenCart lj*(C*lenSpinorC2S ki li)) (lenCart lj) (C*lenSpinorC2S ki li) s 0 n b =
      kPos (lenCart lj*C*lenSpinorC2S ki li*1) (lenSpinorC2S ki li) 1 s (n*C + b/lenSpinorC2S ki li) (b%lenSpinorC2S ki li) 0 := by
    intro s n b hb
    have e : b/lenSpinorC2S ki li*lenSpinorC2S ki li + b%lenSpinorC2S ki li = b := by
      rw [Nat.mul_comm]; exact Nat.div_add_mod _ _
    unfold kPos
    have e1 : (0*lenCart lj+n)*(C*lenSpinorC2S ki li)+b =
      ((n*C+b/lenSpinorC2S ki li)*lenSpinorC2S ki li + b%lenSpinorC2S ki li)*1+0 := by
      conv_lhs => rw [← e]
      ring
    rw [e1, show 1*lenCart lj*(C*lenSpinorC2S ki li) = lenCart lj*C*lenSpinorC2S ki li*1 by ring]
  have hG : InS h1 (Reg2 R2 I2 (1*lenSpinorC2S kj lj*(C*lenSpinorC2S ki li))) R1 I1 (1*lenCart lj*(C*lenSpinorC2S ki li)) 1 (lenCart lj)
      (C*lenSpinorC2S ki li) (fun s _ n b => braT (cjCoef ki li) (lenCart li)
        (fun s t a m _ => spinMat k.si (fun c => Cx.ofR (x c a m)) s t) s (n*C + b/lenSpinorC2S ki li) (b%lenSpinorC2S ki li) 0) := by
    intro s a n b ha hn hb
    obtain rfl : a = 0 := by omega
    have hd : 0 < lenSpinorC2S ki li := by
      rcases Nat.eq_zero_or_pos (lenSpinorC2S ki li) with h | h
      · rw [h] at hb; simp at hb
      · exact h
    have hc : b/lenSpinorC2S ki li < C := Nat.div_lt_of_lt_mul (by rw [Nat.mul_comm]; exact hb)
    have hp := kPos_lt (sp := s) (radix_lt hn hc) (Nat.mod_lt b hd) Nat.one_pos
    obtain ⟨h2, h3⟩ := H1 s (n*C + b/lenSpinorC2S ki li) (b%lenSpinorC2S ki li) 0 (radix_lt hn hc) (Nat.mod_lt _ hd) Nat.one_pos
    rw [hkp s n b hb]
    exact ⟨⟨h2, hD _ (Or.inl ⟨_, hp, rfl⟩)⟩, h3, hD _ (Or.inr ⟨_, hp, rfl⟩)⟩
  refine wp_mono (ket_wp hcj (outS_from O2 F1) ((Cj _ hB).mono F1) hG) ?_
  rintro _ h2 ⟨H2, F2⟩
  refine ⟨fun im j c i hj hc hi => ?_, from_trans F1 F2 (fun _ => Or.inl) (fun _ => Or.inr)⟩
  have := H2 0 j (c*lenSpinorC2S ki li+i) Nat.one_pos hj (radix_lt hc hi)
  rw [show (0*lenSpinorC2S kj lj+j)*(C*lenSpinorC2S ki li)+(c*lenSpinorC2S ki li+i) = (j*C+c)*lenSpinorC2S ki li+i by ring] at this
  have e : phase k.ph (ketT (cjCoef kj lj) (lenCart lj) (fun s _ n b => braT (cjCoef ki li) (lenCart li)
        (fun s t a m _ => spinMat k.si (fun c => Cx.ofR (x c a m)) s t) s (n*C + b/lenSpinorC2S ki li) (b%lenSpinorC2S ki li) 0) 0 j
          (c*lenSpinorC2S ki li+i)) = spinor2 k.si k.ph ki kj li lj (fun t m n => Cx.ofR (x t (n*C+c) m)) i j := by
    rw [← spinor2_eq]
    unfold ketT braT
    simp only [(digit hi).1, (digit hi).2]
  dsimp only at this
  rw [e] at this
  cases im
  · exact this.1
  · exact this.2

end Verif.Lemmas
