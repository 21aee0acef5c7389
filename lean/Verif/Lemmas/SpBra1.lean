import Verif.Lemmas.SpKet

/-! The kernels for the second electron, and the kernels with a factor i. -/
namespace Verif.Lemmas
open Verif Verif.Model Verif.Prog Verif.Spec

variable {α : Type} [Field α]

/-- the four additions for one element -/
theorem add4 {h0 : Heap α} {R I : Ptr} {A mid B : Nat} (O : OutS h0 R I (2*(A*mid*B))) {a i b : Nat} (ha : a < A)
    (hi : i < mid) (hb : b < B) {z : Bool → Nat → Nat → Cx α} {x0 x1 x2 x3 : α} {p0 p1 p2 p3 : Ptr}
    (h0' : x0 = (z false i b).re) (h1' : x1 = (z false i b).im) (h2' : x2 = (z true i b).re) (h3' : x3 = (z true i b).im)
    (e0 : p0 = R + kPos (A*mid*B) mid B false a i b) (e1 : p1 = I + kPos (A*mid*B) mid B false a i b)
    (e2 : p2 = R + kPos (A*mid*B) mid B true a i b) (e3 : p3 = I + kPos (A*mid*B) mid B true a i b) :
    Adds h0 (Reg2 R I (2*(A*mid*B))) (fun k => kIn A mid B k ∧ k.a = a) (kAddr R I (A*mid*B) mid B) (do
        addSt p0 x0
        addSt p1 x1
        addSt p2 x2
        addSt p3 x3) (fun k => if k.i = i then (if k.b = b then part (z k.sp k.i k.b) k.im else 0) else 0) := by
  subst e0 e1 e2 e3 h0' h1' h2' h3'
  have hin : ∀ im sp, kIn A mid B ⟨im, sp, a, i, b⟩ := fun _ _ => ⟨ha, hi, hb⟩
  have hreg : ∀ k : Kx, kIn A mid B k ∧ k.a = a → Reg2 R I (2*(A*mid*B)) (kAddr R I (A*mid*B) mid B k) :=
    fun k hk => kAddr_reg hk.1
  have one : ∀ im sp (p : Ptr) (x : α), p = kAddr R I (A*mid*B) mid B ⟨im, sp, a, i, b⟩ →
      Adds h0 (Reg2 R I (2*(A*mid*B))) (fun k => kIn A mid B k ∧ k.a = a) (kAddr R I (A*mid*B) mid B) (addSt p x)
        (fun k => if k = ⟨im, sp, a, i, b⟩ then x else 0) := fun im sp p x hp =>
    Adds.add (⟨im, sp, a, i, b⟩ : Kx) ⟨hin im sp, rfl⟩ hp (fun k hk e => kAddr_inj O hk.1 (hin _ _) e)
  refine (Adds.seq hreg (one false false _ _ rfl) (Adds.seq hreg (one true false _ _ rfl)
    (Adds.seq hreg (one false true _ _ rfl) (one true true _ _ rfl)))).congr ?_
  rintro ⟨im, sp, a', i', b'⟩ ⟨_, e⟩
  dsimp only at e
  subst e
  by_cases h1 : i' = i
  · by_cases h2 : b' = b
    · subst h1 h2
      cases im <;> cases sp <;> simp [part]
    · simp [h1, h2]
  · simp [h1]

/-- clearing the elements with given `a` -/
theorem zeroRow4 {h0 : Heap α} {R I : Ptr} {A mid B : Nat} (O : OutS h0 R I (2*(A*mid*B))) {a : Nat} (ha : a < A)
    {p0 p1 p2 p3 : Nat → Ptr} (e0 : ∀ x, p0 x = R + (0 + (a*(mid*B) + x))) (e1 : ∀ x, p1 x = I + (0 + (a*(mid*B) + x)))
    (e2 : ∀ x, p2 x = R + (A*mid*B + (a*(mid*B) + x))) (e3 : ∀ x, p3 x = I + (A*mid*B + (a*(mid*B) + x))) :
    Writes (fun _ => False) (From h0 (Reg2 R I (2*(A*mid*B)))) (forN (mid*B) fun x => do
        st (p0 x) 0
        st (p1 x) 0
        st (p2 x) 0
        st (p3 x) 0) (fun _ => True)
      (fun k => kIn A mid B k ∧ k.a = a) (kAddr R I (A*mid*B) mid B) (fun _ => 0) := by
  have key : Writes (fun _ => False) (From h0 (Reg2 R I (2*(A*mid*B)))) (forN (mid*B) fun x => do
        st (p0 x) (0:α)
        st (p1 x) 0
        st (p2 x) 0
        st (p3 x) 0) (fun _ => True)
      (fun k => kIn A mid B k ∧ k.a = a ∧ k.i*B + k.b < mid*B) (kAddr R I (A*mid*B) mid B) (fun _ => 0) := by
    refine (Writes.forN (P := fun k => kIn A mid B k ∧ k.a = a) (d := fun k => k.i*B+k.b)
      (From.stable (fun k hk => kAddr_reg hk.1)) (fun _ _ x => x) (fun _ _ _ _ _ => rfl) ?_).congr
      (fun k => by rw [and_assoc]) (fun _ _ => rfl)
    intro x hx
    have hB : 0 < B := by
      rcases Nat.eq_zero_or_pos B with h | h
      · subst h; simp at hx
      · exact h
    have ex : x = x/B*B + x%B := by rw [Nat.mul_comm]; exact (Nat.div_add_mod x B).symm
    have hi : x/B < mid := Nat.div_lt_of_lt_mul (by rw [Nat.mul_comm]; exact hx)
    have hb : x%B < B := Nat.mod_lt _ hB
    have ep : a*(mid*B) + x = (a*mid + x/B)*B + x%B := by
      conv_lhs => rw [ex]
      ring
    refine (st4 O ha hi hb (z0 := 0) (z1 := 0) (v := fun _ => 0) (fun im sp => by cases sp <;> exact (part_zero im).symm)
      ((e0 x).trans (by rw [ep]; rfl)) ((e1 x).trans (by rw [ep]; rfl)) ((e2 x).trans (by rw [ep]; rfl))
      ((e3 x).trans (by rw [ep]; rfl))).congr (fun k => ?_) (fun _ _ => rfl)
    constructor
    · rintro ⟨⟨h1, h2⟩, h3⟩
      rw [ex] at h3
      obtain ⟨h4, h5⟩ := radix_inj h1.2.2 hb h3
      exact ⟨h1, h2, h4, h5⟩
    · rintro ⟨h1, h2, h3, h4⟩
      refine ⟨⟨h1, h2⟩, ?_⟩
      rw [h3, h4]; exact ex.symm
  exact key.congr (fun k => ⟨fun h => ⟨h.1, h.2, radix_lt h.1.2.1 h.1.2.2⟩, fun h => ⟨h.1, h.2.1⟩⟩) (fun _ _ => rfl)

/-- what a_bra1_cart2spinor_zi and a_bra1_cart2spinor_zf have in common -/
theorem bra1_wp {h : Heap α} {gspR gspI : Ptr} {A nd nf B : Nat} {U : Nat → Bool → Nat → Cx α}
    {M : Bool → Bool → Nat → Nat → Nat → Cx α} (O : OutS h gspR gspI (2*(A*nd*B))) {row : Nat → Nat → Nat → Prog α Unit}
    (H : ∀ a i n, a < A → i < nd → n < nf →
      Adds h (Reg2 gspR gspI (2*(A*nd*B))) (fun k => kIn A nd B k ∧ k.a = a) (kAddr gspR gspI (A*nd*B) nd B) (row a i n)
        (fun k => if k.i = i then
          part (star (U k.i false n) * M false k.sp a n k.b + star (U k.i true n) * M true k.sp a n k.b) k.im else 0)) :
    wp (forN A fun j => do
      forN (nd*B) fun i => do
        st (gspR + (j*(nd*B)+i)) 0
        st (gspI + (j*(nd*B)+i)) 0
        st (gspR + A*(nd*B) + (j*(nd*B)+i)) 0
        st (gspI + A*(nd*B) + (j*(nd*B)+i)) 0
      forN nd fun i => forN nf fun n => row j i n)
      (fun _ h' => HoldsS h' gspR gspI (A*nd*B) A nd B (braT U nf M) ∧ From h (Reg2 gspR gspI (2*(A*nd*B))) h') h := by
  have key : Writes (fun _ => False) (From h (Reg2 gspR gspI (2*(A*nd*B)))) (forN A fun j => do
      forN (nd*B) fun i => do
        st (gspR + (j*(nd*B)+i)) (0:α)
        st (gspI + (j*(nd*B)+i)) 0
        st (gspR + A*(nd*B) + (j*(nd*B)+i)) 0
        st (gspI + A*(nd*B) + (j*(nd*B)+i)) 0
      forN nd fun i => forN nf fun n => row j i n) (fun _ => True) (fun k => kIn A nd B k ∧ k.a < A)
      (kAddr gspR gspI (A*nd*B) nd B) (fun k => part (braT U nf M k.sp k.a k.i k.b) k.im) := by
    refine Writes.forN (P := kIn A nd B) (d := fun k => k.a) (From.stable (fun k hk => kAddr_reg hk)) (fun _ _ x => x)
      (fun k k' hk hk' e => by rw [kAddr_inj O hk hk' e]) ?_
    intro a ha
    refine Writes.congr (Adds.zero (fun k hk => kAddr_reg hk.1) (zeroRow4 O ha (fun x => ?_) (fun x => ?_) (fun x => ?_)
      (fun x => ?_)) (Adds.forN (fun k hk => kAddr_reg hk.1) (fun i hi =>
        Adds.forN (fun k hk => kAddr_reg hk.1) (fun n hn => H a i n ha hi hn)))) (fun _ => Iff.rfl) ?_
    · rw [Nat.zero_add]
    · rw [Nat.zero_add]
    · rw [Ptr.add_assoc, Nat.mul_assoc]
    · rw [Ptr.add_assoc, Nat.mul_assoc]
    · rintro k ⟨hk, rfl⟩
      beta_reduce
      unfold braT
      rw [part_sum, Finset.sum_comm]
      refine Finset.sum_congr rfl fun n _ => ?_
      rw [Finset.sum_ite_eq, if_pos (Finset.mem_range.2 hk.2.1)]
  refine wp_mono (key h (From.refl _ _)) ?_
  rintro _ h' ⟨_, W⟩
  have W' := W.congr (P' := kIn A nd B) (fun k => ⟨fun hk => ⟨hk, hk.1⟩, fun hk => hk.1⟩) (fun _ _ => rfl)
  exact ⟨holdsS_of_wr W', from_of_wr W'⟩

/-- the loop over the fastest index -/
theorem addCol {h0 : Heap α} {R I : Ptr} {A mid B : Nat} {a i : Nat}
    {z : Bool → Nat → Nat → Cx α} {f : Nat → Prog α Unit}
    (H : ∀ b, b < B → Adds h0 (Reg2 R I (2*(A*mid*B))) (fun k => kIn A mid B k ∧ k.a = a) (kAddr R I (A*mid*B) mid B) (f b)
      (fun k => if k.i = i then (if k.b = b then part (z k.sp k.i k.b) k.im else 0) else 0)) :
    Adds h0 (Reg2 R I (2*(A*mid*B))) (fun k => kIn A mid B k ∧ k.a = a) (kAddr R I (A*mid*B) mid B) (forN B f)
      (fun k => if k.i = i then part (z k.sp k.i k.b) k.im else 0) := by
  refine (Adds.forN (fun k hk => kAddr_reg hk.1) H).congr ?_
  intro k hk
  by_cases h1 : k.i = i
  · simp only [if_pos h1]
    rw [Finset.sum_ite_eq, if_pos (Finset.mem_range.2 hk.1.2.2)]
  · simp [h1]

variable [DecidableEq α]

theorem bra1Zf_wp {h : Heap α} {tab c : JTab} {gspR gspI g1 : Ptr} {A B l : Nat} {kappa : Int} {U : Nat → Bool → Nat → Cx α}
    {x : Nat → Nat → Nat → Cx α} (hc : tab.at kappa l = some c)
    (O : OutS h gspR gspI (2*(A*lenSpinorC2S kappa l*B)))
    (C : CoefOK h (Reg2 gspR gspI (2*(A*lenSpinorC2S kappa l*B))) c (lenSpinorC2S kappa l) (lenCart l) U)
    (G : InZ h (Reg2 gspR gspI (2*(A*lenSpinorC2S kappa l*B))) g1 (g1 + A*lenCart l*B) A (lenCart l) B x) :
    wp (bra1Zf tab gspR gspI g1 B A kappa l) (fun _ h' =>
      HoldsS h' gspR gspI (A*lenSpinorC2S kappa l*B) A (lenSpinorC2S kappa l) B
        (braT U (lenCart l) (fun s t a n b => scalar2 (x a n b) s t)) ∧
      From h (Reg2 gspR gspI (2*(A*lenSpinorC2S kappa l*B))) h') h := by
  unfold bra1Zf JTab.with
  rw [hc]
  dsimp only
  refine bra1_wp O ?_
  intro a i n ha hi hn
  obtain ⟨⟨a1, a2⟩, a3, a4⟩ := C i false n hi hn
  obtain ⟨⟨b1, b2⟩, b3, b4⟩ := C i true n hi hn
  simp only [Bool.false_eq_true, if_false, if_true, Nat.zero_add, ← Nat.add_assoc] at a1 a2 a3 a4 b1 b2 b3 b4
  refine Adds.ld a1 a2 (Adds.ld a3 a4 (Adds.ld b1 b2 (Adds.ld b3 b4 ?_)))
  refine addCol (z := fun t i b => star (U i false n) * scalar2 (x a n b) false t + star (U i true n) * scalar2 (x a n b) true t)
    fun b hb => ?_
  obtain ⟨⟨c1, c2⟩, c3, c4⟩ := G a n b ha hn hb
  refine Adds.ld c1 c2 (Adds.ld c3 c4 ?_)
  refine add4 O ha hi hb
    (z := fun t i b => star (U i false n) * scalar2 (x a n b) false t + star (U i true n) * scalar2 (x a n b) true t)
    ?_ ?_ ?_ ?_ ?_ ?_ ?_ ?_
  · simp [scalar2]
  · simp [scalar2]; ring
  · simp [scalar2]
  · simp [scalar2]; ring
  · refine congrArg (gspR + ·) ?_; unfold kPos; simp
  · refine congrArg (gspI + ·) ?_; unfold kPos; simp
  · rw [Ptr.add_assoc]; refine congrArg (gspR + ·) ?_; unfold kPos; simp; ring
  · rw [Ptr.add_assoc]; refine congrArg (gspI + ·) ?_; unfold kPos; simp; ring

theorem bra1Zi_wp {h : Heap α} {tab c : JTab} {gspR gspI gx gy gz g1 : Ptr} {A B l : Nat} {kappa : Int}
    {U : Nat → Bool → Nat → Cx α} {x : Nat → Nat → Nat → Nat → Cx α} (hc : tab.at kappa l = some c)
    (O : OutS h gspR gspI (2*(A*lenSpinorC2S kappa l*B)))
    (C : CoefOK h (Reg2 gspR gspI (2*(A*lenSpinorC2S kappa l*B))) c (lenSpinorC2S kappa l) (lenCart l) U)
    (G0 : InZ h (Reg2 gspR gspI (2*(A*lenSpinorC2S kappa l*B))) gx (gx + A*lenCart l*B) A (lenCart l) B (x 0))
    (G1 : InZ h (Reg2 gspR gspI (2*(A*lenSpinorC2S kappa l*B))) gy (gy + A*lenCart l*B) A (lenCart l) B (x 1))
    (G2 : InZ h (Reg2 gspR gspI (2*(A*lenSpinorC2S kappa l*B))) gz (gz + A*lenCart l*B) A (lenCart l) B (x 2))
    (G3 : InZ h (Reg2 gspR gspI (2*(A*lenSpinorC2S kappa l*B))) g1 (g1 + A*lenCart l*B) A (lenCart l) B (x 3)) :
    wp (bra1Zi tab gspR gspI gx gy gz g1 B A kappa l) (fun _ h' =>
      HoldsS h' gspR gspI (A*lenSpinorC2S kappa l*B) A (lenSpinorC2S kappa l) B
        (braT U (lenCart l) (fun s t a n b => pauli (fun c => x c a n b) s t)) ∧
      From h (Reg2 gspR gspI (2*(A*lenSpinorC2S kappa l*B))) h') h := by
  unfold bra1Zi JTab.with
  rw [hc]
  dsimp only
  refine bra1_wp O ?_
  intro a i n ha hi hn
  obtain ⟨⟨a1, a2⟩, a3, a4⟩ := C i false n hi hn
  obtain ⟨⟨b1, b2⟩, b3, b4⟩ := C i true n hi hn
  simp only [Bool.false_eq_true, if_false, if_true, Nat.zero_add, ← Nat.add_assoc] at a1 a2 a3 a4 b1 b2 b3 b4
  refine Adds.ld a1 a2 (Adds.ld a3 a4 (Adds.ld b1 b2 (Adds.ld b3 b4 ?_)))
  refine addCol (z := fun t i b => star (U i false n) * pauli (fun c => x c a n b) false t +
    star (U i true n) * pauli (fun c => x c a n b) true t) fun b hb => ?_
  obtain ⟨⟨c1, c2⟩, c3, c4⟩ := G3 a n b ha hn hb
  obtain ⟨⟨d1, d2⟩, d3, d4⟩ := G0 a n b ha hn hb
  obtain ⟨⟨e1, e2⟩, e3, e4⟩ := G1 a n b ha hn hb
  obtain ⟨⟨f1, f2⟩, f3, f4⟩ := G2 a n b ha hn hb
  refine Adds.ld c1 c2 (Adds.ld c3 c4 (Adds.ld d1 d2 (Adds.ld d3 d4 (Adds.ld e1 e2 (Adds.ld e3 e4
    (Adds.ld f1 f2 (Adds.ld f3 f4 ?_)))))))
  refine add4 O ha hi hb
    (z := fun t i b => star (U i false n) * pauli (fun c => x c a n b) false t +
      star (U i true n) * pauli (fun c => x c a n b) true t)
    ?_ ?_ ?_ ?_ ?_ ?_ ?_ ?_
  · simp [pauli, Cx.i]; ring
  · simp [pauli, Cx.i]; ring
  · simp [pauli, Cx.i]; ring
  · simp [pauli, Cx.i]; ring
  · refine congrArg (gspR + ·) ?_; unfold kPos; simp
  · refine congrArg (gspI + ·) ?_; unfold kPos; simp
  · rw [Ptr.add_assoc]; refine congrArg (gspR + ·) ?_; unfold kPos; simp; ring
  · rw [Ptr.add_assoc]; refine congrArg (gspI + ·) ?_; unfold kPos; simp; ring

omit [DecidableEq α] in
/-- the swap and the change of sign multiply by i -/
theorem times_i {h h' : Heap α} {R I : Ptr} {A mid B n : Nat} {G : Nat → Nat → Nat → Cx α} (O : OutS h R I (A*mid*B))
    (hn : n = A*mid*B)
    (H : HoldsZ h' I R A mid B G) (F : From h (Reg2 I R (A*mid*B)) h') :
    wp (negate R n) (fun _ h'' => HoldsZ h'' R I A mid B (fun a i b => Cx.i * G a i b) ∧ From h (Reg2 R I (A*mid*B)) h'') h' := by
  subst hn
  have hd : ∀ m, m < A*mid*B → ∃ a i b, a < A ∧ i < mid ∧ b < B ∧ m = (a*mid+i)*B+b := by
    intro m hm
    have hB : 0 < B := by
      rcases Nat.eq_zero_or_pos B with h | h
      · subst h; simp at hm
      · exact h
    have hM : 0 < mid := by
      rcases Nat.eq_zero_or_pos mid with h | h
      · subst h; simp at hm
      · exact h
    refine ⟨m/B/mid, m/B%mid, m%B, Nat.div_lt_of_lt_mul (Nat.div_lt_of_lt_mul ?_), Nat.mod_lt _ hM, Nat.mod_lt _ hB, ?_⟩
    · calc m < A*mid*B := hm
        _ = _ := by ring
    · rw [Nat.mul_comm (m/B/mid) mid, Nat.div_add_mod, Nat.mul_comm (m/B) B, Nat.div_add_mod]
  have hv : HoldsD h' R (A*mid*B) (fun m => match h'.D (R + m) with | .val x => x | _ => 0) := by
    intro m hm
    obtain ⟨a, i, b, ha, hi, hb, rfl⟩ := hd m hm
    simp only [(H a i b ha hi hb).2]
  refine negate_wp hv ?_
  intro h'' H2 F2
  refine ⟨fun a i b ha hi hb => ⟨?_, ?_⟩, ?_⟩
  · rw [H2 _ (zPos_lt ha hi hb)]
    simp only [(H a i b ha hi hb).2]
    simp [Cx.i]
  · rw [F2.D]
    · rw [(H a i b ha hi hb).1]
      simp [Cx.i]
    · rintro ⟨j, hj, e⟩
      exact O.dj j _ hj (zPos_lt ha hi hb) e.symm
  · refine ⟨fun q hq => ?_, fun q hq => F2.al q (F.al q hq), by rw [F2.I, F.I]⟩
    rw [F2.D q (fun x => hq (Or.inl x)), F.D q (fun x => hq (Or.symm x))]

theorem outS_symm {h : Heap α} {R I : Ptr} {N : Nat} (O : OutS h R I N) : OutS h I R N := ⟨O.alI, O.alR, O.dj.symm⟩

theorem reg2_symm {R I : Ptr} {N : Nat} : Reg2 I R N = Reg2 R I N := by
  funext q
  unfold Reg2
  exact propext or_comm

theorem ket_wp {h : Heap α} {tab c : JTab} {gspR gspI gR gI : Ptr} {B l : Nat} {kappa : Int} {k : SpKind}
    {U : Nat → Bool → Nat → Cx α} {G : Bool → Nat → Nat → Nat → Cx α} (hc : tab.at kappa l = some c)
    (O : OutS h gspR gspI (1*lenSpinorC2S kappa l*B))
    (C : CoefOK h (Reg2 gspR gspI (1*lenSpinorC2S kappa l*B)) c (lenSpinorC2S kappa l) (lenCart l) U)
    (HG : InS h (Reg2 gspR gspI (1*lenSpinorC2S kappa l*B)) gR gI (1*lenCart l*B) 1 (lenCart l) B G) :
    wp (k.ket tab gspR gspI gR gI B kappa l) (fun _ h' =>
      HoldsZ h' gspR gspI 1 (lenSpinorC2S kappa l) B (fun a i b => phase k.ph (ketT U (lenCart l) G a i b)) ∧
      From h (Reg2 gspR gspI (1*lenSpinorC2S kappa l*B)) h') h := by
  unfold SpKind.ket phase
  cases k.ph with
  | false => exact ketSp_wp hc O C HG
  | true =>
    simp only [if_true]
    unfold iketSp
    rw [wp_mbind]
    rw [← reg2_symm] at C HG
    refine wp_mono (ketSp_wp hc (outS_symm O) C HG) ?_
    rintro _ h' ⟨H, F⟩
    exact times_i O (by rw [Nat.one_mul]) H F

theorem ket1_wp {h : Heap α} {tab c : JTab} {gspR gspI gR gI : Ptr} {A B l : Nat} {kappa : Int} {k : SpKind}
    {U : Nat → Bool → Nat → Cx α} {G : Bool → Nat → Nat → Nat → Cx α} (hc : tab.at kappa l = some c)
    (O : OutS h gspR gspI (A*lenSpinorC2S kappa l*B))
    (C : CoefOK h (Reg2 gspR gspI (A*lenSpinorC2S kappa l*B)) c (lenSpinorC2S kappa l) (lenCart l) U)
    (HG : InS h (Reg2 gspR gspI (A*lenSpinorC2S kappa l*B)) gR gI (A*lenCart l*B) A (lenCart l) B G) :
    wp (k.ket1 tab gspR gspI gR gI B A kappa l) (fun _ h' =>
      HoldsZ h' gspR gspI A (lenSpinorC2S kappa l) B (fun a i b => phase k.ph (ketT U (lenCart l) G a i b)) ∧
      From h (Reg2 gspR gspI (A*lenSpinorC2S kappa l*B)) h') h := by
  unfold SpKind.ket1 phase
  cases k.ph with
  | false => exact ket1Sp_wp hc O C HG
  | true =>
    simp only [if_true]
    unfold iket1Sp
    rw [wp_mbind]
    rw [← reg2_symm] at C HG
    refine wp_mono (ket1Sp_wp hc (outS_symm O) C HG) ?_
    rintro _ h' ⟨H, F⟩
    exact times_i O (by ring) H F

theorem bra_kind {h : Heap α} {tab c : JTab} {gspR gspI g : Ptr} {A l n : Nat} {kappa : Int} {k : SpKind}
    {U : Nat → Bool → Nat → Cx α} {x : Nat → Nat → Nat → α} (hc : tab.at kappa l = some c)
    (O : OutS h gspR gspI (2*(A*lenSpinorC2S kappa l*1)))
    (C : CoefOK h (Reg2 gspR gspI (2*(A*lenSpinorC2S kappa l*1))) c (lenSpinorC2S kappa l) (lenCart l) U)
    (G : ∀ t, t < (if k.si then 4 else 1) → InR h (Reg2 gspR gspI (2*(A*lenSpinorC2S kappa l*1))) (g + t*n) A (lenCart l) (x t)) :
    wp (k.bra tab gspR gspI g n A kappa l) (fun _ h' =>
      HoldsS h' gspR gspI (A*lenSpinorC2S kappa l*1) A (lenSpinorC2S kappa l) 1
        (braT U (lenCart l) (fun s t a m _ => spinMat k.si (fun c => Cx.ofR (x c a m)) s t)) ∧
      From h (Reg2 gspR gspI (2*(A*lenSpinorC2S kappa l*1))) h') h := by
  unfold SpKind.bra spinMat
  obtain ⟨si, ph⟩ := k
  cases si with
  | false =>
    have G0 := G 0 (show 0 < 1 by decide)
    rw [Nat.zero_mul, Ptr.add_zero] at G0
    exact braSf_wp hc O C G0
  | true =>
    have G0 := G 0 (show 0 < 4 by decide)
    rw [Nat.zero_mul, Ptr.add_zero] at G0
    have G1 := G 1 (show 1 < 4 by decide)
    rw [Nat.one_mul] at G1
    have G2 := G 2 (show 2 < 4 by decide)
    rw [show g + 2*n = g + n + n by rw [Ptr.add_assoc, Nat.two_mul]] at G2
    have G3 := G 3 (show 3 < 4 by decide)
    rw [show g + 3*n = g + n + n + n by rw [Ptr.add_assoc, Ptr.add_assoc]; exact congrArg (g + ·) (by ring)] at G3
    exact braSi_wp hc O C G0 G1 G2 G3

theorem bra1_kind {h : Heap α} {tab c : JTab} {gspR gspI g : Ptr} {A B l n : Nat} {kappa : Int} {k : SpKind}
    {U : Nat → Bool → Nat → Cx α} {x : Nat → Nat → Nat → Nat → Cx α} (hc : tab.at kappa l = some c)
    (O : OutS h gspR gspI (2*(A*lenSpinorC2S kappa l*B)))
    (C : CoefOK h (Reg2 gspR gspI (2*(A*lenSpinorC2S kappa l*B))) c (lenSpinorC2S kappa l) (lenCart l) U)
    (G : ∀ t, t < (if k.si then 4 else 1) → InZ h (Reg2 gspR gspI (2*(A*lenSpinorC2S kappa l*B))) (g + t*n)
      (g + t*n + A*lenCart l*B) A (lenCart l) B (x t)) :
    wp (k.bra1 tab gspR gspI g n B A kappa l) (fun _ h' =>
      HoldsS h' gspR gspI (A*lenSpinorC2S kappa l*B) A (lenSpinorC2S kappa l) B
        (braT U (lenCart l) (fun s t a m b => spinMat k.si (fun c => x c a m b) s t)) ∧
      From h (Reg2 gspR gspI (2*(A*lenSpinorC2S kappa l*B))) h') h := by
  unfold SpKind.bra1 spinMat
  obtain ⟨si, ph⟩ := k
  cases si with
  | false =>
    have G0 := G 0 (show 0 < 1 by decide)
    rw [Nat.zero_mul, Ptr.add_zero] at G0
    exact bra1Zf_wp hc O C G0
  | true =>
    have G0 := G 0 (show 0 < 4 by decide)
    rw [Nat.zero_mul, Ptr.add_zero] at G0
    have G1 := G 1 (show 1 < 4 by decide)
    rw [Nat.one_mul] at G1
    have G2 := G 2 (show 2 < 4 by decide)
    rw [show g + 2*n = g + n + n by rw [Ptr.add_assoc, Nat.two_mul]] at G2
    have G3 := G 3 (show 3 < 4 by decide)
    rw [show g + 3*n = g + n + n + n by rw [Ptr.add_assoc, Ptr.add_assoc]; exact congrArg (g + ·) (by ring)] at G3
    exact bra1Zi_wp hc O C G0 G1 G2 G3

end Verif.Lemmas
