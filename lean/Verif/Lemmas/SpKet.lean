import Verif.Lemmas.SpKer

/-! The ket kernels of the Cartesian to spinor transformation. -/
namespace Verif.Lemmas
open Verif Verif.Model Verif.Prog Verif.Spec

variable {α : Type} [Field α]

/-- an element of one of two arrays of three indices -/
structure Kz where
  im : Bool
  a : Nat
  i : Nat
  b : Nat
deriving DecidableEq

def zAddr (R I : Ptr) (mid B : Nat) (k : Kz) : Ptr := (if k.im then I else R) + ((k.a*mid + k.i)*B + k.b)

def zIn (A mid B : Nat) (k : Kz) : Prop := k.a < A ∧ k.i < mid ∧ k.b < B

theorem zPos_lt {A mid B a i b : Nat} (ha : a < A) (hi : i < mid) (hb : b < B) : (a*mid+i)*B+b < A*mid*B :=
  radix_lt (radix_lt ha hi) hb

theorem zAddr_reg {R I : Ptr} {A mid B : Nat} {k : Kz} (hk : zIn A mid B k) : Reg2 R I (A*mid*B) (zAddr R I mid B k) := by
  have h := zPos_lt hk.1 hk.2.1 hk.2.2
  unfold zAddr Reg2
  cases k.im
  · exact Or.inl ⟨_, h, rfl⟩
  · exact Or.inr ⟨_, h, rfl⟩

theorem zAddr_al {h : Heap α} {R I : Ptr} {A mid B : Nat} (O : OutS h R I (A*mid*B)) {k : Kz} (hk : zIn A mid B k) :
    h.D (zAddr R I mid B k) ≠ .oob := by
  have hl := zPos_lt hk.1 hk.2.1 hk.2.2
  unfold zAddr
  cases k.im
  · exact O.alR _ hl
  · exact O.alI _ hl

theorem zAddr_inj {h : Heap α} {R I : Ptr} {A mid B : Nat} (O : OutS h R I (A*mid*B)) {k k' : Kz} (hk : zIn A mid B k)
    (hk' : zIn A mid B k') (e : zAddr R I mid B k = zAddr R I mid B k') : k = k' := by
  obtain ⟨im, a, i, b⟩ := k
  obtain ⟨im', a', i', b'⟩ := k'
  have hl := zPos_lt hk.1 hk.2.1 hk.2.2
  have hl' := zPos_lt hk'.1 hk'.2.1 hk'.2.2
  have him : im = im' := by
    unfold zAddr at e
    cases im <;> cases im' <;> simp only [if_true, Bool.false_eq_true, if_false] at e
    · rfl
    · exact absurd e (O.dj _ _ hl hl')
    · exact absurd e.symm (O.dj _ _ hl' hl)
    · rfl
  subst him
  unfold zAddr at e
  obtain ⟨e1, e2⟩ := radix_inj hk.2.2 hk'.2.2 ((Ptr.add_right_inj _ _ _).1 e)
  obtain ⟨e3, e4⟩ := radix_inj hk.2.1 hk'.2.1 e1
  dsimp only at e2 e3 e4
  rw [e2, e3, e4]

/-- the two stores for one element -/
theorem st2 {h0 : Heap α} {R I : Ptr} {A mid B : Nat} (O : OutS h0 R I (A*mid*B)) {a i b : Nat} (ha : a < A)
    (hi : i < mid) (hb : b < B) {z : Cx α} {v : Kz → α} {p0 p1 : Ptr} (hv : ∀ im, v ⟨im, a, i, b⟩ = part z im)
    (e0 : p0 = R + ((a*mid+i)*B+b)) (e1 : p1 = I + ((a*mid+i)*B+b)) :
    Writes (fun _ => False) (From h0 (Reg2 R I (A*mid*B))) (do
        st p0 z.re
        st p1 z.im) (fun _ => True)
      (fun k => zIn A mid B k ∧ k.a = a ∧ k.i = i ∧ k.b = b) (zAddr R I mid B) v := by
  subst e0 e1
  have hin : ∀ im, zIn A mid B ⟨im, a, i, b⟩ := fun _ => ⟨ha, hi, hb⟩
  have one : ∀ im (p : Ptr) (x : α), p = zAddr R I mid B ⟨im, a, i, b⟩ → x = v ⟨im, a, i, b⟩ →
      Writes (fun _ => False) (From h0 (Reg2 R I (A*mid*B))) (st p x) (fun _ => True)
        (fun k => k = ⟨im, a, i, b⟩) (zAddr R I mid B) v := fun im p x hp hx =>
    Writes.st hp hx (fun h hok => hok.al _ (zAddr_al O (hin im))) (fun _ => Iff.rfl)
  refine (Writes.seq (one false _ _ rfl (hv false).symm) (one true _ _ rfl (hv true).symm)
    (From.stable ?_) (fun _ _ x => x) ?_ (fun _ => Iff.rfl)).congr ?_ (fun _ _ => rfl)
  · rintro k rfl; exact zAddr_reg (hin _)
  · rintro k k' rfl rfl e; rw [zAddr_inj O (hin _) (hin _) e]
  · rintro ⟨im, a', i', b'⟩
    constructor
    · rintro ⟨_, rfl, rfl, rfl⟩
      cases im <;> simp
    · rintro (h | h) <;>
      · simp only [Kz.mk.injEq] at h
        obtain ⟨rfl, rfl, rfl, rfl⟩ := h
        exact ⟨hin _, rfl, rfl, rfl⟩

/-- the two additions for one element -/
theorem add2 {h0 : Heap α} {R I : Ptr} {A mid B : Nat} (O : OutS h0 R I (A*mid*B)) {a i b : Nat} (ha : a < A)
    (hi : i < mid) (hb : b < B) {z : Nat → Nat → Cx α} {x y : α} {p0 p1 : Ptr}
    (hx : x = (z a b).re) (hy : y = (z a b).im)
    (e0 : p0 = R + ((a*mid+i)*B+b)) (e1 : p1 = I + ((a*mid+i)*B+b)) :
    Adds h0 (Reg2 R I (A*mid*B)) (fun k => zIn A mid B k ∧ k.i = i) (zAddr R I mid B) (do
        addSt p0 x
        addSt p1 y) (fun k => if k.a = a then (if k.b = b then part (z k.a k.b) k.im else 0) else 0) := by
  subst e0 e1 hx hy
  have hin : ∀ im, zIn A mid B ⟨im, a, i, b⟩ := fun _ => ⟨ha, hi, hb⟩
  have one : ∀ im (p : Ptr) (x : α), p = zAddr R I mid B ⟨im, a, i, b⟩ →
      Adds h0 (Reg2 R I (A*mid*B)) (fun k => zIn A mid B k ∧ k.i = i) (zAddr R I mid B) (addSt p x)
        (fun k => if k = ⟨im, a, i, b⟩ then x else 0) := fun im p x hp =>
    Adds.add (⟨im, a, i, b⟩ : Kz) ⟨hin im, rfl⟩ hp (fun k hk e => zAddr_inj O hk.1 (hin _) e)
  refine (Adds.seq (fun k hk => zAddr_reg hk.1) (one false _ _ rfl) (one true _ _ rfl)).congr ?_
  rintro ⟨im, a', i', b'⟩ ⟨_, e⟩
  dsimp only at e
  subst e
  by_cases h1 : a' = a
  · by_cases h2 : b' = b
    · subst h1 h2
      cases im <;> simp [part]
    · simp [h1, h2]
  · simp [h1]

/-- one term of the ket transformation, added to the elements with given `i` -/
theorem addRow {h0 : Heap α} {R I : Ptr} {A mid B : Nat} (O : OutS h0 R I (A*mid*B)) {i : Nat} (hi : i < mid)
    {z : Nat → Nat → Cx α} {f : Nat → Nat → Prog α Unit}
    (H : ∀ a b, a < A → b < B → Adds h0 (Reg2 R I (A*mid*B)) (fun k => zIn A mid B k ∧ k.i = i) (zAddr R I mid B) (f a b)
      (fun k => if k.a = a then (if k.b = b then part (z k.a k.b) k.im else 0) else 0)) :
    Adds h0 (Reg2 R I (A*mid*B)) (fun k => zIn A mid B k ∧ k.i = i) (zAddr R I mid B)
      (forN A fun a => forN B fun b => f a b) (fun k => part (z k.a k.b) k.im) := by
  refine (Adds.forN (t := fun a k => if k.a = a then part (z k.a k.b) k.im else 0) (fun k hk => zAddr_reg hk.1) ?_).congr ?_
  · intro a ha
    refine (Adds.forN (fun k hk => zAddr_reg hk.1) (fun b hb => H a b ha hb)).congr ?_
    intro k hk
    by_cases h1 : k.a = a
    · simp only [if_pos h1]
      rw [Finset.sum_ite_eq, if_pos (Finset.mem_range.2 hk.1.2.2)]
    · simp [h1]
  · intro k hk
    rw [Finset.sum_ite_eq, if_pos (Finset.mem_range.2 hk.1.1)]

/-- clearing the elements with given `i` -/
theorem zeroRow {h0 : Heap α} {R I : Ptr} {A mid B : Nat} (O : OutS h0 R I (A*mid*B)) {i : Nat} (hi : i < mid)
    {p0 p1 : Nat → Nat → Ptr} (e0 : ∀ a b, p0 a b = R + ((a*mid+i)*B+b)) (e1 : ∀ a b, p1 a b = I + ((a*mid+i)*B+b)) :
    Writes (fun _ => False) (From h0 (Reg2 R I (A*mid*B))) (forN A fun a => forN B fun b => do
        st (p0 a b) 0
        st (p1 a b) 0) (fun _ => True)
      (fun k => zIn A mid B k ∧ k.i = i) (zAddr R I mid B) (fun _ => 0) := by
  refine (Writes.forN (P := fun k => zIn A mid B k ∧ k.i = i) (d := fun k => k.a)
    (From.stable (fun k hk => zAddr_reg hk.1)) (fun _ _ x => x) (fun _ _ _ _ _ => rfl) ?_).congr
    (fun k => ⟨fun h => ⟨h, h.1.1⟩, fun h => h.1⟩) (fun _ _ => rfl)
  intro a ha
  refine (Writes.forN (P := fun k => (zIn A mid B k ∧ k.i = i) ∧ k.a = a) (d := fun k => k.b)
    (From.stable (fun k hk => zAddr_reg hk.1.1)) (fun _ _ x => x) (fun _ _ _ _ _ => rfl) ?_).congr
    (fun k => ⟨fun h => ⟨h, h.1.1.2.2⟩, fun h => h.1⟩) (fun _ _ => rfl)
  intro b hb
  refine (st2 O ha hi hb (z := 0) (fun im => (part_zero im).symm) (e0 a b) (e1 a b)).congr (fun k => ?_) (fun _ _ => rfl)
  constructor
  · rintro ⟨⟨⟨h1, h2⟩, h3⟩, h4⟩; exact ⟨h1, h3, h2, h4⟩
  · rintro ⟨h1, h3, h2, h4⟩; exact ⟨⟨⟨h1, h2⟩, h3⟩, h4⟩

/-- from the rows to the whole -/
theorem ketRows {h0 : Heap α} {R I : Ptr} {A mid B : Nat} (O : OutS h0 R I (A*mid*B)) {G : Nat → Nat → Nat → Cx α}
    {f : Nat → Prog α Unit}
    (H : ∀ i, i < mid → Writes (fun _ => False) (From h0 (Reg2 R I (A*mid*B))) (f i) (fun _ => True)
      (fun k => zIn A mid B k ∧ k.i = i) (zAddr R I mid B) (fun k => part (G k.a k.i k.b) k.im)) :
    wp (forN mid f) (fun _ h' => HoldsZ h' R I A mid B G ∧ From h0 (Reg2 R I (A*mid*B)) h') h0 := by
  refine wp_mono (Writes.forN (P := zIn A mid B) (d := fun k => k.i)
    (From.stable (fun k hk => zAddr_reg hk)) (fun _ _ x => x) (fun k k' hk hk' e => by rw [zAddr_inj O hk hk' e]) H h0
    (From.refl _ _)) ?_
  rintro _ h' ⟨_, W⟩
  refine ⟨fun a n b ha hn hb => ⟨W.val ⟨false, a, n, b⟩ ⟨⟨ha, hn, hb⟩, hn⟩, W.val ⟨true, a, n, b⟩ ⟨⟨ha, hn, hb⟩, hn⟩⟩, ?_⟩
  exact (From.refl _ _).wr (fun k hk => zAddr_reg hk.1) W

theorem part_ketT (U : Nat → Bool → Nat → Cx α) (nf : Nat) (G : Bool → Nat → Nat → Nat → Cx α) (a i b : Nat) (im : Bool) :
    part (ketT U nf G a i b) im =
      ∑ n ∈ Finset.range nf, part (U i false n * G false a n b + U i true n * G true a n b) im := by
  unfold ketT
  rw [part_sum]

variable [DecidableEq α]

/-- a_ket1_cart2spinor -/
theorem ket1Sp_wp {h : Heap α} {tab c : JTab} {gspR gspI gR gI : Ptr} {A B l : Nat} {kappa : Int}
    {U : Nat → Bool → Nat → Cx α} {G : Bool → Nat → Nat → Nat → Cx α} (hc : tab.at kappa l = some c)
    (O : OutS h gspR gspI (A*lenSpinorC2S kappa l*B))
    (C : CoefOK h (Reg2 gspR gspI (A*lenSpinorC2S kappa l*B)) c (lenSpinorC2S kappa l) (lenCart l) U)
    (HG : InS h (Reg2 gspR gspI (A*lenSpinorC2S kappa l*B)) gR gI (A*lenCart l*B) A (lenCart l) B G) :
    wp (ket1Sp tab gspR gspI gR gI B A kappa l) (fun _ h' =>
      HoldsZ h' gspR gspI A (lenSpinorC2S kappa l) B (ketT U (lenCart l) G) ∧
      From h (Reg2 gspR gspI (A*lenSpinorC2S kappa l*B)) h') h := by
  unfold ket1Sp JTab.with
  rw [hc]
  dsimp only
  refine ketRows O (fun i hi => ?_)
  refine Writes.congr (Adds.zero (fun k hk => zAddr_reg hk.1) (zeroRow O hi (fun a b => ?_) (fun a b => ?_))
    (Adds.forN (t := fun n k => part (U i false n * G false k.a n k.b + U i true n * G true k.a n k.b) k.im)
      (fun k hk => zAddr_reg hk.1) ?_)) (fun _ => Iff.rfl) ?_
  · refine congrArg (gspR + ·) ?_; ring
  · refine congrArg (gspI + ·) ?_; ring
  · intro n hn
    obtain ⟨⟨a1, a2⟩, a3, a4⟩ := C i false n hi hn
    obtain ⟨⟨b1, b2⟩, b3, b4⟩ := C i true n hi hn
    simp only [Bool.false_eq_true, if_false, if_true, Nat.zero_add, ← Nat.add_assoc, Nat.mul_assoc i (lenCart l) 2] at a1 a2 a3 a4 b1 b2 b3 b4
    refine Adds.ld a1 a2 (Adds.ld a3 a4 (Adds.ld b1 b2 (Adds.ld b3 b4 ?_)))
    refine addRow O hi (z := fun a b => U i false n * G false a n b + U i true n * G true a n b) (fun a b ha hb => ?_)
    obtain ⟨⟨c1, c2⟩, c3, c4⟩ := HG false a n b ha hn hb
    obtain ⟨⟨d1, d2⟩, d3, d4⟩ := HG true a n b ha hn hb
    have ep : kPos (A*lenCart l*B) (lenCart l) B false a n b = a*(lenCart l*B) + b + n*B := by
      unfold kPos; simp only [Bool.false_eq_true, if_false]; ring
    have eq : kPos (A*lenCart l*B) (lenCart l) B true a n b = lenCart l*B*A + (a*(lenCart l*B) + b + n*B) := by
      unfold kPos; simp only [if_true]; ring
    rw [ep] at c1 c2 c3 c4
    rw [eq, ← Ptr.add_assoc] at d1 d2 d3 d4
    refine Adds.ld c1 c2 (Adds.ld c3 c4 (Adds.ld d1 d2 (Adds.ld d3 d4 ?_)))
    refine add2 O ha hi hb (z := fun a b => U i false n * G false a n b + U i true n * G true a n b) ?_ ?_ ?_ ?_
    · simp; ring
    · simp; ring
    · refine congrArg (gspR + ·) ?_; ring
    · refine congrArg (gspI + ·) ?_; ring
  · rintro k ⟨_, rfl⟩
    beta_reduce
    rw [part_ketT]

/-- a_ket_cart2spinor -/
theorem ketSp_wp {h : Heap α} {tab c : JTab} {gspR gspI gR gI : Ptr} {B l : Nat} {kappa : Int}
    {U : Nat → Bool → Nat → Cx α} {G : Bool → Nat → Nat → Nat → Cx α} (hc : tab.at kappa l = some c)
    (O : OutS h gspR gspI (1*lenSpinorC2S kappa l*B))
    (C : CoefOK h (Reg2 gspR gspI (1*lenSpinorC2S kappa l*B)) c (lenSpinorC2S kappa l) (lenCart l) U)
    (HG : InS h (Reg2 gspR gspI (1*lenSpinorC2S kappa l*B)) gR gI (1*lenCart l*B) 1 (lenCart l) B G) :
    wp (ketSp tab gspR gspI gR gI B kappa l) (fun _ h' =>
      HoldsZ h' gspR gspI 1 (lenSpinorC2S kappa l) B (ketT U (lenCart l) G) ∧
      From h (Reg2 gspR gspI (1*lenSpinorC2S kappa l*B)) h') h := by
  unfold ketSp JTab.with
  rw [hc]
  dsimp only
  refine ketRows O (fun i hi => ?_)
  have z1 : Writes (fun _ => False) (From h (Reg2 gspR gspI (1*lenSpinorC2S kappa l*B))) (forN B fun b => do
        st (gspR + (b+i*B)) (0:α)
        st (gspI + (b+i*B)) 0) (fun _ => True)
      (fun k => zIn 1 (lenSpinorC2S kappa l) B k ∧ k.i = i) (zAddr gspR gspI (lenSpinorC2S kappa l) B) (fun _ => 0) := by
    intro h1 ok1
    have := zeroRow O hi (p0 := fun a b => gspR + (b+(a*lenSpinorC2S kappa l + i)*B))
      (p1 := fun a b => gspI + (b+(a*lenSpinorC2S kappa l + i)*B))
      (fun a b => congrArg (gspR + ·) (Nat.add_comm _ _)) (fun a b => congrArg (gspI + ·) (Nat.add_comm _ _)) h1 ok1
    simpa [Prog.forN, Prog.forS, wp_bind] using this
  -- the two halves of the row of coefficients
  let S : Nat → Bool := fun n => decide (lenCart l ≤ n)
  let N : Nat → Nat := fun n => if n < lenCart l then n else n - lenCart l
  refine Writes.congr (Adds.zero (fun k hk => zAddr_reg hk.1) z1
    (Adds.forN (t := fun n k => part (U i (S n) (N n) * G (S n) k.a (N n) k.b) k.im)
      (fun k hk => zAddr_reg hk.1) ?_)) (fun _ => Iff.rfl) ?_
  · intro n hn
    have hN : N n < lenCart l := by
      show (if n < lenCart l then n else n - lenCart l) < lenCart l
      split <;> omega
    have ec : i*lenCart l*2 + ((if S n then lenCart l else 0) + N n) = i*(lenCart l*2) + n := by
      rw [Nat.mul_assoc]
      refine congrArg (i*(lenCart l*2) + ·) ?_
      show (if decide (lenCart l ≤ n) = true then _ else _) + (if n < lenCart l then n else n - lenCart l) = n
      by_cases h1 : n < lenCart l
      · have h2 : ¬ lenCart l ≤ n := by omega
        simp [h1, h2]
      · have h2 : lenCart l ≤ n := by omega
        simp [h1, h2]
    obtain ⟨⟨a1, a2⟩, a3, a4⟩ := C i (S n) (N n) hi hN
    rw [ec] at a1 a2 a3 a4
    refine Adds.ld a1 a2 (Adds.ld a3 a4 ?_)
    have row : ∀ {f : Nat → Prog α Unit},
        (∀ b, b < B → Adds h (Reg2 gspR gspI (1*lenSpinorC2S kappa l*B))
          (fun k => zIn 1 (lenSpinorC2S kappa l) B k ∧ k.i = i) (zAddr gspR gspI (lenSpinorC2S kappa l) B) (f b)
          (fun k => if k.a = 0 then (if k.b = b then part (U i (S n) (N n) * G (S n) k.a (N n) k.b) k.im else 0) else 0)) →
        Adds h (Reg2 gspR gspI (1*lenSpinorC2S kappa l*B))
          (fun k => zIn 1 (lenSpinorC2S kappa l) B k ∧ k.i = i) (zAddr gspR gspI (lenSpinorC2S kappa l) B) (forN B f)
          (fun k => part (U i (S n) (N n) * G (S n) k.a (N n) k.b) k.im) := by
      intro f H h1 y h2 h3
      have := addRow O hi (z := fun a b => U i (S n) (N n) * G (S n) a (N n) b) (f := fun _ => f)
        (fun a b ha hb => by
          obtain rfl : a = 0 := by omega
          exact H b hb) h1 y h2 h3
      simpa [Prog.forN, Prog.forS, wp_bind] using this
    have ld2 : ∀ b, b < B →
        (h.D (gR + (b+n*B)) = .val (G (S n) 0 (N n) b).re ∧ ¬ Reg2 gspR gspI (1*lenSpinorC2S kappa l*B) (gR + (b+n*B))) ∧
        (h.D (gI + (b+n*B)) = .val (G (S n) 0 (N n) b).im ∧ ¬ Reg2 gspR gspI (1*lenSpinorC2S kappa l*B) (gI + (b+n*B))) := by
      intro b hb
      have hg := HG (S n) 0 (N n) b (by omega) hN hb
      have ep : kPos (1*lenCart l*B) (lenCart l) B (S n) 0 (N n) b = b + n*B := by
        unfold kPos
        show (if decide (lenCart l ≤ n) = true then _ else _) + ((0*_ + (if n < lenCart l then n else n - lenCart l))*B + b) = _
        by_cases h1 : n < lenCart l
        · have h2 : ¬ lenCart l ≤ n := by omega
          simp [h1, h2]; ring
        · have h2 : lenCart l ≤ n := by omega
          obtain ⟨m, rfl⟩ := Nat.exists_eq_add_of_le h2
          simp; ring
      rw [ep] at hg
      exact hg
    have e0 : ∀ b, gspR + (b+i*B) = gspR + ((0*lenSpinorC2S kappa l + i)*B + b) :=
      fun b => congrArg (gspR + ·) (by ring)
    have e1 : ∀ b, gspI + (b+i*B) = gspI + ((0*lenSpinorC2S kappa l + i)*B + b) :=
      fun b => congrArg (gspI + ·) (by ring)
    split
    · split
      · refine row fun b hb => ?_
        obtain ⟨⟨c1, c2⟩, c3, c4⟩ := ld2 b hb
        refine Adds.ld c1 c2 (Adds.ld c3 c4 ?_)
        refine add2 O (Nat.one_pos) hi hb (z := fun a b => U i (S n) (N n) * G (S n) a (N n) b) ?_ ?_ (e0 b) (e1 b)
        · simp; ring
        · simp; ring
      · rename_i hI
        have hI0 : (U i (S n) (N n)).im = 0 := by simpa using hI
        refine row fun b hb => ?_
        obtain ⟨⟨c1, c2⟩, c3, c4⟩ := ld2 b hb
        refine Adds.ld c1 c2 (Adds.ld c3 c4 ?_)
        refine add2 O (Nat.one_pos) hi hb (z := fun a b => U i (S n) (N n) * G (S n) a (N n) b) ?_ ?_ (e0 b) (e1 b)
        · simp [hI0]
        · simp [hI0]
    · rename_i hR
      have hR0 : (U i (S n) (N n)).re = 0 := by simpa using hR
      split
      · refine row fun b hb => ?_
        obtain ⟨⟨c1, c2⟩, c3, c4⟩ := ld2 b hb
        refine Adds.ld c1 c2 (Adds.ld c3 c4 ?_)
        refine add2 O (Nat.one_pos) hi hb (z := fun a b => U i (S n) (N n) * G (S n) a (N n) b) ?_ ?_ (e0 b) (e1 b)
        · simp [hR0]
        · simp [hR0]
      · rename_i hI
        have hI0 : (U i (S n) (N n)).im = 0 := by simpa using hI
        have hz : U i (S n) (N n) = 0 := QuadraticAlgebra.ext hR0 hI0
        refine Adds.skip.congr fun k _ => ?_
        rw [hz, zero_mul, part_zero]
  · rintro k ⟨_, rfl⟩
    beta_reduce
    rw [part_ketT, Nat.mul_two, Finset.sum_range_add, ← Finset.sum_add_distrib]
    refine Finset.sum_congr rfl fun n hn => ?_
    have h1 := Finset.mem_range.1 hn
    have s0 : S n = false := by
      show decide _ = false
      simp; exact h1
    have n0 : N n = n := if_pos h1
    have s1 : S (lenCart l + n) = true := by
      show decide _ = true
      simp
    have n1 : N (lenCart l + n) = n := by
      show (if _ then _ else _) = _
      rw [if_neg (by omega)]; omega
    rw [s0, n0, s1, n1, part_add]

omit [DecidableEq α] in
/-- negation of an array -/
theorem negate_wp {h : Heap α} {p : Ptr} {n : Nat} {f : Nat → α} (H : HoldsD h p n f) {Q : Unit → Heap α → Prop}
    (hQ : ∀ h', HoldsD h' p n (fun i => -f i) → From h (Blk p n) h' → Q () h') :
    wp (negate p n) Q h := by
  unfold negate
  refine wp_forN (fun m h' => AssignedD h h' (fun i => i < m) (fun i => p + i) (fun i => -f i))
    (AssignedD.init h _ _ (fun _ hk => by omega)) ?_ ?_
  · intro i hi h1 H1
    rw [wp_mbind, wp_ld]
    refine ⟨f i, ?_, ?_⟩
    · rw [H1.frame _ (fun k hk e => ?_), H i hi]
      have := (Ptr.add_right_inj _ _ _).1 e
      omega
    · rw [wp_st]
      refine ⟨H1.ne_oob (by rw [H i hi]; simp), H1.set i (fun k hk e => ?_) (fun k => by omega)⟩
      rw [(Ptr.add_right_inj _ _ _).1 e]
  · intro h' H1
    exact hQ h' H1.val ⟨H1.agree (fun k hk => ⟨k, hk, rfl⟩), fun q hq => H1.ne_oob hq, H1.int⟩

end Verif.Lemmas
