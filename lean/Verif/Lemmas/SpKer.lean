import Verif.Core.Adds
import Verif.Model.Spinor
import Verif.Spec.Spinor
import Mathlib.Tactic.Ring
import Mathlib.Algebra.BigOperators.Intervals

/-! The kernels of the Cartesian to spinor transformation. -/
namespace Verif.Lemmas
open Verif Verif.Model Verif.Prog Verif.Spec

variable {α : Type} [Field α]

/-- real or imaginary part -/
def part (z : Cx α) (im : Bool) : α := if im then z.im else z.re

theorem part_add (z w : Cx α) (b : Bool) : part (z + w) b = part z b + part w b := by
  cases b <;> rfl

theorem part_zero (b : Bool) : part (0 : Cx α) b = 0 := by
  cases b <;> rfl

theorem part_sum {ι : Type} (s : Finset ι) (f : ι → Cx α) (b : Bool) : part (∑ i ∈ s, f i) b = ∑ i ∈ s, part (f i) b := by
  classical
  induction s using Finset.induction_on with
  | empty => simp [part_zero]
  | insert a s ha ih => rw [Finset.sum_insert ha, Finset.sum_insert ha, part_add, ih]

/-- an element of one of four arrays of three indices -/
structure Kx where
  im : Bool
  sp : Bool
  a : Nat
  i : Nat
  b : Nat
deriving DecidableEq

/-- its place -/
def kPos (half mid B : Nat) (sp : Bool) (a i b : Nat) : Nat := (if sp then half else 0) + ((a*mid + i)*B + b)

def kAddr (R I : Ptr) (half mid B : Nat) (k : Kx) : Ptr := (if k.im then I else R) + kPos half mid B k.sp k.a k.i k.b

/-- the elements -/
def kIn (A mid B : Nat) (k : Kx) : Prop := k.a < A ∧ k.i < mid ∧ k.b < B

theorem kPos_lt {A mid B : Nat} {sp : Bool} {a i b : Nat} (ha : a < A) (hi : i < mid) (hb : b < B) :
    kPos (A*mid*B) mid B sp a i b < 2*(A*mid*B) := by
  have := radix_lt (radix_lt ha hi) hb
  unfold kPos
  cases sp <;> simp <;> omega

theorem kPos_lt' {A mid B half : Nat} {a i b : Nat} (ha : a < A) (hi : i < mid) (hb : b < B) :
    kPos half mid B false a i b < A*mid*B := by
  have := radix_lt (radix_lt ha hi) hb
  unfold kPos
  simpa using this

theorem kPos_inj {A mid B : Nat} {sp sp' : Bool} {a i b a' i' b' : Nat} (ha : a < A) (hi : i < mid) (hb : b < B)
    (ha' : a' < A) (hi' : i' < mid) (hb' : b' < B)
    (e : kPos (A*mid*B) mid B sp a i b = kPos (A*mid*B) mid B sp' a' i' b') :
    sp = sp' ∧ a = a' ∧ i = i' ∧ b = b' := by
  have h1 := radix_lt (radix_lt ha hi) hb
  have h2 := radix_lt (radix_lt ha' hi') hb'
  unfold kPos at e
  have hs : sp = sp' := by
    cases sp <;> cases sp' <;> simp_all
    all_goals omega
  subst hs
  have e' : (a*mid+i)*B+b = (a'*mid+i')*B+b' := by omega
  obtain ⟨e1, e2⟩ := radix_inj hb hb' e'
  obtain ⟨e3, e4⟩ := radix_inj hi hi' e1
  exact ⟨rfl, e3, e4, e2⟩

/-- the two output arrays -/
def Reg2 (R I : Ptr) (N : Nat) (q : Ptr) : Prop := Blk R N q ∨ Blk I N q

/-- a readable cell outside the output -/
def Rd (h : Heap α) (Reg : Ptr → Prop) (q : Ptr) (x : α) : Prop := h.D q = .val x ∧ ¬ Reg q

/-- the coefficients -/
def CoefOK (h : Heap α) (Reg : Ptr → Prop) (c : JTab) (nd nf : Nat) (U : Nat → Bool → Nat → Cx α) : Prop :=
  ∀ i s n, i < nd → n < nf →
    Rd h Reg (c.R + (i*nf*2 + ((if s then nf else 0) + n))) (U i s n).re ∧
    Rd h Reg (c.I + (i*nf*2 + ((if s then nf else 0) + n))) (U i s n).im

/-- an array of real numbers -/
def InR (h : Heap α) (Reg : Ptr → Prop) (g : Ptr) (A nf : Nat) (x : Nat → Nat → α) : Prop :=
  ∀ a n, a < A → n < nf → Rd h Reg (g + (a*nf+n)) (x a n)

/-- complex numbers with a spin index -/
def InS (h : Heap α) (Reg : Ptr → Prop) (R I : Ptr) (half A mid B : Nat) (G : Bool → Nat → Nat → Nat → Cx α) : Prop :=
  ∀ s a n b, a < A → n < mid → b < B →
    Rd h Reg (R + kPos half mid B s a n b) (G s a n b).re ∧ Rd h Reg (I + kPos half mid B s a n b) (G s a n b).im

/-- complex numbers -/
def InZ (h : Heap α) (Reg : Ptr → Prop) (R I : Ptr) (A mid B : Nat) (G : Nat → Nat → Nat → Cx α) : Prop :=
  ∀ a n b, a < A → n < mid → b < B →
    Rd h Reg (R + ((a*mid+n)*B+b)) (G a n b).re ∧ Rd h Reg (I + ((a*mid+n)*B+b)) (G a n b).im

/-- what is written: with a spin index -/
def HoldsS (h : Heap α) (R I : Ptr) (half A mid B : Nat) (G : Bool → Nat → Nat → Nat → Cx α) : Prop :=
  ∀ s a n b, a < A → n < mid → b < B →
    h.D (R + kPos half mid B s a n b) = .val (G s a n b).re ∧ h.D (I + kPos half mid B s a n b) = .val (G s a n b).im

/-- what is written: without spin index -/
def HoldsZ (h : Heap α) (R I : Ptr) (A mid B : Nat) (G : Nat → Nat → Nat → Cx α) : Prop :=
  ∀ a n b, a < A → n < mid → b < B →
    h.D (R + ((a*mid+n)*B+b)) = .val (G a n b).re ∧ h.D (I + ((a*mid+n)*B+b)) = .val (G a n b).im

/-- the bra transformation -/
def braT (U : Nat → Bool → Nat → Cx α) (nf : Nat) (M : Bool → Bool → Nat → Nat → Nat → Cx α) (t : Bool) (a i b : Nat) : Cx α :=
  ∑ n ∈ Finset.range nf, (star (U i false n) * M false t a n b + star (U i true n) * M true t a n b)

/-- the ket transformation -/
def ketT (U : Nat → Bool → Nat → Cx α) (nf : Nat) (G : Bool → Nat → Nat → Nat → Cx α) (a i b : Nat) : Cx α :=
  ∑ n ∈ Finset.range nf, (U i false n * G false a n b + U i true n * G true a n b)

/-- all four parts -/
structure OutS (h : Heap α) (R I : Ptr) (N : Nat) : Prop where
  alR : AllocD h R N
  alI : AllocD h I N
  dj : Disj R N I N

theorem kAddr_reg {R I : Ptr} {A mid B : Nat} {k : Kx} (hk : kIn A mid B k) :
    Reg2 R I (2*(A*mid*B)) (kAddr R I (A*mid*B) mid B k) := by
  have h := kPos_lt (sp := k.sp) hk.1 hk.2.1 hk.2.2
  unfold kAddr Reg2
  cases k.im
  · exact Or.inl ⟨_, h, rfl⟩
  · exact Or.inr ⟨_, h, rfl⟩

theorem kAddr_al {h : Heap α} {R I : Ptr} {A mid B : Nat} (O : OutS h R I (2*(A*mid*B))) {k : Kx} (hk : kIn A mid B k) :
    h.D (kAddr R I (A*mid*B) mid B k) ≠ .oob := by
  have hl := kPos_lt (sp := k.sp) hk.1 hk.2.1 hk.2.2
  unfold kAddr
  cases k.im
  · exact O.alR _ hl
  · exact O.alI _ hl

theorem kAddr_inj {h : Heap α} {R I : Ptr} {A mid B : Nat} (O : OutS h R I (2*(A*mid*B))) {k k' : Kx} (hk : kIn A mid B k)
    (hk' : kIn A mid B k') (e : kAddr R I (A*mid*B) mid B k = kAddr R I (A*mid*B) mid B k') : k = k' := by
  obtain ⟨im, sp, a, i, b⟩ := k
  obtain ⟨im', sp', a', i', b'⟩ := k'
  have hl := kPos_lt (sp := sp) hk.1 hk.2.1 hk.2.2
  have hl' := kPos_lt (sp := sp') hk'.1 hk'.2.1 hk'.2.2
  have him : im = im' := by
    unfold kAddr at e
    cases im <;> cases im' <;> simp only [if_true, Bool.false_eq_true, if_false] at e
    · rfl
    · exact absurd e (O.dj _ _ hl hl')
    · exact absurd e.symm (O.dj _ _ hl' hl)
    · rfl
  subst him
  unfold kAddr at e
  obtain ⟨e1, e2, e3, e4⟩ := kPos_inj hk.1 hk.2.1 hk.2.2 hk'.1 hk'.2.1 hk'.2.2 ((Ptr.add_right_inj _ _ _).1 e)
  dsimp only at e1 e2 e3 e4
  rw [e1, e2, e3, e4]

/-- the four stores for one element -/
theorem st4 {h0 : Heap α} {R I : Ptr} {A mid B : Nat} (O : OutS h0 R I (2*(A*mid*B))) {a i b : Nat} (ha : a < A)
    (hi : i < mid) (hb : b < B) {z0 z1 : Cx α} {v : Kx → α} {p0 p1 p2 p3 : Ptr}
    (hv : ∀ im sp, v ⟨im, sp, a, i, b⟩ = part (if sp then z1 else z0) im)
    (e0 : p0 = R + kPos (A*mid*B) mid B false a i b) (e1 : p1 = I + kPos (A*mid*B) mid B false a i b)
    (e2 : p2 = R + kPos (A*mid*B) mid B true a i b) (e3 : p3 = I + kPos (A*mid*B) mid B true a i b) :
    Writes (fun _ => False) (From h0 (Reg2 R I (2*(A*mid*B)))) (do
        st p0 z0.re
        st p1 z0.im
        st p2 z1.re
        st p3 z1.im) (fun _ => True)
      (fun k => kIn A mid B k ∧ k.a = a ∧ k.i = i ∧ k.b = b) (kAddr R I (A*mid*B) mid B) v := by
  subst e0 e1 e2 e3
  have hst : ∀ P : Kx → Prop, (∀ k, P k → kIn A mid B k) →
      Stable (fun _ => False) (From h0 (Reg2 R I (2*(A*mid*B)))) P (kAddr R I (A*mid*B) mid B) v :=
    fun P hP => From.stable (fun k hk => kAddr_reg (hP k hk))
  have hin : ∀ im sp, kIn A mid B ⟨im, sp, a, i, b⟩ := fun _ _ => ⟨ha, hi, hb⟩
  have hinj : ∀ k k', kIn A mid B k → kIn A mid B k' → kAddr R I (A*mid*B) mid B k = kAddr R I (A*mid*B) mid B k' →
      v k = v k' := fun k k' hk hk' e => by rw [kAddr_inj O hk hk' e]
  have one : ∀ im sp (p : Ptr) (x : α), p = kAddr R I (A*mid*B) mid B ⟨im, sp, a, i, b⟩ → x = v ⟨im, sp, a, i, b⟩ →
      Writes (fun _ => False) (From h0 (Reg2 R I (2*(A*mid*B)))) (st p x) (fun _ => True)
        (fun k => k = ⟨im, sp, a, i, b⟩) (kAddr R I (A*mid*B) mid B) v := fun im sp p x hp hx =>
    Writes.st hp hx (fun h hok => hok.al _ (kAddr_al O (hin im sp))) (fun _ => Iff.rfl)
  refine (Writes.seq (one false false _ _ rfl (hv false false).symm)
    (Writes.seq (one true false _ _ rfl (hv true false).symm)
      (Writes.seq (one false true _ _ rfl (hv false true).symm) (one true true _ _ rfl (hv true true).symm)
        (hst _ ?_) (fun _ _ x => x) ?_ (fun _ => Iff.rfl)) (hst _ ?_) (fun _ _ x => x) ?_ (fun _ => Iff.rfl))
    (hst _ ?_) (fun _ _ x => x) ?_ (fun _ => Iff.rfl)).congr ?_ (fun _ _ => rfl)
  · rintro k rfl; exact hin _ _
  · rintro k k' rfl rfl; exact hinj _ _ (hin _ _) (hin _ _)
  · rintro k rfl; exact hin _ _
  · rintro k k' rfl (rfl | rfl) <;> exact hinj _ _ (hin _ _) (hin _ _)
  · rintro k rfl; exact hin _ _
  · rintro k k' rfl (rfl | rfl | rfl) <;> exact hinj _ _ (hin _ _) (hin _ _)
  · rintro ⟨im, sp, a', i', b'⟩
    constructor
    · rintro ⟨_, rfl, rfl, rfl⟩
      cases im <;> cases sp <;> simp
    · rintro (h | h | h | h) <;>
      · simp only [Kx.mk.injEq] at h
        obtain ⟨rfl, rfl, rfl, rfl, rfl⟩ := h
        exact ⟨hin _ _, rfl, rfl, rfl⟩

/-- loops over the first two indices -/
theorem loop2 {h0 : Heap α} {R I : Ptr} {A mid : Nat} (O : OutS h0 R I (2*(A*mid*1))) {v : Kx → α}
    {f : Nat → Nat → Prog α Unit}
    (H : ∀ a i, a < A → i < mid → Writes (fun _ => False) (From h0 (Reg2 R I (2*(A*mid*1)))) (f a i) (fun _ => True)
      (fun k => kIn A mid 1 k ∧ k.a = a ∧ k.i = i ∧ k.b = 0) (kAddr R I (A*mid*1) mid 1) v) :
    Writes (fun _ => False) (From h0 (Reg2 R I (2*(A*mid*1)))) (forN A fun a => forN mid fun i => f a i) (fun _ => True)
      (kIn A mid 1) (kAddr R I (A*mid*1) mid 1) v := by
  have hst : ∀ P : Kx → Prop, (∀ k, P k → kIn A mid 1 k) →
      Stable (fun _ => False) (From h0 (Reg2 R I (2*(A*mid*1)))) P (kAddr R I (A*mid*1) mid 1) v :=
    fun P hP => From.stable (fun k hk => kAddr_reg (hP k hk))
  have hinj : ∀ k k', kIn A mid 1 k → kIn A mid 1 k' → kAddr R I (A*mid*1) mid 1 k = kAddr R I (A*mid*1) mid 1 k' →
      v k = v k' := fun k k' hk hk' e => by rw [kAddr_inj O hk hk' e]
  refine (Writes.forN (P := kIn A mid 1) (d := fun k => k.a) (hst _ fun _ x => x) (fun _ _ x => x) hinj ?_).congr
    (fun k => ⟨fun h => ⟨h, h.1⟩, fun h => h.1⟩) (fun _ _ => rfl)
  intro a ha
  refine (Writes.forN (P := fun k => kIn A mid 1 k ∧ k.a = a) (d := fun k => k.i) (hst _ fun _ x => x.1) (fun _ _ x => x)
    (fun k k' hk hk' => hinj k k' hk.1 hk'.1) ?_).congr
    (fun k => ⟨fun h => ⟨h, h.1.2.1⟩, fun h => h.1⟩) (fun _ _ => rfl)
  intro i hi
  refine (H a i ha hi).congr (fun k => ?_) (fun _ _ => rfl)
  constructor
  · rintro ⟨⟨h1, h2⟩, h3⟩
    exact ⟨h1, h2, h3, by have := h1.2.2; omega⟩
  · rintro ⟨h1, h2, h3, _⟩
    exact ⟨⟨h1, h2⟩, h3⟩

/-- from the stores to the contents -/
theorem holdsS_of_wr {h h' : Heap α} {R I : Ptr} {A mid B : Nat} {G : Bool → Nat → Nat → Nat → Cx α}
    (W : Wr (fun _ => False) h h' (kIn A mid B) (kAddr R I (A*mid*B) mid B) (fun k => part (G k.sp k.a k.i k.b) k.im)) :
    HoldsS h' R I (A*mid*B) A mid B G := fun s a n b ha hn hb =>
  ⟨W.val ⟨false, s, a, n, b⟩ ⟨ha, hn, hb⟩, W.val ⟨true, s, a, n, b⟩ ⟨ha, hn, hb⟩⟩

theorem from_of_wr {h h' : Heap α} {R I : Ptr} {A mid B : Nat} {v : Kx → α}
    (W : Wr (fun _ => False) h h' (kIn A mid B) (kAddr R I (A*mid*B) mid B) v) :
    From h (Reg2 R I (2*(A*mid*B))) h' := (From.refl _ _).wr (fun _ hk => kAddr_reg hk) W

/-- a_bra_cart2spinor_si and a_bra_cart2spinor_sf have in common -/
theorem bra_wp {h : Heap α} {gspR gspI : Ptr} {A nd nf : Nat} {U : Nat → Bool → Nat → Cx α}
    {M : Bool → Bool → Nat → Nat → Nat → Cx α} (O : OutS h gspR gspI (2*(A*nd*1)))
    {loop : Nat → Nat → Nat → Sums α → Prog α (Sums α)}
    (HL : ∀ a i n h' s Q, a < A → i < nd → n < nf → From h (Reg2 gspR gspI (2*(A*nd*1))) h' →
      Q ⟨s.aR + (star (U i false n) * M false false a n 0 + star (U i true n) * M true false a n 0).re,
         s.aI + (star (U i false n) * M false false a n 0 + star (U i true n) * M true false a n 0).im,
         s.bR + (star (U i false n) * M false true a n 0 + star (U i true n) * M true true a n 0).re,
         s.bI + (star (U i false n) * M false true a n 0 + star (U i true n) * M true true a n 0).im⟩ h' →
      wp (loop a i n s) Q h') :
    wp (forN A fun j => forN nd fun i => do
      let s ← forS nf (⟨0, 0, 0, 0⟩ : Sums α) fun n s => loop j i n s
      st (gspR + (j*nd+i)) s.aR
      st (gspI + (j*nd+i)) s.aI
      st (gspR + A*nd + (j*nd+i)) s.bR
      st (gspI + A*nd + (j*nd+i)) s.bI)
      (fun _ h' => HoldsS h' gspR gspI (A*nd*1) A nd 1 (braT U nf M) ∧ From h (Reg2 gspR gspI (2*(A*nd*1))) h') h := by
  refine wp_mono (loop2 O (v := fun k => part (braT U nf M k.sp k.a k.i k.b) k.im) ?_ h (From.refl _ _)) ?_
  · intro a i ha hi h' hok
    rw [wp_mbind]
    let T : Bool → Nat → Cx α := fun t n => star (U i false n) * M false t a n 0 + star (U i true n) * M true t a n 0
    refine wp_forS (fun m (s : Sums α) h2 => s = ⟨(∑ n ∈ Finset.range m, T false n).re, (∑ n ∈ Finset.range m, T false n).im,
      (∑ n ∈ Finset.range m, T true n).re, (∑ n ∈ Finset.range m, T true n).im⟩ ∧ h2 = h') ?_ ?_ ?_
    · exact ⟨by simp, rfl⟩
    · rintro n hn s h2 ⟨rfl, rfl⟩
      refine HL a i n h2 _ _ ha hi hn hok ⟨?_, rfl⟩
      simp only [Finset.sum_range_succ, QuadraticAlgebra.re_add, QuadraticAlgebra.im_add]
      rfl
    · rintro s h2 ⟨rfl, rfl⟩
      exact st4 O ha hi (by omega) (z0 := ∑ n ∈ Finset.range nf, T false n) (z1 := ∑ n ∈ Finset.range nf, T true n)
        (fun im sp => by cases sp <;> rfl)
        (by unfold kPos; simp) (by unfold kPos; simp)
        (by unfold kPos; simp [Ptr.add_assoc]) (by unfold kPos; simp [Ptr.add_assoc]) h2 hok
  · rintro _ h' ⟨_, W⟩
    exact ⟨holdsS_of_wr W, from_of_wr W⟩

variable [DecidableEq α]

theorem braSf_wp {h : Heap α} {tab c : JTab} {gspR gspI g1 : Ptr} {A l : Nat} {kappa : Int} {U : Nat → Bool → Nat → Cx α}
    {x : Nat → Nat → α} (hc : tab.at kappa l = some c)
    (O : OutS h gspR gspI (2*(A*lenSpinorC2S kappa l*1)))
    (C : CoefOK h (Reg2 gspR gspI (2*(A*lenSpinorC2S kappa l*1))) c (lenSpinorC2S kappa l) (lenCart l) U)
    (G : InR h (Reg2 gspR gspI (2*(A*lenSpinorC2S kappa l*1))) g1 A (lenCart l) x) :
    wp (braSf tab gspR gspI g1 A kappa l) (fun _ h' =>
      HoldsS h' gspR gspI (A*lenSpinorC2S kappa l*1) A (lenSpinorC2S kappa l) 1
        (braT U (lenCart l) (fun s t a n _ => scalar2 (Cx.ofR (x a n)) s t)) ∧
      From h (Reg2 gspR gspI (2*(A*lenSpinorC2S kappa l*1))) h') h := by
  unfold braSf JTab.with
  rw [hc]
  dsimp only
  refine bra_wp O ?_
  intro a i n h' s Q ha hi hn hF hQ
  obtain ⟨⟨a1, a2⟩, a3, a4⟩ := C i false n hi hn
  obtain ⟨⟨b1, b2⟩, b3, b4⟩ := C i true n hi hn
  obtain ⟨g1, g2⟩ := G a n ha hn
  simp only [Bool.false_eq_true, if_false, if_true, Nat.zero_add, ← Nat.add_assoc] at a1 a2 a3 a4 b1 b2 b3 b4
  refine hF.wp_ld g1 g2 ?_
  refine hF.wp_ld a1 a2 ?_
  refine hF.wp_ld a3 a4 ?_
  refine hF.wp_ld b1 b2 ?_
  refine hF.wp_ld b3 b4 ?_
  rw [wp_pure]
  convert hQ using 2 <;> simp [scalar2, Cx.ofR]

theorem braSi_wp {h : Heap α} {tab c : JTab} {gspR gspI gx gy gz g1 : Ptr} {A l : Nat} {kappa : Int}
    {U : Nat → Bool → Nat → Cx α} {x : Nat → Nat → Nat → α} (hc : tab.at kappa l = some c)
    (O : OutS h gspR gspI (2*(A*lenSpinorC2S kappa l*1)))
    (C : CoefOK h (Reg2 gspR gspI (2*(A*lenSpinorC2S kappa l*1))) c (lenSpinorC2S kappa l) (lenCart l) U)
    (G0 : InR h (Reg2 gspR gspI (2*(A*lenSpinorC2S kappa l*1))) gx A (lenCart l) (x 0))
    (G1 : InR h (Reg2 gspR gspI (2*(A*lenSpinorC2S kappa l*1))) gy A (lenCart l) (x 1))
    (G2 : InR h (Reg2 gspR gspI (2*(A*lenSpinorC2S kappa l*1))) gz A (lenCart l) (x 2))
    (G3 : InR h (Reg2 gspR gspI (2*(A*lenSpinorC2S kappa l*1))) g1 A (lenCart l) (x 3)) :
    wp (braSi tab gspR gspI gx gy gz g1 A kappa l) (fun _ h' =>
      HoldsS h' gspR gspI (A*lenSpinorC2S kappa l*1) A (lenSpinorC2S kappa l) 1
        (braT U (lenCart l) (fun s t a n _ => pauli (fun c => Cx.ofR (x c a n)) s t)) ∧
      From h (Reg2 gspR gspI (2*(A*lenSpinorC2S kappa l*1))) h') h := by
  unfold braSi JTab.with
  rw [hc]
  dsimp only
  refine bra_wp O ?_
  intro a i n h' s Q ha hi hn hF hQ
  obtain ⟨⟨a1, a2⟩, a3, a4⟩ := C i false n hi hn
  obtain ⟨⟨b1, b2⟩, b3, b4⟩ := C i true n hi hn
  obtain ⟨c1, c2⟩ := G3 a n ha hn
  obtain ⟨d1, d2⟩ := G0 a n ha hn
  obtain ⟨e1, e2⟩ := G1 a n ha hn
  obtain ⟨f1, f2⟩ := G2 a n ha hn
  simp only [Bool.false_eq_true, if_false, if_true, Nat.zero_add, ← Nat.add_assoc] at a1 a2 a3 a4 b1 b2 b3 b4
  refine hF.wp_ld c1 c2 ?_
  refine hF.wp_ld d1 d2 ?_
  refine hF.wp_ld e1 e2 ?_
  refine hF.wp_ld f1 f2 ?_
  refine hF.wp_ld a1 a2 ?_
  refine hF.wp_ld a3 a4 ?_
  refine hF.wp_ld b1 b2 ?_
  refine hF.wp_ld b3 b4 ?_
  rw [wp_pure]
  convert hQ using 2 <;> simp [pauli, Cx.ofR, Cx.i] <;> ring

end Verif.Lemmas
