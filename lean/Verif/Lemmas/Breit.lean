import Verif.Lemmas.Out
import Verif.Model.Breit

/-! src/breit.c: what the loops of the driver store. -/
namespace Verif.Lemmas
open Verif Verif.Model Verif.Prog Verif.Model.Breit

section
variable {α : Type}

/-- cells that exist stay -/
theorem run_alloc {A : Type} {p : Prog α A} {h h' : Heap α} {a : A} (e : run p h = some (a, h')) :
    (∀ q, h.D q ≠ .oob → h'.D q ≠ .oob) ∧ ∀ q, h.I q ≠ .oob → h'.I q ≠ .oob := by
  induction p generalizing h with
  | ret a => simp only [run, Option.some.injEq, Prod.mk.injEq] at e; rw [← e.2]; exact ⟨fun _ x => x, fun _ x => x⟩
  | fail => simp [run] at e
  | rdD p k ih => simp only [run] at e; split at e; exacts [ih _ e, by simp at e]
  | rdI p k ih => simp only [run] at e; split at e; exacts [ih _ e, by simp at e]
  | wrD p v k ih =>
    simp only [run] at e
    split at e
    · simp at e
    · obtain ⟨h1, h2⟩ := ih e
      refine ⟨fun q hq => h1 q ?_, h2⟩
      rw [Heap.setD_D]; split
      · simp
      · exact hq
  | wrI p v k ih =>
    simp only [run] at e
    split at e
    · simp at e
    · obtain ⟨h1, h2⟩ := ih e
      refine ⟨h1, fun q hq => h2 q ?_⟩
      rw [Heap.setI_I]; split
      · simp
      · exact hq

/-- five-index elements: a function of each shell, real or imaginary part -/
abbrev BIx := Nat × Nat × Nat × Nat × Nat

def bpos (ni nj nk : Nat) (k : BIx) : Nat := 2*(((k.2.2.2.1*nk + k.2.2.1)*nj + k.2.1)*ni + k.1) + k.2.2.2.2

def inBlkB (di dj dk dl : Nat) (k : BIx) : Prop := k.1 < di ∧ k.2.1 < dj ∧ k.2.2.1 < dk ∧ k.2.2.2.1 < dl ∧ k.2.2.2.2 < 2

theorem bpos_inj {ni nj nk dl : Nat} {k k' : BIx} (h : inBlkB ni nj nk dl k) (h' : inBlkB ni nj nk dl k')
    (e : bpos ni nj nk k = bpos ni nj nk k') : k = k' := by
  obtain ⟨a1, a2, a3, _, a5⟩ := h
  obtain ⟨b1, b2, b3, _, b5⟩ := h'
  unfold bpos at e
  have e5 : k.2.2.2.2 = k'.2.2.2.2 := by omega
  have e0 : ((k.2.2.2.1*nk + k.2.2.1)*nj + k.2.1)*ni + k.1 = ((k'.2.2.2.1*nk + k'.2.2.1)*nj + k'.2.1)*ni + k'.1 := by omega
  obtain ⟨c1, c2⟩ := radix_inj a1 b1 e0
  obtain ⟨c3, c4⟩ := radix_inj a2 b2 c1
  obtain ⟨c5, c6⟩ := radix_inj a3 b3 c3
  exact Prod.ext c2 (Prod.ext c4 (Prod.ext c6 (Prod.ext c5 e5)))

/-- _copy_to_out -/
theorem copyToOut_writes {out inp : Ptr} {ni nj nk di dj dk dl : Nat} {v : BIx → α} (hi : di ≤ ni) (hj : dj ≤ nj) (hk : dk ≤ nk)
    (hd : inp.buf ≠ out.buf) :
    Writes (fun _ => False) (CopyOk (inBlkB di dj dk dl) (fun k => inp + bpos di dj dk k) (fun k => out + bpos ni nj nk k) v)
      (copyToOut out inp ni nj nk di dj dk dl) (fun _ => True) (inBlkB di dj dk dl) (fun k => out + bpos ni nj nk k) v := by
  have hst : ∀ (P' : BIx → Prop), (∀ k, P' k → inBlkB di dj dk dl k) →
      Stable (fun _ => False) (CopyOk (inBlkB di dj dk dl) (fun k => inp + bpos di dj dk k) (fun k => out + bpos ni nj nk k) v)
        P' (fun k => out + bpos ni nj nk k) v :=
    fun P' hP h h' P2 hP2 => copyOk_stable (W := fun _ => False) (src := fun k => inp + bpos di dj dk k)
      (addr := fun k => out + bpos ni nj nk k) (v := v) (fun _ _ h => h)
      (fun k k' _ _ e => hd (show inp.buf = out.buf from by have := congrArg Ptr.buf e; simpa only [Ptr.add_buf] using this)) h h' P2 (fun k hk => hP k (hP2 k hk))
  have hinj : ∀ k k', inBlkB di dj dk dl k → inBlkB di dj dk dl k' → out + bpos ni nj nk k = out + bpos ni nj nk k' → v k = v k' := by
    rintro k k' ⟨a1, a2, a3, a4, a5⟩ ⟨b1, b2, b3, b4, b5⟩ e
    rw [bpos_inj (dl := dl) ⟨by omega, by omega, by omega, a4, a5⟩ ⟨by omega, by omega, by omega, b4, b5⟩ ((Ptr.add_right_inj _ _ _).1 e)]
  unfold copyToOut
  refine (Writes.forN (P := inBlkB di dj dk dl) (d := fun k => k.2.2.2.1) (hst _ fun _ h => h) (fun _ _ h => h) hinj ?_).congr
    (fun k => by unfold inBlkB; omega) (fun _ _ => rfl)
  intro l hl
  refine (Writes.forN (P := fun k => inBlkB di dj dk dl k ∧ k.2.2.2.1 = l) (d := fun k => k.2.2.1) (hst _ fun _ h => h.1) (fun _ _ h => h)
    (fun k k' a b => hinj k k' a.1 b.1) ?_).congr (fun k => by unfold inBlkB; omega) (fun _ _ => rfl)
  intro k hk'
  refine (Writes.forN (P := fun q => (inBlkB di dj dk dl q ∧ q.2.2.2.1 = l) ∧ q.2.2.1 = k) (d := fun q => q.2.1)
    (hst _ fun _ h => h.1.1) (fun _ _ h => h) (fun k k' a b => hinj k k' a.1.1 b.1.1) ?_).congr
    (fun q => by unfold inBlkB; omega) (fun _ _ => rfl)
  intro j hj'
  refine (Writes.forN (P := fun q => ((inBlkB di dj dk dl q ∧ q.2.2.2.1 = l) ∧ q.2.2.1 = k) ∧ q.2.1 = j) (d := fun q => q.1)
    (hst _ fun _ h => h.1.1.1) (fun _ _ h => h) (fun k k' a b => hinj k k' a.1.1.1 b.1.1.1) ?_).congr
    (fun q => by unfold inBlkB; omega) (fun _ _ => rfl)
  intro i hi'
  refine (Writes.forN (P := fun q => (((inBlkB di dj dk dl q ∧ q.2.2.2.1 = l) ∧ q.2.2.1 = k) ∧ q.2.1 = j) ∧ q.1 = i)
    (d := fun q => q.2.2.2.2)
    (hst _ fun _ h => h.1.1.1.1) (fun _ _ h => h) (fun k k' a b => hinj k k' a.1.1.1.1 b.1.1.1.1) ?_).congr
    (fun q => by unfold inBlkB; omega) (fun _ _ => rfl)
  intro e he
  have hin : inBlkB di dj dk dl (i, j, k, l, e) := ⟨hi', hj', hk', hl, he⟩
  have e1 : ∀ a b c : Nat, 2*(l*(a*b*c) + k*(a*b) + (j*a+i)) + e = bpos a b c (i, j, k, l, e) := by
    intro a b c; unfold bpos; ring
  refine Writes.cpy (k0 := (i, j, k, l, e)) (by rw [e1]) (fun h hok => by rw [e1]; exact (hok _ hin).1) (fun h hok => (hok _ hin).2)
    (fun q => ?_)
  constructor
  · rintro ⟨⟨⟨⟨⟨_, a⟩, b⟩, c⟩, d⟩, f⟩
    exact Prod.ext d (Prod.ext c (Prod.ext b (Prod.ext a f)))
  · rintro rfl
    exact ⟨⟨⟨⟨⟨hin, rfl⟩, rfl⟩, rfl⟩, rfl⟩, rfl⟩

variable [Field α]

/-- the elementwise loops -/
theorem combine_wp {f : α → α → α} {p q : Ptr} {n : Nat} {x y : Nat → α} {h : Heap α}
    (hx : ∀ m, m < 2*n → h.D (p + m) = .val (x m)) (hy : ∀ m, m < 2*n → h.D (q + m) = .val (y m))
    (hpq : ∀ m m', m < 2*n → m' < 2*n → p + m ≠ q + m') :
    wp (combine true f p q n) (fun _ h' => (∀ m, m < 2*n → h'.D (p + m) = .val (f (x m) (y m))) ∧
      (∀ r, (∀ m, m < 2*n → r ≠ p + m) → h'.D r = h.D r) ∧ h'.I = h.I) h := by
  unfold combine
  rw [if_pos rfl]
  refine wp_forN (fun i h' => (∀ m, m < i → h'.D (p + m) = .val (f (x m) (y m))) ∧
      (∀ r, (∀ m, m < i → r ≠ p + m) → h'.D r = h.D r) ∧ h'.I = h.I) ⟨fun _ h => by omega, fun _ _ => rfl, rfl⟩ ?_ (fun _ h => h)
  rintro i hi h1 ⟨H1, H2, H3⟩
  simp only [wp_mbind, wp_ld, wp_st]
  have e1 : h1.D (p + i) = .val (x i) := by
    rw [H2 _ fun m hm e => by rw [Ptr.add_right_inj] at e; omega, hx i hi]
  have e2 : h1.D (q + i) = .val (y i) := by
    rw [H2 _ fun m hm e => hpq m i (by omega) hi e.symm, hy i hi]
  refine ⟨x i, e1, y i, e2, by rw [e1]; simp, fun m hm => ?_, fun r hr => ?_, H3⟩
  · rw [Heap.setD_D]
    split
    · rename_i e
      rw [(Ptr.add_right_inj _ _ _).1 e]
    · rename_i e
      exact H1 m (by
        rcases Nat.lt_succ_iff_lt_or_eq.1 hm with h | h
        · exact h
        · exact absurd (by rw [h]) e)
  · rw [Heap.setD_D_ne _ _ (hr i (by omega))]
    exact H2 r fun m hm => hr m (by omega)

/-- What is the same in `h` as in `h0`: the cells that exist, the doubles not in `W`, the integers in `KI`. -/
def KeepsB (h0 : Heap α) (W KI : Ptr → Prop) (h : Heap α) : Prop :=
  (∀ q, h0.D q ≠ .oob → h.D q ≠ .oob) ∧ (∀ q, h0.I q ≠ .oob → h.I q ≠ .oob) ∧
  (∀ q, ¬ W q → h.D q = h0.D q) ∧ ∀ q, KI q → h.I q = h0.I q

/-- called in any memory with `Inv`, the function stores `v` to the array `p`; outside of `p` only doubles in buffer `cb` change -/
def FillsArr (f : Ptr → Prog α Bool) (Inv : Heap α → Prop) (cb : Nat) (p : Ptr) (n : Nat) (v : Nat → α) : Prop :=
  ∀ h, Inv h → wp (f p) (fun has h' => (∀ m, m < 2*n → h'.D (p + m) = .val (v m)) ∧ (has = false → ∀ m, m < 2*n → v m = 0) ∧
    (∀ q, q.buf ≠ cb → (∀ m, m < 2*n → q ≠ p + m) → h'.D q = h.D q) ∧ Inv h') h

theorem breitSum_wp [CharZero α] {g r1 r2 : Ptr → Prog α Bool} {Inv : Heap α → Prop} {cb : Nat} {p q : Ptr} {n : Nat} {vg v1 v2 : Nat → α}
    (Fg : FillsArr g Inv cb p n vg) (F1 : FillsArr r1 Inv cb q n v1) (F2 : FillsArr r2 Inv cb q n v2)
    (hp : p.buf ≠ cb) (hpq : ∀ m m', m < 2*n → m' < 2*n → p + m ≠ q + m')
    (hInv : ∀ h h', Inv h → (∀ r, (∀ m, m < 2*n → r ≠ p + m) → h'.D r = h.D r) → (∀ m, m < 2*n → h'.D (p + m) ≠ .oob) → h'.I = h.I → Inv h')
    {h : Heap α} (h0 : Inv h) :
    wp (breitSum g r1 r2 p q n) (fun has h' => (∀ m, m < 2*n → h'.D (p + m) = .val ((-vg m - v1 m + v2 m)/2)) ∧
      (has = false → ∀ m, m < 2*n → (-vg m - v1 m + v2 m)/2 = 0) ∧ Inv h') h := by
  have comb : ∀ {f : α → α → α} {x y w : Nat → α} {has : Bool} {h : Heap α}, (∀ m, m < 2*n → h.D (p + m) = .val (x m)) →
      (∀ m, m < 2*n → h.D (q + m) = .val (y m)) → Inv h → (has = true → ∀ m, m < 2*n → w m = f (x m) (y m)) →
      (has = false → ∀ m, m < 2*n → w m = x m) →
      wp (combine has f p q n) (fun _ h' => (∀ m, m < 2*n → h'.D (p + m) = .val (w m)) ∧ Inv h') h := by
    intro f x y w has h hx hy hi w1 w2
    cases has with
    | false => exact ⟨fun m hm => by rw [hx m hm, w2 rfl m hm], hi⟩
    | true =>
      refine wp_mono (combine_wp hx hy hpq) ?_
      rintro _ h' ⟨a, b, c⟩
      exact ⟨fun m hm => by rw [a m hm, w1 rfl m hm], hInv h h' hi b (fun m hm => by rw [a m hm]; simp) c⟩
  unfold breitSum
  rw [wp_mbind]
  refine wp_mono (Fg h h0) ?_
  rintro a h1 ⟨a1, a2, _, a4⟩
  rw [wp_mbind]
  refine wp_mono (F1 h1 a4) ?_
  rintro b h2 ⟨b1, b2, b3, b4⟩
  rw [wp_mbind]
  refine wp_mono (comb (x := vg) (y := v1) (w := fun m => -vg m - v1 m) (fun m hm => (b3 (p + m) hp (fun m' hm' => hpq m m' hm hm')).trans (a1 m hm)) b1 b4
    (fun _ _ _ => rfl) (fun e m hm => ?_)) ?_
  · rw [Bool.or_eq_false_iff] at e
    rw [a2 e.2 m hm, b2 e.1 m hm]; ring
  rintro _ h3 ⟨c1, c2⟩
  rw [wp_mbind]
  refine wp_mono (F2 h3 c2) ?_
  rintro c h4 ⟨d1, d2, d3, d4⟩
  rw [wp_mbind]
  refine wp_mono (comb (x := fun m => -vg m - v1 m) (y := v2) (w := fun m => (-vg m - v1 m + v2 m)/2)
    (fun m hm => (d3 (p + m) hp (fun m' hm' => hpq m m' hm hm')).trans (c1 m hm)) d1 d4 (fun _ _ _ => by ring) (fun e m hm => ?_)) ?_
  · simp only [Bool.or_eq_false_iff] at e
    rw [a2 e.2.2 m hm, b2 e.2.1 m hm, d2 e.1 m hm]; ring
  rintro _ h5 ⟨e1, e2⟩
  refine ⟨e1, fun e m hm => ?_, e2⟩
  simp only [Bool.or_eq_false_iff] at e
  rw [a2 e.2.2 m hm, b2 e.2.1 m hm, d2 e.1 m hm]; ring

end
end Verif.Lemmas
