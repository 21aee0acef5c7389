import Verif.Lemmas.SpBra1
import Verif.Lemmas.Out

/-! Output stage of the spinor functions: what the copying functions store. -/
namespace Verif.Lemmas
open Verif Verif.Model Verif.Prog Verif.Spec

variable {α : Type} [Field α]

/-- real or imaginary part of an element -/
abbrev Zx := Bool × Ix4

def imOff (im : Bool) : Nat := if im then 1 else 0

/-- position of a real or imaginary part in a complex array -/
def posZ (ni nj nk : Nat) (k : Zx) : Nat := 2*pos4 ni nj nk k.2 + imOff k.1

theorem imOff_lt (im : Bool) : imOff im < 2 := by cases im <;> decide

theorem imOff_inj {x y : Nat} {a b : Bool} (e : 2*x + imOff a = 2*y + imOff b) : x = y ∧ a = b := by
  cases a <;> cases b <;> simp [imOff] at e ⊢ <;> omega

theorem posZ_inj {ni nj nk : Nat} {k k' : Zx} (h1 : k.2.1 < ni) (h2 : k.2.2.1 < nj) (h3 : k.2.2.2.1 < nk)
    (h1' : k'.2.1 < ni) (h2' : k'.2.2.1 < nj) (h3' : k'.2.2.2.1 < nk) (e : posZ ni nj nk k = posZ ni nj nk k') :
    k = k' := by
  obtain ⟨e1, e2⟩ := imOff_inj e
  exact Prod.ext e2 (pos4_inj h1 h2 h3 h1' h2' h3' e1)

/-- the array of the real or of the imaginary parts -/
def side (t : Ptr × Ptr) (im : Bool) : Ptr := if im then t.2 else t.1

/-- the two copies of one element -/
theorem zcpy_writes {ok : Heap α → Prop} {P : Zx → Prop} {addr : Zx → Ptr} {v : Zx → α} {q : Ix4} {out R I : Ptr}
    {d s : Nat} (hst : Stable (fun _ => False) ok P addr v) (hinj : ∀ k k', P k → P k' → addr k = addr k' → v k = v k')
    (hP : ∀ k, P k ↔ k.2 = q) (h0 : out + d*2 = addr (false, q)) (h1 : out + (d*2+1) = addr (true, q))
    (hR : ∀ h, ok h → h.D (R + s) = .val (v (false, q))) (hI : ∀ h, ok h → h.D (I + s) = .val (v (true, q)))
    (ha : ∀ h, ok h → ∀ im, h.D (addr (im, q)) ≠ .oob) :
    Writes (fun _ => False) ok (zcpy out R I d s) (fun _ => True) P addr v := by
  unfold zcpy
  refine Writes.seq (P1 := fun k => k = (false, q)) (P2 := fun k => k = (true, q))
    (Writes.cpy h0 hR (fun h hh => ha h hh _) (fun k => Iff.rfl)) (Writes.cpy h1 hI (fun h hh => ha h hh _) (fun k => Iff.rfl))
    (fun h h' P' hP' => hst h h' P' (fun k hk => (hP k).2 (by rw [hP' k hk]))) (fun _ _ x => x)
    (fun k k' a b => hinj k k' ((hP k).2 (by rw [a])) ((hP k').2 (by rw [b]))) ?_
  rintro ⟨im, k⟩
  rw [hP]
  cases im <;> simp

/-- zcopy_iklj -/
theorem zcopyIklj_writes {out : Ptr} {t : Ptr × Ptr} {ni nj nk mi mj mk ml : Nat} {v : Zx → α} (hi : mi ≤ ni)
    (hj : mj ≤ nj) (hk : mk ≤ nk)
    (hd : ∀ k k' : Zx, inBlk mi mj mk ml k.2 → inBlk mi mj mk ml k'.2 →
      side t k.1 + posIklj mi mk ml k.2 ≠ out + posZ ni nj nk k') :
    Writes (fun _ => False) (CopyOk (fun k : Zx => inBlk mi mj mk ml k.2) (fun k => side t k.1 + posIklj mi mk ml k.2)
        (fun k => out + posZ ni nj nk k) v)
      (zcopyIklj out t.1 t.2 ni nj nk mi mj mk ml) (fun _ => True) (fun k => inBlk mi mj mk ml k.2)
      (fun k => out + posZ ni nj nk k) v := by
  have hst := copyOk_stable (W := fun _ => False) (P := fun k : Zx => inBlk mi mj mk ml k.2)
    (src := fun k => side t k.1 + posIklj mi mk ml k.2) (addr := fun k => out + posZ ni nj nk k) (v := v)
    (fun _ _ h => h) hd
  have hinj : ∀ k k' : Zx, inBlk mi mj mk ml k.2 → inBlk mi mj mk ml k'.2 →
      out + posZ ni nj nk k = out + posZ ni nj nk k' → v k = v k' := by
    rintro k k' ⟨a1, a2, a3, a4⟩ ⟨b1, b2, b3, b4⟩ e
    rw [posZ_inj (by omega) (by omega) (by omega) (by omega) (by omega) (by omega)
      ((Ptr.add_right_inj _ _ _).1 e)]
  unfold zcopyIklj
  dsimp only
  intro h hok
  rw [wp_mbind]
  have key := (Writes.forS (n := ml) (s := fun l => (out + l*(2*(ni*nj*nk)), t.1 + l*(mi*mk), t.2 + l*(mi*mk)))
    (f := fun _ (s : Ptr × Ptr × Ptr) => do
      forN mk fun k => do
        let pijkl := s.1 + 2*(k*(ni*nj))
        let pgctrR := s.2.1 + k*mi
        let pgctrI := s.2.2 + k*mi
        forN mj fun j => forN mi fun i => zcpy pijkl pgctrR pgctrI (j*ni+i) (j*(mi*mk*ml)+i)
      pure (s.1 + 2*(ni*nj*nk), s.2.1 + mi*mk, s.2.2 + mi*mk)) (d := fun k : Zx => k.2.2.2.2) hst (fun _ _ h => h) hinj ?_) h hok
  · simp only [Nat.zero_mul, Ptr.add_zero] at key
    refine wp_mono key ?_
    rintro _ h' ⟨_, H⟩
    rw [wp_pure]
    refine ⟨True.intro, H.congr (fun k => ?_) (fun _ _ => rfl)⟩
    unfold inBlk; omega
  intro l hl
  intro h1 ok1
  rw [wp_mbind]
  have hst' : ∀ (P' : Zx → Prop), (∀ k, P' k → inBlk mi mj mk ml k.2) →
      Stable (fun _ => False) (CopyOk (fun k : Zx => inBlk mi mj mk ml k.2) (fun k => side t k.1 + posIklj mi mk ml k.2)
        (fun k => out + posZ ni nj nk k) v) P' (fun k => out + posZ ni nj nk k) v :=
    fun P' hP h h' P2 hP2 => hst h h' P2 (fun k hk => hP k (hP2 k hk))
  refine wp_mono ((Writes.forN (P := fun k => inBlk mi mj mk ml k.2 ∧ k.2.2.2.2 = l) (d := fun k => k.2.2.2.1)
    (hst' _ (fun k hk => hk.1)) (fun _ _ h => h) (fun k k' a b => hinj k k' a.1 b.1) ?_) h1 ok1) ?_
  swap
  · rintro _ h' ⟨_, H⟩
    rw [wp_pure]
    refine ⟨?_, H.congr (fun k => by unfold inBlk; omega) (fun _ _ => rfl)⟩
    simp only [Ptr.add_assoc, Nat.add_mul, Nat.one_mul]
  intro k hk'
  refine (Writes.forN (P := fun q => (inBlk mi mj mk ml q.2 ∧ q.2.2.2.2 = l) ∧ q.2.2.2.1 = k) (d := fun q => q.2.2.1)
    (hst' _ (fun k hk => hk.1.1)) (fun _ _ h => h) (fun k k' a b => hinj k k' a.1.1 b.1.1) ?_).congr
    (fun q => by unfold inBlk; omega) (fun _ _ => rfl)
  intro j hj'
  refine (Writes.forN (P := fun q => ((inBlk mi mj mk ml q.2 ∧ q.2.2.2.2 = l) ∧ q.2.2.2.1 = k) ∧ q.2.2.1 = j)
    (d := fun q => q.2.1)
    (hst' _ (fun k hk => hk.1.1.1)) (fun _ _ h => h) (fun k k' a b => hinj k k' a.1.1.1 b.1.1.1) ?_).congr
    (fun q => by unfold inBlk; omega) (fun _ _ => rfl)
  intro i hi'
  have hin : inBlk mi mj mk ml (i, j, k, l) := ⟨hi', hj', hk', hl⟩
  refine zcpy_writes (q := (i, j, k, l)) (hst' _ (fun k hk => hk.1.1.1.1)) (fun k k' a b => hinj k k' a.1.1.1.1 b.1.1.1.1)
    (fun q => ?_) ?_ ?_ (fun h hok => ?_) (fun h hok => ?_) (fun h hok im => (hok (im, i, j, k, l) hin).2)
  · simp only [Prod.ext_iff]
    unfold inBlk
    constructor
    · rintro ⟨⟨⟨⟨_, h1⟩, h2⟩, h3⟩, h4⟩; exact ⟨h4, h3, h2, h1⟩
    · rintro ⟨h1, h2, h3, h4⟩
      exact ⟨⟨⟨⟨⟨by omega, by omega, by omega, by omega⟩, h4⟩, h3⟩, h2⟩, h1⟩
  · simp only [Ptr.add_assoc, posZ, pos4, imOff, Bool.false_eq_true, if_false]
    congr 1; ring
  · simp only [Ptr.add_assoc, posZ, pos4, imOff, if_true]
    congr 1; ring
  · rw [← (hok (false, i, j, k, l) hin).1]
    simp only [Ptr.add_assoc, posIklj, side, Bool.false_eq_true, if_false]
    congr 2; ring
  · rw [← (hok (true, i, j, k, l) hin).1]
    simp only [Ptr.add_assoc, posIklj, side, if_true]
    congr 2; ring

/-- zcopy_ij -/
theorem zcopyIj_writes {out : Ptr} {t : Ptr × Ptr} {ni nj nk mi mj mk ml : Nat} {v : Zx → α} (hi : mi ≤ ni) (hmk : mk = 1)
    (hml : ml = 1)
    (hd : ∀ k k' : Zx, inBlk mi mj mk ml k.2 → inBlk mi mj mk ml k'.2 →
      side t k.1 + posIklj mi mk ml k.2 ≠ out + posZ ni nj nk k') :
    Writes (fun _ => False) (CopyOk (fun k : Zx => inBlk mi mj mk ml k.2) (fun k => side t k.1 + posIklj mi mk ml k.2)
        (fun k => out + posZ ni nj nk k) v)
      (zcopyIj out t.1 t.2 ni mi mj) (fun _ => True) (fun k => inBlk mi mj mk ml k.2)
      (fun k => out + posZ ni nj nk k) v := by
  subst hmk hml
  have hst := copyOk_stable (W := fun _ => False) (P := fun k : Zx => inBlk mi mj 1 1 k.2)
    (src := fun k => side t k.1 + posIklj mi 1 1 k.2) (addr := fun k => out + posZ ni nj nk k) (v := v)
    (fun _ _ h => h) hd
  have hinj : ∀ k k' : Zx, inBlk mi mj 1 1 k.2 → inBlk mi mj 1 1 k'.2 →
      out + posZ ni nj nk k = out + posZ ni nj nk k' → v k = v k' := by
    rintro ⟨im, i, j, k, l⟩ ⟨im', i', j', k', l'⟩ ⟨a1, a2, a3, a4⟩ ⟨b1, b2, b3, b4⟩ e
    dsimp only at a1 a2 a3 a4 b1 b2 b3 b4
    obtain ⟨e1, e2⟩ := imOff_inj ((Ptr.add_right_inj _ _ _).1 e)
    obtain rfl : k = 0 := by omega
    obtain rfl : k' = 0 := by omega
    obtain rfl : l = 0 := by omega
    obtain rfl : l' = 0 := by omega
    unfold pos4 at e1
    simp only [Nat.zero_mul, Nat.zero_add] at e1
    obtain ⟨e3, e4⟩ := radix_inj (by omega) (by omega) e1
    rw [e3, e4, show im = im' from e2]
  have hst' : ∀ (P' : Zx → Prop), (∀ k, P' k → inBlk mi mj 1 1 k.2) →
      Stable (fun _ => False) (CopyOk (fun k : Zx => inBlk mi mj 1 1 k.2) (fun k => side t k.1 + posIklj mi 1 1 k.2)
        (fun k => out + posZ ni nj nk k) v) P' (fun k => out + posZ ni nj nk k) v :=
    fun P' hP h h' P2 hP2 => hst h h' P2 (fun k hk => hP k (hP2 k hk))
  unfold zcopyIj
  refine (Writes.forN (P := fun k : Zx => inBlk mi mj 1 1 k.2) (d := fun k => k.2.2.1) hst (fun _ _ h => h) hinj ?_).congr
    (fun k => by unfold inBlk; omega) (fun _ _ => rfl)
  intro j hj
  refine (Writes.forN (P := fun k : Zx => inBlk mi mj 1 1 k.2 ∧ k.2.2.1 = j) (d := fun k => k.2.1)
    (hst' _ (fun k hk => hk.1)) (fun _ _ h => h)
    (fun k k' hk hk' => hinj k k' hk.1 hk'.1) ?_).congr (fun k => by unfold inBlk; omega) (fun _ _ => rfl)
  intro i hi'
  have hin : inBlk mi mj 1 1 (i, j, 0, 0) := ⟨hi', hj, Nat.one_pos, Nat.one_pos⟩
  refine zcpy_writes (q := (i, j, 0, 0)) (hst' _ (fun k hk => hk.1.1)) (fun k k' a b => hinj k k' a.1.1 b.1.1)
    (fun q => ?_) ?_ ?_ (fun h hok => ?_) (fun h hok => ?_) (fun h hok im => (hok (im, i, j, 0, 0) hin).2)
  · simp only [Prod.ext_iff]
    unfold inBlk
    omega
  · simp only [posZ, pos4, imOff, Bool.false_eq_true, if_false]
    congr 1; ring
  · simp only [posZ, pos4, imOff, if_true]
    congr 1; ring
  · rw [← (hok (false, i, j, 0, 0) hin).1]
    simp only [posIklj, side, Bool.false_eq_true, if_false]
    congr 2; ring
  · rw [← (hok (true, i, j, 0, 0) hin).1]
    simp only [posIklj, side, if_true]
    congr 2; ring

/-- what a block transformation must do: from block `n` at `gctr + n*nf` it produces the `N` values `Y n`, using only the
scratch region `W` -/
structure TransZ (trans : Ptr → Prog α (Ptr × Ptr)) (gctr : Ptr) (nf nblk N : Nat) (Y : Nat → Nat → Cx α)
    (W Out : Ptr → Prop) (ok : Heap α → Prop) : Prop where
  step : ∀ n, n < nblk → ∀ h, ok h → wp (trans (gctr + n*nf)) (fun t h' =>
    (∀ im m, m < N → h'.D (side t im + m) = .val (part (Y n m) im)) ∧ AgreeD h h' W ∧ h'.I = h.I ∧
      ∀ im m, m < N → ¬ Out (side t im + m)) h
  keep : ∀ h h', ok h → AgreeD h h' (fun q => W q ∨ Out q) → (∀ q, h.D q ≠ .oob → h'.D q ≠ .oob) →
    h'.I = h.I → ok h'
  sep : ∀ q, W q → ¬ Out q

/-- a copying function that stores a transformed block -/
def CpZ (S : Shape) (ni nj nk : Nat) (cp : Ptr → Ptr × Ptr → Prog α Unit) : Prop :=
  ∀ (out : Ptr) (t : Ptr × Ptr) (v : Zx → α),
    (∀ k k' : Zx, inBlk S.di S.dj S.dk S.dl k.2 → inBlk S.di S.dj S.dk S.dl k'.2 →
      side t k.1 + posIklj S.di S.dk S.dl k.2 ≠ out + posZ ni nj nk k') →
    Writes (fun _ => False) (CopyOk (fun k : Zx => inBlk S.di S.dj S.dk S.dl k.2)
        (fun k => side t k.1 + posIklj S.di S.dk S.dl k.2) (fun k => out + posZ ni nj nk k) v)
      (cp out t) (fun _ => True) (fun k => inBlk S.di S.dj S.dk S.dl k.2) (fun k => out + posZ ni nj nk k) v

theorem cpZ_iklj {S : Shape} {ni nj nk : Nat} (hi : S.di ≤ ni) (hj : S.dj ≤ nj) (hk : S.dk ≤ nk) :
    CpZ (α := α) S ni nj nk (fun o t => zcopyIklj o t.1 t.2 ni nj nk S.di S.dj S.dk S.dl) :=
  fun _ _ _ hd => zcopyIklj_writes hi hj hk hd

theorem cpZ_ij {S : Shape} {ni nj nk : Nat} (hi : S.di ≤ ni) (hdk : S.dk = 1) (hdl : S.dl = 1) :
    CpZ (α := α) S ni nj nk (fun o t => zcopyIj o t.1 t.2 ni S.di S.dj) :=
  fun _ _ _ hd => zcopyIj_writes hi hdk hdl hd

/-- one block -/
theorem block4Z {S : Shape} (hS : ShapePos S) {trans : Ptr → Prog α (Ptr × Ptr)} {gctr out : Ptr} {nf nblk : Nat}
    {Y : Nat → Nat → Cx α} {W : Ptr → Prop} {ok : Heap α → Prop} {ni nj nk : Nat}
    (T : TransZ trans gctr nf nblk (S.di*S.dj*S.dk*S.dl) Y W
      (fun q => ∃ k : Zx, inOut S k.2 ∧ q = out + posZ ni nj nk k) ok)
    (hnb : S.lc*S.kc*S.jc*S.ic ≤ nblk)
    (hal : ∀ h, ok h → ∀ k : Zx, inOut S k.2 → h.D (out + posZ ni nj nk k) ≠ .oob)
    {ic jc kc lc : Nat} (hic : ic < S.ic) (hjc : jc < S.jc) (hkc : kc < S.kc) (hlc : lc < S.lc)
    {cp : Ptr → Ptr × Ptr → Prog α Unit} (hcp : CpZ S ni nj nk cp)
    {p : Ptr} (hp : p = gctr + (((lc*S.kc+kc)*S.jc+jc)*S.ic+ic)*nf) {off : Nat}
    (hoff : off = 2*pos4 ni nj nk (ic*S.di, jc*S.dj, kc*S.dk, lc*S.dl)) :
    Writes W ok (do
      let tmp1 ← trans p
      cp (out + off) tmp1
      pure (p + nf)) (· = p + nf)
      (fun k => (((inOut S k.2 ∧ k.2.2.2.2/S.dl = lc) ∧ k.2.2.2.1/S.dk = kc) ∧ k.2.2.1/S.dj = jc) ∧ k.2.1/S.di = ic)
      (fun k => out + posZ ni nj nk k) (fun k => part (Y (blkNo S k.2) (cellNo S k.2)) k.1) := by
  intro h hok
  have hblk : ((lc*S.kc+kc)*S.jc+jc)*S.ic+ic < nblk :=
    lt_of_lt_of_le (radix_lt (radix_lt (radix_lt hlc hkc) hjc) hic) hnb
  have hin : ∀ k, inBlk S.di S.dj S.dk S.dl k →
      inOut S (ic*S.di+k.1, jc*S.dj+k.2.1, kc*S.dk+k.2.2.1, lc*S.dl+k.2.2.2) :=
    fun k hk => ⟨digit_lt hk.1 hic, digit_lt hk.2.1 hjc, digit_lt hk.2.2.1 hkc, digit_lt hk.2.2.2 hlc⟩
  have hpos : ∀ k : Zx, out + off + posZ ni nj nk k =
      out + posZ ni nj nk (k.1, ic*S.di+k.2.1, jc*S.dj+k.2.2.1, kc*S.dk+k.2.2.2.1, lc*S.dl+k.2.2.2.2) := by
    intro k
    rw [hoff, Ptr.add_assoc]
    unfold posZ pos4
    congr 1; ring
  rw [wp_mbind, hp]
  refine wp_mono (wp_allocMono (T.step _ hblk h hok)) ?_
  rintro tmp h1 ⟨⟨hY, hA, hI, hsep⟩, hM⟩
  have hok1 := T.keep h h1 hok (hA.mono (fun q => Or.inl)) hM.D hI
  rw [wp_mbind]
  refine wp_mono (hcp (out + off) tmp (fun k => part (Y (((lc*S.kc+kc)*S.jc+jc)*S.ic+ic) (posIklj S.di S.dk S.dl k.2)) k.1)
    ?_ h1 ?_) ?_
  · intro k k' hk hk' e
    rw [hpos] at e
    exact hsep _ _ (radix4_lt hk.1 hk.2.1 hk.2.2.1 hk.2.2.2) ⟨_, hin k'.2 hk', e⟩
  · intro k hk
    refine ⟨hY _ _ (radix4_lt hk.1 hk.2.1 hk.2.2.1 hk.2.2.2), ?_⟩
    dsimp only
    rw [hpos]
    exact hal h1 hok1 (_, _) (hin k.2 hk)
  · rintro _ h2 ⟨_, H⟩
    rw [wp_pure]
    refine ⟨rfl, Wr.pre hA hM.D hI (H.reindex ?_ ?_)⟩
    · rintro ⟨im, I, J, K, L⟩ ⟨⟨⟨⟨hk, hl⟩, hk3⟩, hj⟩, hi⟩
      obtain ⟨i, hi1, rfl⟩ := digit_exists hS.di hi
      obtain ⟨j, hj1, rfl⟩ := digit_exists hS.dj hj
      obtain ⟨k, hk1, rfl⟩ := digit_exists hS.dk hk3
      obtain ⟨l, hl1, rfl⟩ := digit_exists hS.dl hl
      refine ⟨(im,i,j,k,l), ⟨hi1, hj1, hk1, hl1⟩, hpos _, ?_⟩
      unfold blkNo cellNo
      simp only [(digit hi1).1, (digit hi1).2, (digit hj1).1, (digit hj1).2, (digit hk1).1, (digit hk1).2,
        (digit hl1).1, (digit hl1).2]
    · rintro k hk
      refine ⟨(k.1, _), ⟨⟨⟨⟨hin k.2 hk, ?_⟩, ?_⟩, ?_⟩, ?_⟩, hpos k⟩
      · exact (digit hk.2.2.2).1
      · exact (digit hk.2.2.1).1
      · exact (digit hk.2.1).1
      · exact (digit hk.1).1

/-- the setting of the output stage -/
structure SetupZ (S : Shape) (trans : Ptr → Prog α (Ptr × Ptr)) (cp : Ptr → Ptr × Ptr → Prog α Unit) (gctr out : Ptr) (nf : Nat)
    (Y : Nat → Nat → Cx α) (W : Ptr → Prop) (ok : Heap α → Prop) (ni nj nk : Nat) : Prop where
  pos : ShapePos S
  hni : S.di*S.ic ≤ ni
  hnj : S.dj*S.jc ≤ nj
  hnk : S.dk*S.kc ≤ nk
  T : TransZ trans gctr nf (S.lc*S.kc*S.jc*S.ic) (S.di*S.dj*S.dk*S.dl) Y W
      (fun q => ∃ k : Zx, inOut S k.2 ∧ q = out + posZ ni nj nk k) ok
  hal : ∀ h, ok h → ∀ k : Zx, inOut S k.2 → h.D (out + posZ ni nj nk k) ≠ .oob
  hcp : CpZ S ni nj nk cp

section
variable {S : Shape} {trans : Ptr → Prog α (Ptr × Ptr)} {cp : Ptr → Ptr × Ptr → Prog α Unit} {gctr out : Ptr} {nf : Nat}
    {Y : Nat → Nat → Cx α} {W : Ptr → Prop} {ok : Heap α → Prop} {ni nj nk : Nat}

theorem SetupZ.inj (H : SetupZ S trans cp gctr out nf Y W ok ni nj nk) {k k' : Zx} (hk : inOut S k.2)
    (hk' : inOut S k'.2) (e : out + posZ ni nj nk k = out + posZ ni nj nk k') : k = k' := by
  obtain ⟨a1, a2, a3, a4⟩ := hk
  obtain ⟨b1, b2, b3, b4⟩ := hk'
  have := H.hni
  have := H.hnj
  have := H.hnk
  exact posZ_inj (by omega) (by omega) (by omega) (by omega) (by omega) (by omega)
    ((Ptr.add_right_inj _ _ _).1 e)

theorem SetupZ.stable (H : SetupZ S trans cp gctr out nf Y W ok ni nj nk) {P : Zx → Prop}
    (hP : ∀ k, P k → inOut S k.2) (v : Zx → α) :
    Stable W ok P (fun k => out + posZ ni nj nk k) v := by
  intro h h' P' hP' hok HW
  exact H.T.keep h h' hok (HW.agree.mono (fun q hq => by
    rcases hq with hq | ⟨k, hk, e⟩
    · exact Or.inl hq
    · exact Or.inr ⟨k, hP k (hP' k hk), e⟩)) HW.alloc HW.int

/-- the loops over the contractions of the first two indices -/
theorem blocks2Z (H : SetupZ S trans cp gctr out nf Y W ok ni nj nk) {kc lc : Nat} (hkc : kc < S.kc) (hlc : lc < S.lc)
    {off : Nat → Nat → Nat}
    (hoff : ∀ ic jc, ic < S.ic → jc < S.jc →
      off ic jc = 2*pos4 ni nj nk (ic*S.di, jc*S.dj, kc*S.dk, lc*S.dl)) :
    Writes W ok (forS S.jc (gctr + ((lc*S.kc+kc)*S.jc)*(S.ic*nf)) fun jc gctr =>
      forS S.ic gctr fun ic gctr => do
        let tmp1 ← trans gctr
        cp (out + off ic jc) tmp1
        pure (gctr + nf)) (· = gctr + ((lc*S.kc+kc)*S.jc+S.jc)*(S.ic*nf))
      (fun k => (inOut S k.2 ∧ k.2.2.2.2/S.dl = lc) ∧ k.2.2.2.1/S.dk = kc)
      (fun k => out + posZ ni nj nk k) (fun k => part (Y (blkNo S k.2) (cellNo S k.2)) k.1) := by
  have hWP : ∀ k : Zx, inOut S k.2 → ¬ W (out + posZ ni nj nk k) := fun k hk hw => H.T.sep _ hw ⟨k, hk, rfl⟩
  have hinj : ∀ k k' : Zx, inOut S k.2 → inOut S k'.2 → out + posZ ni nj nk k = out + posZ ni nj nk k' →
      part (Y (blkNo S k.2) (cellNo S k.2)) k.1 = part (Y (blkNo S k'.2) (cellNo S k'.2)) k'.1 :=
    fun k k' a b e => by rw [H.inj a b e]
  refine (Writes.forS (s := fun jc => gctr + ((lc*S.kc+kc)*S.jc+jc)*(S.ic*nf))
      (P := fun k => (inOut S k.2 ∧ k.2.2.2.2/S.dl = lc) ∧ k.2.2.2.1/S.dk = kc) (d := fun k => k.2.2.1/S.dj)
      (H.stable (fun k hk => hk.1.1) _) (fun k hk => hWP k hk.1.1) (fun k k' a b => hinj k k' a.1.1 b.1.1) ?_).congr
      ?_ (fun _ _ => rfl)
  · intro jc hjc
    have e2 : gctr + ((lc*S.kc+kc)*S.jc+jc)*(S.ic*nf) = gctr + (((lc*S.kc+kc)*S.jc+jc)*S.ic+0)*nf := by
      congr 1; ring
    rw [e2]
    refine ((Writes.forS (s := fun ic => gctr + (((lc*S.kc+kc)*S.jc+jc)*S.ic+ic)*nf)
      (P := fun k => ((inOut S k.2 ∧ k.2.2.2.2/S.dl = lc) ∧ k.2.2.2.1/S.dk = kc) ∧ k.2.2.1/S.dj = jc)
      (d := fun k => k.2.1/S.di)
      (H.stable (fun k hk => hk.1.1.1) _) (fun k hk => hWP k hk.1.1.1)
      (fun k k' a b => hinj k k' a.1.1.1 b.1.1.1) ?_).weaken
      (fun _ x => x) ?_ (fun _ x => x)).congr ?_ (fun _ _ => rfl)
    · intro ic hic
      refine (block4Z H.pos H.T (Nat.le_refl _) H.hal hic hjc hkc hlc H.hcp rfl
        (hoff ic jc hic hjc)).weaken (fun _ x => x) ?_ (fun _ x => x)
      rintro a rfl
      rw [Ptr.add_assoc]; congr 1; ring
    · rintro a rfl
      congr 1; ring
    · rintro k
      constructor
      · intro hk; exact ⟨hk, Nat.div_lt_of_lt_mul hk.1.1.1.1⟩
      · intro hk; exact hk.1
  · rintro k
    constructor
    · intro hk; exact ⟨hk, Nat.div_lt_of_lt_mul hk.1.1.2.1⟩
    · intro hk; exact hk.1

/-- the loops over the contractions of the first three indices, for given `lc` -/
theorem blocks3Z (H : SetupZ S trans cp gctr out nf Y W ok ni nj nk) {lc : Nat} (hlc : lc < S.lc)
    {off : Nat → Nat → Nat → Nat}
    (hoff : ∀ ic jc kc, ic < S.ic → jc < S.jc → kc < S.kc →
      off ic jc kc = 2*pos4 ni nj nk (ic*S.di, jc*S.dj, kc*S.dk, lc*S.dl)) :
    Writes W ok (forS S.kc (gctr + (lc*S.kc)*(S.jc*S.ic*nf)) fun kc gctr =>
      forS S.jc gctr fun jc gctr =>
      forS S.ic gctr fun ic gctr => do
        let tmp1 ← trans gctr
        cp (out + off ic jc kc) tmp1
        pure (gctr + nf)) (· = gctr + (lc*S.kc+S.kc)*(S.jc*S.ic*nf))
      (fun k => inOut S k.2 ∧ k.2.2.2.2/S.dl = lc)
      (fun k => out + posZ ni nj nk k) (fun k => part (Y (blkNo S k.2) (cellNo S k.2)) k.1) := by
  refine (Writes.forS (s := fun kc => gctr + (lc*S.kc+kc)*(S.jc*S.ic*nf))
    (P := fun k => inOut S k.2 ∧ k.2.2.2.2/S.dl = lc) (d := fun k => k.2.2.2.1/S.dk)
    (H.stable (fun k hk => hk.1) _) (fun k hk hw => H.T.sep _ hw ⟨k, hk.1, rfl⟩)
    (fun k k' a b e => by rw [H.inj a.1 b.1 e]) ?_).congr ?_
    (fun _ _ => rfl)
  · intro kc hkc
    have e1 : gctr + (lc*S.kc+kc)*(S.jc*S.ic*nf) = gctr + ((lc*S.kc+kc)*S.jc)*(S.ic*nf) := by
      congr 1; ring
    rw [e1]
    refine (blocks2Z H hkc hlc (fun ic jc a b => hoff ic jc kc a b hkc)).weaken (fun _ x => x) ?_ (fun _ x => x)
    rintro a rfl
    congr 1; ring
  · rintro k
    constructor
    · intro hk; exact ⟨hk, Nat.div_lt_of_lt_mul hk.1.2.2.1⟩
    · intro hk; exact hk.1

/-- c2s_sf_1e, c2s_si_1e, c2s_sf_1ei, c2s_si_1ei -/
theorem c2sZ1e_writes {dims : Ptr} {nj0 : Int}
    (H : SetupZ S trans (fun o t => zcopyIj o t.1 t.2 ni S.di S.dj) gctr out S.nf Y W ok ni nj nk)
    (hk : S.kc = 1) (hl : S.lc = 1) (hdk : S.dk = 1) (hdl : S.dl = 1)
    (hdim : ∀ h, ok h → h.I dims = .val ni ∧ h.I (dims+1) = .val nj0) :
    Writes W ok (c2sZ1e S trans out gctr dims) (fun _ => True) (fun k => inOut S k.2)
      (fun k => out + posZ ni nj nk k) (fun k => part (Y (blkNo S k.2) (cellNo S k.2)) k.1) := by
  intro h hok
  obtain ⟨d0, d1⟩ := hdim h hok
  unfold c2sZ1e
  simp only [wp_mbind, wp_ldI]
  refine ⟨_, d0, _, d1, ?_⟩
  simp only [Int.toNat_natCast]
  have key := blocks2Z H (lc := 0) (kc := 0) (by omega) (by omega)
    (off := fun ic jc => 2*(ni*S.dj*jc + S.di*ic))
    (fun ic jc _ _ => by unfold pos4; simp only [Nat.zero_mul]; ring) h hok
  simp only [Nat.zero_mul, Nat.add_zero, Ptr.add_zero] at key
  refine wp_mono key ?_
  rintro _ h' ⟨_, HW⟩
  rw [wp_pure]
  refine ⟨True.intro, HW.congr (fun k => ⟨fun hk' => ⟨⟨hk', ?_⟩, ?_⟩, fun hk' => hk'.1.1⟩) (fun _ _ => rfl)⟩
  · have := hk'.2.2.2
    rw [hl, hdl] at this
    rw [hdl]; omega
  · have := hk'.2.2.1
    rw [hk, hdk] at this
    rw [hdk]; omega

/-- c2s_sf_2e2 and its variants -/
theorem c2sZ2e2_writes {dims : Ptr} {nl : Int}
    (H : SetupZ S trans (fun o t => zcopyIklj o t.1 t.2 ni nj nk S.di S.dj S.dk S.dl) gctr out S.nf Y W ok ni nj nk)
    (hdim : ∀ h, ok h → h.I dims = .val ni ∧ h.I (dims+1) = .val nj ∧ h.I (dims+2) = .val nk ∧
      h.I (dims+3) = .val nl) :
    Writes W ok (c2sZ2e2 S trans out gctr dims) (fun _ => True) (fun k => inOut S k.2)
      (fun k => out + posZ ni nj nk k) (fun k => part (Y (blkNo S k.2) (cellNo S k.2)) k.1) := by
  intro h hok
  obtain ⟨d0, d1, d2, d3⟩ := hdim h hok
  unfold c2sZ2e2
  simp only [wp_mbind, wp_ldI]
  refine ⟨_, d0, _, d1, _, d2, _, d3, ?_⟩
  have key := Writes.forS (s := fun lc => gctr + lc*S.kc*(S.jc*S.ic*S.nf)) (n := S.lc)
    (f := fun lc gctr => forS S.kc gctr fun kc gctr =>
      forS S.jc gctr fun jc gctr =>
      forS S.ic gctr fun ic gctr => do
        let t ← trans gctr
        let pfijkl := out + 2*((ni:Int).toNat * (nj:Int).toNat * (nk:Int).toNat * S.dl * lc
          + (ni:Int).toNat * (nj:Int).toNat * S.dk * kc + (ni:Int).toNat * S.dj * jc + S.di * ic)
        zcopyIklj pfijkl t.1 t.2 (ni:Int).toNat (nj:Int).toNat (nk:Int).toNat S.di S.dj S.dk S.dl
        pure (gctr + S.nf))
    (P := fun k : Zx => inOut S k.2) (d := fun k => k.2.2.2.2/S.dl) (W := W) (ok := ok)
    (v := fun k => part (Y (blkNo S k.2) (cellNo S k.2)) k.1)
    (H.stable (fun k hk => hk) _) (fun k hk hw => H.T.sep _ hw ⟨k, hk, rfl⟩)
    (fun k k' a b e => by rw [H.inj a b e]) ?_ h hok
  · simp only [Nat.zero_mul, Ptr.add_zero] at key
    refine wp_mono key ?_
    rintro _ h' ⟨_, HW⟩
    rw [wp_pure]
    refine ⟨True.intro, HW.congr (fun k => ⟨fun hk => ⟨hk, Nat.div_lt_of_lt_mul hk.2.2.2⟩, fun hk => hk.1⟩)
      (fun _ _ => rfl)⟩
  · intro lc hlc
    simp only [Int.toNat_natCast]
    refine (blocks3Z H hlc (off := fun ic jc kc => 2*(ni*nj*nk*S.dl*lc + ni*nj*S.dk*kc + ni*S.dj*jc + S.di*ic))
      ?_).weaken (fun _ x => x) ?_ (fun _ x => x)
    · intro ic jc kc _ _ _
      unfold pos4; ring
    · rintro a rfl
      congr 1; ring

/-- c2s_sf_3c2e1 and its variants -/
theorem c2sZ3c_writes {dims : Ptr}
    (H : SetupZ S trans (fun o t => zcopyIklj o t.1 t.2 ni nj nk S.di S.dj S.dk 1) gctr out S.nf Y W ok ni nj nk)
    (hl : S.lc = 1) (hdl : S.dl = 1)
    (hdim : ∀ h, ok h → h.I dims = .val ni ∧ h.I (dims+1) = .val nj ∧ h.I (dims+2) = .val nk) :
    Writes W ok (c2sZ3c S trans out gctr dims) (fun _ => True) (fun k => inOut S k.2)
      (fun k => out + posZ ni nj nk k) (fun k => part (Y (blkNo S k.2) (cellNo S k.2)) k.1) := by
  intro h hok
  obtain ⟨d0, d1, d2⟩ := hdim h hok
  unfold c2sZ3c
  simp only [wp_mbind, wp_ldI]
  refine ⟨_, d0, _, d1, _, d2, ?_⟩
  simp only [Int.toNat_natCast]
  have key := blocks3Z H (lc := 0) (by omega)
    (off := fun ic jc kc => 2*(ni*nj*S.dk*kc + ni*S.dj*jc + S.di*ic))
    (fun ic jc kc _ _ _ => by unfold pos4; simp only [Nat.zero_mul]; ring) h hok
  simp only [Nat.zero_mul, Ptr.add_zero] at key
  refine wp_mono key ?_
  rintro _ h' ⟨_, HW⟩
  rw [wp_pure]
  refine ⟨True.intro, HW.congr (fun k => ⟨fun hk => ⟨hk, ?_⟩, fun hk => hk.1⟩) (fun _ _ => rfl)⟩
  have := hk.2.2.2
  rw [hl, hdl] at this
  rw [hdl]
  omega

end
end Verif.Lemmas
