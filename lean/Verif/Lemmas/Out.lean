import Verif.Core.Writes
import Verif.Model.Out
import Mathlib.Tactic.Ring

/-! Output stage: what the copying functions store. -/
namespace Verif.Lemmas
open Verif Verif.Model Verif.Prog

variable {α ι : Type}

/-- sources hold the values, destinations are writable -/
def CopyOk (P : ι → Prop) (src addr : ι → Ptr) (v : ι → α) (h : Heap α) : Prop :=
  ∀ k, P k → h.D (src k) = .val (v k) ∧ h.D (addr k) ≠ .oob

theorem copyOk_stable {W : Ptr → Prop} {P : ι → Prop} {src addr : ι → Ptr} {v : ι → α}
    (h1 : ∀ k, P k → ¬ W (src k)) (h2 : ∀ k k', P k → P k' → src k ≠ addr k') :
    Stable W (CopyOk P src addr v) P addr v := by
  intro h h' P' hP hok H k hk
  refine ⟨?_, H.alloc _ (hok k hk).2⟩
  rw [H.frame _ (h1 k hk) (fun k' hk' => h2 k k' hk (hP k' hk'))]
  exact (hok k hk).1

theorem wp_copyRow {p q : Ptr} {mi : Nat} {Q : Unit → Heap α → Prop} {h : Heap α} :
    wp (copyRow p q mi) Q h ↔ wp (forN mi fun i => cpy (p + i) (q + i)) Q h := by
  unfold copyRow
  split
  all_goals simp [forN, forS, wp_bind]

theorem Writes.of_wp {A : Type} {W : Ptr → Prop} {ok : Heap α → Prop} {f f' : Prog α A} {r : A → Prop}
    {P : ι → Prop} {addr : ι → Ptr} {v : ι → α} (H : Writes W ok f r P addr v)
    (hf : ∀ Q h, wp f' Q h ↔ wp f Q h) : Writes W ok f' r P addr v :=
  fun h hok => (hf _ h).2 (H h hok)

/-- dcopy_ij -/
theorem dcopyIj_writes {out gctr : Ptr} {ni mi mj : Nat} {v : Nat × Nat → α} (hn : mi ≤ ni)
    (hd : ∀ i j i' j', i < mi → j < mj → i' < mi → j' < mj → gctr + (j*mi+i) ≠ out + (j'*ni+i')) :
    Writes (fun _ => False) (CopyOk (fun k => k.1 < mi ∧ k.2 < mj) (fun k => gctr + (k.2*mi+k.1))
        (fun k => out + (k.2*ni+k.1)) v)
      (dcopyIj out gctr ni mi mj) (fun _ => True) (fun k => k.1 < mi ∧ k.2 < mj)
      (fun k => out + (k.2*ni+k.1)) v := by
  have hst := copyOk_stable (W := fun _ => False) (P := fun k : Nat × Nat => k.1 < mi ∧ k.2 < mj)
    (src := fun k => gctr + (k.2*mi+k.1)) (addr := fun k => out + (k.2*ni+k.1)) (v := v)
    (fun _ _ h => h) (fun k k' hk hk' => hd _ _ _ _ hk.1 hk.2 hk'.1 hk'.2)
  have hinj : ∀ k k' : Nat × Nat, (k.1 < mi ∧ k.2 < mj) → (k'.1 < mi ∧ k'.2 < mj) →
      out + (k.2*ni+k.1) = out + (k'.2*ni+k'.1) → v k = v k' := by
    intro k k' hk hk' e
    obtain ⟨e1, e2⟩ := radix_inj (by omega) (by omega) ((Ptr.add_right_inj _ _ _).1 e)
    rw [Prod.ext e2 e1]
  unfold dcopyIj
  refine (Writes.forN (P := fun k : Nat × Nat => k.1 < mi ∧ k.2 < mj) (d := fun k => k.2) hst (fun _ _ h => h) hinj ?_).congr
    (fun k => by omega) (fun _ _ => rfl)
  intro j hj
  refine (Writes.forN (P := fun k : Nat × Nat => (k.1 < mi ∧ k.2 < mj) ∧ k.2 = j) (d := fun k => k.1)
    (fun h h' P' hP => hst h h' P' (fun k hk => (hP k hk).1)) (fun _ _ h => h)
    (fun k k' hk hk' => hinj k k' hk.1 hk'.1) ?_).congr (fun k => by omega) (fun _ _ => rfl)
  intro i hi
  refine Writes.cpy (k0 := (i, j)) rfl (fun h hok => (hok (i,j) ⟨hi, hj⟩).1)
    (fun h hok => (hok (i,j) ⟨hi, hj⟩).2) (fun k => ?_)
  rw [Prod.ext_iff]
  dsimp only
  omega

/-- four-index elements -/
abbrev Ix4 := Nat × Nat × Nat × Nat

/-- column-major position of (i,j,k,l) in an array with leading dimensions ni, nj, nk -/
def pos4 (ni nj nk : Nat) (k : Ix4) : Nat := ((k.2.2.2*nk + k.2.2.1)*nj + k.2.1)*ni + k.1
/-- position in the order (i,k,l,j) with block sizes mi, mk, ml -/
def posIklj (mi mk ml : Nat) (k : Ix4) : Nat := ((k.2.1*ml + k.2.2.2)*mk + k.2.2.1)*mi + k.1

theorem pos4_inj {ni nj nk : Nat} {k k' : Ix4} (h1 : k.1 < ni) (h2 : k.2.1 < nj) (h3 : k.2.2.1 < nk)
    (h1' : k'.1 < ni) (h2' : k'.2.1 < nj) (h3' : k'.2.2.1 < nk) (e : pos4 ni nj nk k = pos4 ni nj nk k') :
    k = k' := by
  unfold pos4 at e
  obtain ⟨e1, e2⟩ := radix_inj h1 h1' e
  obtain ⟨e3, e4⟩ := radix_inj h2 h2' e1
  obtain ⟨e5, e6⟩ := radix_inj h3 h3' e3
  exact Prod.ext e2 (Prod.ext e4 (Prod.ext e6 e5))

def inBlk (mi mj mk ml : Nat) (k : Ix4) : Prop := k.1 < mi ∧ k.2.1 < mj ∧ k.2.2.1 < mk ∧ k.2.2.2 < ml

/-- dcopy_iklj -/
theorem dcopyIklj_writes {out gctr : Ptr} {ni nj nk mi mj mk ml : Nat} {v : Ix4 → α} (hi : mi ≤ ni)
    (hj : mj ≤ nj) (hk : mk ≤ nk)
    (hd : ∀ k k', inBlk mi mj mk ml k → inBlk mi mj mk ml k' →
      gctr + posIklj mi mk ml k ≠ out + pos4 ni nj nk k') :
    Writes (fun _ => False) (CopyOk (inBlk mi mj mk ml) (fun k => gctr + posIklj mi mk ml k)
        (fun k => out + pos4 ni nj nk k) v)
      (dcopyIklj out gctr ni nj nk mi mj mk ml) (fun _ => True) (inBlk mi mj mk ml)
      (fun k => out + pos4 ni nj nk k) v := by
  have hst := copyOk_stable (W := fun _ => False) (P := inBlk mi mj mk ml)
    (src := fun k => gctr + posIklj mi mk ml k) (addr := fun k => out + pos4 ni nj nk k) (v := v)
    (fun _ _ h => h) hd
  have hinj : ∀ k k', inBlk mi mj mk ml k → inBlk mi mj mk ml k' →
      out + pos4 ni nj nk k = out + pos4 ni nj nk k' → v k = v k' := by
    rintro k k' ⟨a1, a2, a3, a4⟩ ⟨b1, b2, b3, b4⟩ e
    rw [pos4_inj (by omega) (by omega) (by omega) (by omega) (by omega) (by omega)
      ((Ptr.add_right_inj _ _ _).1 e)]
  unfold dcopyIklj
  dsimp only
  intro h hok
  rw [wp_mbind]
  have key := (Writes.forS (n := ml) (s := fun l => (out + l*(ni*nj*nk), gctr + l*(mi*mk)))
    (f := fun _ (s : Ptr × Ptr) => do
      forN mk fun k => do
        let pijkl := s.1 + k*(ni*nj)
        let pgctr := s.2 + k*mi
        forN mj fun j => copyRow (pijkl + ni*j) (pgctr + mi*mk*ml*j) mi
      pure (s.1 + ni*nj*nk, s.2 + mi*mk)) (d := fun k : Ix4 => k.2.2.2) hst (fun _ _ h => h) hinj ?_) h hok
  · simp only [Nat.zero_mul, Ptr.add_zero] at key
    refine wp_mono key ?_
    rintro _ h' ⟨_, H⟩
    rw [wp_pure]
    refine ⟨True.intro, H.congr (fun k => ?_) (fun _ _ => rfl)⟩
    unfold inBlk; omega
  intro l hl
  intro h1 ok1
  rw [wp_mbind]
  have hst' : ∀ (P' : Ix4 → Prop), (∀ k, P' k → inBlk mi mj mk ml k) →
      Stable (fun _ => False) (CopyOk (inBlk mi mj mk ml) (fun k => gctr + posIklj mi mk ml k)
        (fun k => out + pos4 ni nj nk k) v) P' (fun k => out + pos4 ni nj nk k) v :=
    fun P' hP h h' P2 hP2 => hst h h' P2 (fun k hk => hP k (hP2 k hk))
  refine wp_mono ((Writes.forN (P := fun k => inBlk mi mj mk ml k ∧ k.2.2.2 = l) (d := fun k => k.2.2.1)
    (hst' _ (fun k hk => hk.1)) (fun _ _ h => h) (fun k k' a b => hinj k k' a.1 b.1) ?_) h1 ok1) ?_
  swap
  · rintro _ h' ⟨_, H⟩
    rw [wp_pure]
    refine ⟨?_, H.congr (fun k => by unfold inBlk; omega) (fun _ _ => rfl)⟩
    simp only [Ptr.add_assoc, Nat.add_mul, Nat.one_mul]
  intro k hk'
  refine (Writes.forN (P := fun q => (inBlk mi mj mk ml q ∧ q.2.2.2 = l) ∧ q.2.2.1 = k) (d := fun q => q.2.1)
    (hst' _ (fun k hk => hk.1.1)) (fun _ _ h => h) (fun k k' a b => hinj k k' a.1.1 b.1.1) ?_).congr
    (fun q => by unfold inBlk; omega) (fun _ _ => rfl)
  intro j hj'
  refine Writes.of_wp ?_ (fun Q h => wp_copyRow)
  refine (Writes.forN (P := fun q => ((inBlk mi mj mk ml q ∧ q.2.2.2 = l) ∧ q.2.2.1 = k) ∧ q.2.1 = j)
    (d := fun q => q.1)
    (hst' _ (fun k hk => hk.1.1.1)) (fun _ _ h => h) (fun k k' a b => hinj k k' a.1.1.1 b.1.1.1) ?_).congr
    (fun q => by unfold inBlk; omega) (fun _ _ => rfl)
  intro i hi'
  have hin : inBlk mi mj mk ml (i, j, k, l) := ⟨hi', hj', hk', hl⟩
  refine Writes.cpy (k0 := (i, j, k, l)) ?_ (fun h hok => ?_)
    (fun h hok => (hok _ hin).2) (fun q => ?_)
  · simp only [Ptr.add_assoc, pos4]
    congr 1; ring
  · rw [← (hok _ hin).1]
    simp only [Ptr.add_assoc, posIklj]
    congr 2; ring
  · simp only [Prod.ext_iff]
    unfold inBlk
    constructor
    · rintro ⟨⟨⟨⟨_, h1⟩, h2⟩, h3⟩, h4⟩; exact ⟨h4, h3, h2, h1⟩
    · rintro ⟨h1, h2, h3, h4⟩
      exact ⟨⟨⟨⟨⟨by omega, by omega, by omega, by omega⟩, h4⟩, h3⟩, h2⟩, h1⟩

/-- preparation in scratch followed by stores -/
theorem Wr.pre {W : Ptr → Prop} {h h1 h2 : Heap α} {P : ι → Prop} {addr : ι → Ptr} {v : ι → α}
    (hD : AgreeD h h1 W) (hA : ∀ q, h.D q ≠ .oob → h1.D q ≠ .oob) (hI : h1.I = h.I)
    (H : Wr (fun _ => False) h1 h2 P addr v) : Wr W h h2 P addr v :=
  ⟨H.val, fun q hw hq => by rw [H.frame q (fun h => h) hq, hD q hw], fun q hq => H.alloc q (hA q hq),
    by rw [H.int, hI]⟩

/-- what a block transformation must do: from block `n` of the contracted integrals (at
`gctr + n*nf`) it produces the `N` values `Y n`, using only the scratch region `W` -/
structure TransOK (trans : Ptr → Prog α Ptr) (gctr : Ptr) (nf nblk N : Nat) (Y : Nat → Nat → α)
    (W Out : Ptr → Prop) (ok : Heap α → Prop) : Prop where
  step : ∀ n, n < nblk → ∀ h, ok h → wp (trans (gctr + n*nf)) (fun tmp h' =>
    HoldsD h' tmp N (Y n) ∧ AgreeD h h' W ∧ h'.I = h.I ∧ ∀ m, m < N → ¬ Out (tmp + m)) h
  keep : ∀ h h', ok h → AgreeD h h' (fun q => W q ∨ Out q) → (∀ q, h.D q ≠ .oob → h'.D q ≠ .oob) →
    h'.I = h.I → ok h'
  sep : ∀ q, W q → ¬ Out q

/-- quotient and remainder for `q*d + r` -/
theorem digit {d q r : Nat} (hr : r < d) : (q*d + r) / d = q ∧ (q*d + r) % d = r := by
  constructor
  · rw [Nat.mul_comm, Nat.mul_add_div (by omega), Nat.div_eq_of_lt hr]; omega
  · rw [Nat.mul_comm, Nat.mul_add_mod, Nat.mod_eq_of_lt hr]

theorem digit_lt {d q r n : Nat} (hr : r < d) (hq : q < n) : q*d + r < d*n := by
  rw [Nat.mul_comm d n]
  have := Nat.mul_le_mul_right d (show q + 1 ≤ n from hq)
  rw [Nat.add_mul] at this
  omega

theorem digit_exists {d q x : Nat} (hd : 0 < d) (h : x / d = q) : ∃ r, r < d ∧ x = q*d + r :=
  ⟨x % d, Nat.mod_lt _ hd, by rw [← h, Nat.mul_comm]; exact (Nat.div_add_mod x d).symm⟩

/-- contraction block containing element `k` -/
def blkNo (S : Shape) (k : Ix4) : Nat :=
  ((k.2.2.2/S.dl*S.kc + k.2.2.1/S.dk)*S.jc + k.2.1/S.dj)*S.ic + k.1/S.di
/-- position of element `k` in its (transformed) block -/
def cellNo (S : Shape) (k : Ix4) : Nat :=
  posIklj S.di S.dk S.dl (k.1%S.di, k.2.1%S.dj, k.2.2.1%S.dk, k.2.2.2%S.dl)

/-- the elements of the output -/
def inOut (S : Shape) : Ix4 → Prop := inBlk (S.di*S.ic) (S.dj*S.jc) (S.dk*S.kc) (S.dl*S.lc)

structure ShapePos (S : Shape) : Prop where
  di : 0 < S.di
  dj : 0 < S.dj
  dk : 0 < S.dk
  dl : 0 < S.dl

theorem radix4_lt {S : Shape} {i j k l : Nat} (hi : i < S.di) (hj : j < S.dj) (hk : k < S.dk) (hl : l < S.dl) :
    posIklj S.di S.dk S.dl (i,j,k,l) < S.di*S.dj*S.dk*S.dl := by
  have e : S.di*S.dj*S.dk*S.dl = S.dj*S.dl*S.dk*S.di := by ring
  rw [e]
  unfold posIklj
  exact radix_lt (radix_lt (radix_lt hj hl) hk) hi

/-- a copying function that stores a transformed block -/
def CpOK (S : Shape) (ni nj nk : Nat) (cp : Ptr → Ptr → Prog α Unit) : Prop :=
  ∀ (out src : Ptr) (v : Ix4 → α),
    (∀ k k', inBlk S.di S.dj S.dk S.dl k → inBlk S.di S.dj S.dk S.dl k' →
      src + posIklj S.di S.dk S.dl k ≠ out + pos4 ni nj nk k') →
    Writes (fun _ => False) (CopyOk (inBlk S.di S.dj S.dk S.dl) (fun k => src + posIklj S.di S.dk S.dl k)
        (fun k => out + pos4 ni nj nk k) v)
      (cp out src) (fun _ => True) (inBlk S.di S.dj S.dk S.dl) (fun k => out + pos4 ni nj nk k) v

theorem cpOK_iklj {S : Shape} {ni nj nk : Nat} (hi : S.di ≤ ni) (hj : S.dj ≤ nj) (hk : S.dk ≤ nk) :
    CpOK (α := α) S ni nj nk (fun o t => dcopyIklj o t ni nj nk S.di S.dj S.dk S.dl) :=
  fun _ _ _ hd => dcopyIklj_writes hi hj hk hd

theorem cpOK_ij {S : Shape} {ni nj nk : Nat} (hi : S.di ≤ ni) (hdk : S.dk = 1) (hdl : S.dl = 1) :
    CpOK (α := α) S ni nj nk (fun o t => dcopyIj o t ni S.di S.dj) := by
  intro out src v hd h hok
  have p1 : ∀ i j, posIklj S.di S.dk S.dl (i,j,0,0) = j*S.di+i := by
    intro i j; unfold posIklj; rw [hdk, hdl]; ring
  have p2 : ∀ i j, pos4 ni nj nk (i,j,0,0) = j*ni+i := by
    intro i j; unfold pos4; ring
  have hin : ∀ i j, i < S.di → j < S.dj → inBlk S.di S.dj S.dk S.dl (i,j,0,0) :=
    fun i j a b => ⟨a, b, by simp only [hdk]; omega, by simp only [hdl]; omega⟩
  refine wp_mono (dcopyIj_writes (v := fun k => v (k.1, k.2, 0, 0)) hi ?_ h ?_) ?_
  · intro i j i' j' a b a' b'
    rw [← p1, ← p2]
    exact hd _ _ (hin i j a b) (hin i' j' a' b')
  · rintro ⟨i, j⟩ ⟨a, b⟩
    dsimp only
    rw [← p1, ← p2]
    exact hok _ (hin i j a b)
  · rintro _ h' ⟨_, H⟩
    refine ⟨True.intro, H.reindex ?_ ?_⟩
    · rintro ⟨i, j, k, l⟩ ⟨a, b, c, d⟩
      dsimp only at c d
      rw [hdk] at c
      rw [hdl] at d
      obtain rfl : k = 0 := by omega
      obtain rfl : l = 0 := by omega
      exact ⟨(i,j), ⟨a, b⟩, by rw [p2], rfl⟩
    · rintro ⟨i, j⟩ ⟨a, b⟩
      exact ⟨_, hin i j a b, by rw [p2]⟩

/-- one block of the four-index output stage -/
theorem block4 {S : Shape} (hS : ShapePos S) {trans : Ptr → Prog α Ptr} {gctr out : Ptr} {nf nblk : Nat}
    {Y : Nat → Nat → α} {W : Ptr → Prop} {ok : Heap α → Prop} {ni nj nk : Nat}
    (T : TransOK trans gctr nf nblk (S.di*S.dj*S.dk*S.dl) Y W
      (fun q => ∃ k, inOut S k ∧ q = out + pos4 ni nj nk k) ok)
    (hnb : S.lc*S.kc*S.jc*S.ic ≤ nblk)
    (hal : ∀ h, ok h → ∀ k, inOut S k → h.D (out + pos4 ni nj nk k) ≠ .oob)
    {ic jc kc lc : Nat} (hic : ic < S.ic) (hjc : jc < S.jc) (hkc : kc < S.kc) (hlc : lc < S.lc)
    {cp : Ptr → Ptr → Prog α Unit} (hcp : CpOK S ni nj nk cp)
    {p : Ptr} (hp : p = gctr + (((lc*S.kc+kc)*S.jc+jc)*S.ic+ic)*nf) {off : Nat}
    (hoff : off = pos4 ni nj nk (ic*S.di, jc*S.dj, kc*S.dk, lc*S.dl)) :
    Writes W ok (do
      let tmp1 ← trans p
      cp (out + off) tmp1
      pure (p + nf)) (· = p + nf)
      (fun k => (((inOut S k ∧ k.2.2.2/S.dl = lc) ∧ k.2.2.1/S.dk = kc) ∧ k.2.1/S.dj = jc) ∧ k.1/S.di = ic)
      (fun k => out + pos4 ni nj nk k) (fun k => Y (blkNo S k) (cellNo S k)) := by
  intro h hok
  have hblk : ((lc*S.kc+kc)*S.jc+jc)*S.ic+ic < nblk :=
    lt_of_lt_of_le (radix_lt (radix_lt (radix_lt hlc hkc) hjc) hic) hnb
  have hin : ∀ k, inBlk S.di S.dj S.dk S.dl k →
      inOut S (ic*S.di+k.1, jc*S.dj+k.2.1, kc*S.dk+k.2.2.1, lc*S.dl+k.2.2.2) :=
    fun k hk => ⟨digit_lt hk.1 hic, digit_lt hk.2.1 hjc, digit_lt hk.2.2.1 hkc, digit_lt hk.2.2.2 hlc⟩
  have hpos : ∀ k : Ix4, out + off + pos4 ni nj nk k =
      out + pos4 ni nj nk (ic*S.di+k.1, jc*S.dj+k.2.1, kc*S.dk+k.2.2.1, lc*S.dl+k.2.2.2) := by
    intro k
    rw [hoff, Ptr.add_assoc]
    unfold pos4
    congr 1; ring
  rw [wp_mbind, hp]
  refine wp_mono (wp_allocMono (T.step _ hblk h hok)) ?_
  rintro tmp h1 ⟨⟨hY, hA, hI, hsep⟩, hM⟩
  have hok1 := T.keep h h1 hok (hA.mono (fun q => Or.inl)) hM.D hI
  rw [wp_mbind]
  refine wp_mono (hcp (out + off) tmp (fun k => Y (((lc*S.kc+kc)*S.jc+jc)*S.ic+ic) (posIklj S.di S.dk S.dl k))
    ?_ h1 ?_) ?_
  · intro k k' hk hk' e
    rw [hpos] at e
    exact hsep _ (radix4_lt hk.1 hk.2.1 hk.2.2.1 hk.2.2.2) ⟨_, hin k' hk', e⟩
  · intro k hk
    refine ⟨hY _ (radix4_lt hk.1 hk.2.1 hk.2.2.1 hk.2.2.2), ?_⟩
    dsimp only
    rw [hpos]
    exact hal h1 hok1 _ (hin k hk)
  · rintro _ h2 ⟨_, H⟩
    rw [wp_pure]
    refine ⟨rfl, Wr.pre hA hM.D hI (H.reindex ?_ ?_)⟩
    · rintro ⟨I, J, K, L⟩ ⟨⟨⟨⟨hk, hl⟩, hk3⟩, hj⟩, hi⟩
      obtain ⟨i, hi1, rfl⟩ := digit_exists hS.di hi
      obtain ⟨j, hj1, rfl⟩ := digit_exists hS.dj hj
      obtain ⟨k, hk1, rfl⟩ := digit_exists hS.dk hk3
      obtain ⟨l, hl1, rfl⟩ := digit_exists hS.dl hl
      refine ⟨(i,j,k,l), ⟨hi1, hj1, hk1, hl1⟩, hpos _, ?_⟩
      unfold blkNo cellNo
      simp only [(digit hi1).1, (digit hi1).2, (digit hj1).1, (digit hj1).2, (digit hk1).1, (digit hk1).2,
        (digit hl1).1, (digit hl1).2]
    · rintro k hk
      refine ⟨_, ⟨⟨⟨⟨hin k hk, ?_⟩, ?_⟩, ?_⟩, ?_⟩, hpos k⟩
      · exact (digit hk.2.2.2).1
      · exact (digit hk.2.2.1).1
      · exact (digit hk.2.1).1
      · exact (digit hk.1).1

/-- the setting of the four-index output stage -/
structure Setup4 (S : Shape) (trans : Ptr → Prog α Ptr) (cp : Ptr → Ptr → Prog α Unit) (gctr out : Ptr) (nf : Nat)
    (Y : Nat → Nat → α) (W : Ptr → Prop) (ok : Heap α → Prop) (ni nj nk : Nat) : Prop where
  pos : ShapePos S
  hni : S.di*S.ic ≤ ni
  hnj : S.dj*S.jc ≤ nj
  hnk : S.dk*S.kc ≤ nk
  T : TransOK trans gctr nf (S.lc*S.kc*S.jc*S.ic) (S.di*S.dj*S.dk*S.dl) Y W
      (fun q => ∃ k, inOut S k ∧ q = out + pos4 ni nj nk k) ok
  hal : ∀ h, ok h → ∀ k, inOut S k → h.D (out + pos4 ni nj nk k) ≠ .oob
  hcp : CpOK S ni nj nk cp

section
variable {S : Shape} {trans : Ptr → Prog α Ptr} {cp : Ptr → Ptr → Prog α Unit} {gctr out : Ptr} {nf : Nat}
    {Y : Nat → Nat → α} {W : Ptr → Prop} {ok : Heap α → Prop} {ni nj nk : Nat}

theorem Setup4.inj (H : Setup4 S trans cp gctr out nf Y W ok ni nj nk) {k k' : Ix4} (hk : inOut S k)
    (hk' : inOut S k') (e : out + pos4 ni nj nk k = out + pos4 ni nj nk k') : k = k' := by
  obtain ⟨a1, a2, a3, a4⟩ := hk
  obtain ⟨b1, b2, b3, b4⟩ := hk'
  have := H.hni
  have := H.hnj
  have := H.hnk
  exact pos4_inj (by omega) (by omega) (by omega) (by omega) (by omega) (by omega)
    ((Ptr.add_right_inj _ _ _).1 e)

theorem Setup4.stable (H : Setup4 S trans cp gctr out nf Y W ok ni nj nk) {P : Ix4 → Prop}
    (hP : ∀ k, P k → inOut S k) (v : Ix4 → α) :
    Stable W ok P (fun k => out + pos4 ni nj nk k) v := by
  intro h h' P' hP' hok HW
  exact H.T.keep h h' hok (HW.agree.mono (fun q hq => by
    rcases hq with hq | ⟨k, hk, e⟩
    · exact Or.inl hq
    · exact Or.inr ⟨k, hP k (hP' k hk), e⟩)) HW.alloc HW.int

/-- the loops over the contractions of the first two indices -/
theorem blocks2 (H : Setup4 S trans cp gctr out nf Y W ok ni nj nk) {kc lc : Nat} (hkc : kc < S.kc) (hlc : lc < S.lc)
    {off : Nat → Nat → Nat}
    (hoff : ∀ ic jc, ic < S.ic → jc < S.jc →
      off ic jc = pos4 ni nj nk (ic*S.di, jc*S.dj, kc*S.dk, lc*S.dl)) :
    Writes W ok (forS S.jc (gctr + ((lc*S.kc+kc)*S.jc)*(S.ic*nf)) fun jc gctr =>
      forS S.ic gctr fun ic gctr => do
        let tmp1 ← trans gctr
        cp (out + off ic jc) tmp1
        pure (gctr + nf)) (· = gctr + ((lc*S.kc+kc)*S.jc+S.jc)*(S.ic*nf))
      (fun k => (inOut S k ∧ k.2.2.2/S.dl = lc) ∧ k.2.2.1/S.dk = kc)
      (fun k => out + pos4 ni nj nk k) (fun k => Y (blkNo S k) (cellNo S k)) := by
  have hWP : ∀ k, inOut S k → ¬ W (out + pos4 ni nj nk k) := fun k hk hw => H.T.sep _ hw ⟨k, hk, rfl⟩
  have hinj : ∀ k k', inOut S k → inOut S k' → out + pos4 ni nj nk k = out + pos4 ni nj nk k' →
      Y (blkNo S k) (cellNo S k) = Y (blkNo S k') (cellNo S k') :=
    fun k k' a b e => by rw [H.inj a b e]
  refine (Writes.forS (s := fun jc => gctr + ((lc*S.kc+kc)*S.jc+jc)*(S.ic*nf))
      (P := fun k => (inOut S k ∧ k.2.2.2/S.dl = lc) ∧ k.2.2.1/S.dk = kc) (d := fun k => k.2.1/S.dj)
      (H.stable (fun k hk => hk.1.1) _) (fun k hk => hWP k hk.1.1) (fun k k' a b => hinj k k' a.1.1 b.1.1) ?_).congr
      ?_ (fun _ _ => rfl)
  · intro jc hjc
    have e2 : gctr + ((lc*S.kc+kc)*S.jc+jc)*(S.ic*nf) = gctr + (((lc*S.kc+kc)*S.jc+jc)*S.ic+0)*nf := by
      congr 1; ring
    rw [e2]
    refine ((Writes.forS (s := fun ic => gctr + (((lc*S.kc+kc)*S.jc+jc)*S.ic+ic)*nf)
      (P := fun k => ((inOut S k ∧ k.2.2.2/S.dl = lc) ∧ k.2.2.1/S.dk = kc) ∧ k.2.1/S.dj = jc)
      (d := fun k => k.1/S.di)
      (H.stable (fun k hk => hk.1.1.1) _) (fun k hk => hWP k hk.1.1.1)
      (fun k k' a b => hinj k k' a.1.1.1 b.1.1.1) ?_).weaken
      (fun _ x => x) ?_ (fun _ x => x)).congr ?_ (fun _ _ => rfl)
    · intro ic hic
      refine (block4 H.pos H.T (Nat.le_refl _) H.hal hic hjc hkc hlc H.hcp rfl
        (hoff ic jc hic hjc)).weaken (fun _ x => x) ?_ (fun _ x => x)
      rintro a rfl
      rw [Ptr.add_assoc]; congr 1; ring
    · rintro a rfl
      congr 1; ring
    · rintro k
      constructor
      · intro hk; exact ⟨hk, Nat.div_lt_of_lt_mul hk.1.1.1.1⟩
      · intro hk; exact hk.1
  · rintro k
    constructor
    · intro hk; exact ⟨hk, Nat.div_lt_of_lt_mul hk.1.1.2.1⟩
    · intro hk; exact hk.1

/-- the loops over the contractions of the first three indices, for given `lc` -/
theorem blocks3 (H : Setup4 S trans cp gctr out nf Y W ok ni nj nk) {lc : Nat} (hlc : lc < S.lc)
    {off : Nat → Nat → Nat → Nat}
    (hoff : ∀ ic jc kc, ic < S.ic → jc < S.jc → kc < S.kc →
      off ic jc kc = pos4 ni nj nk (ic*S.di, jc*S.dj, kc*S.dk, lc*S.dl)) :
    Writes W ok (forS S.kc (gctr + (lc*S.kc)*(S.jc*S.ic*nf)) fun kc gctr =>
      forS S.jc gctr fun jc gctr =>
      forS S.ic gctr fun ic gctr => do
        let tmp1 ← trans gctr
        cp (out + off ic jc kc) tmp1
        pure (gctr + nf)) (· = gctr + (lc*S.kc+S.kc)*(S.jc*S.ic*nf))
      (fun k => inOut S k ∧ k.2.2.2/S.dl = lc)
      (fun k => out + pos4 ni nj nk k) (fun k => Y (blkNo S k) (cellNo S k)) := by
  refine (Writes.forS (s := fun kc => gctr + (lc*S.kc+kc)*(S.jc*S.ic*nf))
    (P := fun k => inOut S k ∧ k.2.2.2/S.dl = lc) (d := fun k => k.2.2.1/S.dk)
    (H.stable (fun k hk => hk.1) _) (fun k hk hw => H.T.sep _ hw ⟨k, hk.1, rfl⟩)
    (fun k k' a b e => by rw [H.inj a.1 b.1 e]) ?_).congr ?_
    (fun _ _ => rfl)
  · intro kc hkc
    have e1 : gctr + (lc*S.kc+kc)*(S.jc*S.ic*nf) = gctr + ((lc*S.kc+kc)*S.jc)*(S.ic*nf) := by
      congr 1; ring
    rw [e1]
    refine (blocks2 H hkc hlc (fun ic jc a b => hoff ic jc kc a b hkc)).weaken (fun _ x => x) ?_ (fun _ x => x)
    rintro a rfl
    congr 1; ring
  · rintro k
    constructor
    · intro hk; exact ⟨hk, Nat.div_lt_of_lt_mul hk.1.2.2.1⟩
    · intro hk; exact hk.1

/-- c2s_cart_1e, c2s_sph_1e -/
theorem c2s1e_writes {dims : Ptr} {nj0 : Int}
    (H : Setup4 S trans (fun o t => dcopyIj o t ni S.di S.dj) gctr out S.nf Y W ok ni nj nk)
    (hk : S.kc = 1) (hl : S.lc = 1) (hdk : S.dk = 1) (hdl : S.dl = 1)
    (hdim : ∀ h, ok h → h.I dims = .val ni ∧ h.I (dims+1) = .val nj0) :
    Writes W ok (c2s1e S trans out gctr dims) (fun _ => True) (inOut S)
      (fun k => out + pos4 ni nj nk k) (fun k => Y (blkNo S k) (cellNo S k)) := by
  intro h hok
  obtain ⟨d0, d1⟩ := hdim h hok
  unfold c2s1e
  simp only [wp_mbind, wp_ldI]
  refine ⟨_, d0, _, d1, ?_⟩
  simp only [Int.toNat_natCast]
  have key := blocks2 H (lc := 0) (kc := 0) (by omega) (by omega)
    (off := fun ic jc => ni*S.dj*jc + S.di*ic)
    (fun ic jc _ _ => by unfold pos4; simp only [Nat.zero_mul]; ring) h hok
  simp only [Nat.zero_mul, Nat.add_zero, Ptr.add_zero] at key
  refine wp_mono key ?_
  rintro _ h' ⟨_, HW⟩
  rw [wp_pure]
  refine ⟨True.intro, HW.congr (fun k => ⟨fun hk' => ⟨⟨hk', ?_⟩, ?_⟩, fun hk' => hk'.1.1⟩) (fun _ _ => rfl)⟩
  · have := hk'.2.2.2
    rw [hl, hdl] at this
    rw [hdl]; omega
  · have := hk'.2.2.1
    rw [hk, hdk] at this
    rw [hdk]; omega

/-- c2s_cart_2e1, c2s_sph_2e1 -/
theorem c2s2e1_writes {dims : Ptr} {nl : Int}
    (H : Setup4 S trans (fun o t => dcopyIklj o t ni nj nk S.di S.dj S.dk S.dl) gctr out S.nf Y W ok ni nj nk)
    (hdim : ∀ h, ok h → h.I dims = .val ni ∧ h.I (dims+1) = .val nj ∧ h.I (dims+2) = .val nk ∧
      h.I (dims+3) = .val nl) :
    Writes W ok (c2s2e1 S trans out gctr dims) (fun _ => True) (inOut S)
      (fun k => out + pos4 ni nj nk k) (fun k => Y (blkNo S k) (cellNo S k)) := by
  intro h hok
  obtain ⟨d0, d1, d2, d3⟩ := hdim h hok
  unfold c2s2e1
  simp only [wp_mbind, wp_ldI]
  refine ⟨_, d0, _, d1, _, d2, _, d3, ?_⟩
  have key := Writes.forS (s := fun lc => gctr + lc*S.kc*(S.jc*S.ic*S.nf)) (n := S.lc)
    (f := fun lc gctr => forS S.kc gctr fun kc gctr =>
      forS S.jc gctr fun jc gctr =>
      forS S.ic gctr fun ic gctr => do
        let tmp1 ← trans gctr
        let pfijkl := out + ((ni:Int).toNat * (nj:Int).toNat * (nk:Int).toNat * S.dl * lc
          + (ni:Int).toNat * (nj:Int).toNat * S.dk * kc + (ni:Int).toNat * S.dj * jc + S.di * ic)
        dcopyIklj pfijkl tmp1 (ni:Int).toNat (nj:Int).toNat (nk:Int).toNat S.di S.dj S.dk S.dl
        pure (gctr + S.nf))
    (P := inOut S) (d := fun k => k.2.2.2/S.dl) (W := W) (ok := ok)
    (v := fun k => Y (blkNo S k) (cellNo S k))
    (H.stable (fun k hk => hk) _) (fun k hk hw => H.T.sep _ hw ⟨k, hk, rfl⟩)
    (fun k k' a b e => by rw [H.inj a b e]) ?_ h hok
  · simp only [Nat.zero_mul, Ptr.add_zero] at key
    refine wp_mono key ?_
    rintro _ h' ⟨_, HW⟩
    rw [wp_pure]
    refine ⟨True.intro, HW.congr (fun k => ⟨fun hk => ⟨hk, Nat.div_lt_of_lt_mul hk.2.2.2⟩, fun hk => hk.1⟩)
      (fun _ _ => rfl)⟩
  · intro lc hlc
    simp only [Int.toNat_natCast]
    refine (blocks3 H hlc (off := fun ic jc kc => ni*nj*nk*S.dl*lc + ni*nj*S.dk*kc + ni*S.dj*jc + S.di*ic)
      ?_).weaken (fun _ x => x) ?_ (fun _ x => x)
    · intro ic jc kc _ _ _
      unfold pos4; ring
    · rintro a rfl
      congr 1; ring

/-- c2s_cart_3c2e1, c2s_sph_3c2e1, c2s_cart_3c1e, c2s_sph_3c1e -/
theorem c2s3c_writes {dims : Ptr}
    (H : Setup4 S trans (fun o t => dcopyIklj o t ni nj nk S.di S.dj S.dk S.dl) gctr out S.nf Y W ok ni nj nk) (hl : S.lc = 1) (hdl : S.dl = 1)
    (hdim : ∀ h, ok h → h.I dims = .val ni ∧ h.I (dims+1) = .val nj ∧ h.I (dims+2) = .val nk) :
    Writes W ok (c2s3c S trans out gctr dims) (fun _ => True) (inOut S)
      (fun k => out + pos4 ni nj nk k) (fun k => Y (blkNo S k) (cellNo S k)) := by
  intro h hok
  obtain ⟨d0, d1, d2⟩ := hdim h hok
  unfold c2s3c
  simp only [wp_mbind, wp_ldI]
  refine ⟨_, d0, _, d1, _, d2, ?_⟩
  simp only [Int.toNat_natCast]
  have key := blocks3 H (lc := 0) (by omega)
    (off := fun ic jc kc => ni*nj*S.dk*kc + ni*S.dj*jc + S.di*ic)
    (fun ic jc kc _ _ _ => by unfold pos4; simp only [Nat.zero_mul]; ring) h hok
  simp only [Nat.zero_mul, Ptr.add_zero, hdl] at key
  refine wp_mono key ?_
  rintro _ h' ⟨_, HW⟩
  rw [wp_pure]
  refine ⟨True.intro, HW.congr (fun k => ⟨fun hk => ⟨hk, ?_⟩, fun hk => hk.1⟩) (fun _ _ => rfl)⟩
  have := hk.2.2.2
  rw [hl, hdl] at this
  omega

end

end Verif.Lemmas
