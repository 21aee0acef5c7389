import Verif.Model.Ssc
import Verif.Props.Sph

/-! C20: int3c2e_sph_ssc. -/
namespace Verif.Props
open Verif Verif.Model Verif.Prog Verif.Spec Verif.Lemmas

variable {α : Type} [Field α]

/-- the shape of the block: spherical, spherical, Cartesian -/
def sscN (l : Nat → Nat) (t : Nat) : Nat := if t = 2 then ncart (l 2) else l t * 2 + 1

/-- length of a Cartesian block -/
def sscLen (l : Nat → Nat) : Nat := ncart (l 0) * ncart (l 1) * ncart (l 2)

/-- number of doubles of the output block the property speaks about -/
def sscSize (l nctr : Nat → Nat) : Nat := (sscN l 0 * nctr 0) * (sscN l 1 * nctr 1) * (sscN l 2 * nctr 2)

/-- What a call of int3c2e_sph_ssc has after its primitive loops, except for the output array. -/
structure SscMem (l nctr : Nat → Nat) (dims : Option Ptr) (gctr counts tab out : Ptr)
    (fpd buf o size : Nat) (X : Nat → α) (h : Heap α) : Prop where
  h_fpd : 0 < fpd
  h_l : ∀ t, t < 3 → l t ≤ 15
  h_nctr : ∀ t, t < 3 → 0 < nctr t
  h_dims : ∃ nd, DimsArg 3 h dims counts nd (fun t => if t = 3 then 1 else ncart (l t) * nctr t)
  h_counts : ∀ t, t < 4 → h.I (counts + t) ≠ .oob
  h_tab : HoldsTab h tab
  h_gctr : HoldsD h gctr (sscLen l * (nctr 0*nctr 1*nctr 2)) X
  h_gbuf : gctr.buf = buf
  h_used : gctr.off + sscLen l * (nctr 0*nctr 1*nctr 2) ≤ o
  h_free : o + sscLen l * 3 ≤ size
  h_cache : ∀ k, k < size → h.D ⟨buf, k⟩ ≠ .oob
  h_tbuf : tab.buf ≠ buf
  h_obuf : out.buf ≠ buf ∧ out.buf ≠ tab.buf

open Finset in
/-- The value of element `(ic,i),(jc,j),(kc,k)`: the first two indices transformed. -/
def sscOf (l nctr : Nat → Nat) (X : Nat → α) (ic jc kc i j k : Nat) : α :=
  ∑ a ∈ range (ncart (l 0)), ∑ b ∈ range (ncart (l 1)), c2sCoef (l 0) i a * c2sCoef (l 1) j b *
    X (((kc*nctr 1 + jc)*nctr 0 + ic)*sscLen l + ((b*ncart (l 2) + k)*ncart (l 0) + a))

/-! ### What is stored -/

theorem ssc_val {li lj nk : Nat} (X : Nat → α) {i j k : Nat} (hi : i < li*2+1) (hk : k < nk) :
    braV li (ketV lj (ncart li * nk) X) ((j*nk+k)*(li*2+1)+i) =
      ∑ a ∈ Finset.range (ncart li), ∑ b ∈ Finset.range (ncart lj), c2sCoef li i a * c2sCoef lj j b *
        X ((b*nk + k)*ncart li + a) := by
  unfold braV
  rw [(digit hi).1, (digit hi).2]
  unfold sphV
  refine Finset.sum_congr rfl fun a ha => ?_
  have ha' := Finset.mem_range.1 ha
  have e : (j*nk + k)*ncart li + a = j*(ncart li * nk) + (k*ncart li + a) := by ring
  unfold ketV sphV
  beta_reduce
  rw [e, (digit (digit_lt ha' hk)).1, (digit (digit_lt ha' hk)).2, Finset.mul_sum]
  refine Finset.sum_congr rfl fun b _ => ?_
  have e2 : b*(ncart li * nk) + (k*ncart li + a) = (b*nk + k)*ncart li + a := by ring
  rw [e2]
  ring

theorem sscTrans_wp {h : Heap α} {tab gctr : Ptr} {buf o size fpd : Nat} {X : Nat → α} {li lj lk : Nat}
    (hf : 0 < fpd) (hli : li < 16) (hlj : lj < 16) (hb : tab.buf ≠ buf)
    (S : Stg h tab buf o size h gctr (ncart li * ncart lk * ncart lj) X o)
    (hs : o + ncart li * ncart lk * (lj*2+1) * 2 ≤ size) :
    wp (sscTrans tab fpd li lj lk buf (fpd*o) gctr) (fun r h' =>
      Stg h tab buf o size h' r ((li*2+1)*(ncart lk*(lj*2+1)))
        (braV li (ketV lj (ncart li * ncart lk) X)) size) h := by
  unfold sscTrans
  dsimp only
  rw [mallocD_eq hf, mallocD_eq hf]
  have hi := nd_le_ncart li
  have hij : (li*2+1)*(ncart lk*(lj*2+1)) ≤ ncart li * ncart lk * (lj*2+1) := by
    rw [Nat.mul_assoc]; exact Nat.mul_le_mul_right _ hi
  simp only [lenCart_eq]
  rw [wp_mbind]
  refine wp_mono (Stg.ket (nbra := ncart li * ncart lk) S hlj hb (le_refl _) (by omega) (nd_le_ncart lj)) ?_
  intro r1 h1 S1
  refine wp_mono (Stg.bra (nket := ncart lk * (lj*2+1)) (S1.cast (by ring)) hli hb (by omega) (by omega) hi) ?_
  intro r2 h2 S2
  exact S2.mono (top' := size) (by omega)

/-- the shape in terms of the output stage lemmas -/
def sscShape (l nctr : Nat → Nat) : Shape where
  ic := nctr 0
  jc := nctr 1
  kc := nctr 2
  lc := 1
  di := sscN l 0
  dj := sscN l 1
  dk := sscN l 2
  dl := 1
  nf := sscLen l

theorem ssc_transOK {l nctr : Nat → Nat} {dims : Option Ptr} {gctr counts tab out : Ptr} {fpd buf o size : Nat}
    {X : Nat → α} {h : Heap α} (H : SscMem l nctr dims gctr counts tab out fpd buf o size X h) :
    TransOK (sscTrans tab fpd (l 0) (l 1) (l 2) buf (fpd*o)) gctr (sscLen l) (1*nctr 2*nctr 1*nctr 0)
      (sscN l 0*sscN l 1*sscN l 2*1)
      (fun b x => braV (l 0) (ketV (l 1) (ncart (l 0) * ncart (l 2)) fun y => X (b*sscLen l + y)) x)
      (fun q => q.buf = buf ∧ o ≤ q.off)
      (fun q => q.buf = out.buf)
      (fun h' => HoldsTab h' tab ∧ HoldsD h' gctr (sscLen l * (nctr 0*nctr 1*nctr 2)) X ∧
        ∀ k, k < size → h'.D ⟨buf, k⟩ ≠ .oob) := by
  have hp : 0 < sscLen l := Nat.mul_pos (Nat.mul_pos (ncart_pos _) (ncart_pos _)) (ncart_pos _)
  have hb : ∀ b m, b < 1*nctr 2*nctr 1*nctr 0 → m < sscLen l → b*sscLen l + m < sscLen l * (nctr 0*nctr 1*nctr 2) := by
    intro b m hb hm
    refine digit_lt hm ?_
    have e : 1*nctr 2*nctr 1*nctr 0 = nctr 0*nctr 1*nctr 2 := by ring
    omega
  refine ⟨fun b hb' h' hok => ?_, fun h1 h2 hok hA hM _ => ?_, fun q hw ho => ?_⟩
  · have S : Stg h' tab buf o size h' (gctr + b*sscLen l) (ncart (l 0) * ncart (l 2) * ncart (l 1))
        (fun y => X (b*sscLen l + y)) o := by
      have e : ncart (l 0) * ncart (l 2) * ncart (l 1) = sscLen l := by unfold sscLen; ring
      rw [e]
      refine ⟨hok.1, fun m hm => ?_, H.h_gbuf, ?_, AgreeD.refl _ _, rfl, hok.2.2⟩
      · rw [← hok.2.1 _ (hb b m hb' hm), Ptr.add_assoc]
      · have h1 := hb b (sscLen l - 1) hb' (by omega)
        have h2 := H.h_used
        show gctr.off + b*sscLen l + sscLen l ≤ o
        omega
    have hfree : o + ncart (l 0) * ncart (l 2) * (l 1*2+1) * 2 ≤ size := by
      have h1 := H.h_free
      have h2 : ncart (l 0) * ncart (l 2) * (l 1*2+1) ≤ ncart (l 0) * ncart (l 2) * ncart (l 1) :=
        Nat.mul_le_mul_left _ (nd_le_ncart _)
      have e : ncart (l 0) * ncart (l 2) * ncart (l 1) = sscLen l := by unfold sscLen; ring
      omega
    have := H.h_l 0 (by omega)
    have := H.h_l 1 (by omega)
    refine wp_mono (sscTrans_wp H.h_fpd (by omega) (by omega) H.h_tbuf S hfree) ?_
    intro tmp h2 S2
    refine ⟨fun x hx => S2.val x ?_, S2.agree, S2.int, fun m _ e => ?_⟩
    · have e : sscN l 0*sscN l 1*sscN l 2*1 = (l 0*2+1)*(ncart (l 2)*(l 1*2+1)) := by
        unfold sscN; simp only [if_true, show (0:Nat) ≠ 2 by omega, show (1:Nat) ≠ 2 by omega, if_false]; ring
      rw [← e]; exact hx
    · exact H.h_obuf.1 (by rw [← e]; exact S2.rbuf)
  · refine ⟨holdsTab_agree hok.1 hA ?_, ?_, fun k hk => hM _ (hok.2.2 k hk)⟩
    · rintro q (⟨hw, _⟩ | hw)
      · rw [hw]; exact H.h_tbuf.symm
      · rw [hw]; exact H.h_obuf.2
    · refine hok.2.1.agree hA (fun i hi => ?_)
      rintro (⟨_, hw⟩ | hw)
      · have : o ≤ gctr.off + i := hw
        have := H.h_used
        omega
      · exact H.h_obuf.1 (by rw [← hw]; exact H.h_gbuf)
  · exact H.h_obuf.1 (by rw [← ho]; exact hw.1)

/-- C20, the part that holds: when the first shell is s or p or has one contraction, the dense block
`(2l_i+1)n_i × (2l_j+1)n_j × nf_k n_k` is written, with the first two indices transformed, and no other
double outside the cache changes.  Missing: everything else, see the next two theorems. -/
theorem C20_ssc_block_partial {l nctr : Nat → Nat} {dims : Option Ptr} {gctr counts tab out : Ptr}
    {fpd buf o size : Nat} {X : Nat → α} {h : Heap α}
    (H : SscMem l nctr dims gctr counts tab out fpd buf o size X h)
    (hout : ∀ m, m < sscSize l nctr → h.D (out + m) ≠ .oob)
    (hcase : l 0 ≤ 1 ∨ nctr 0 = 1) :
    ∃ h', run (sscStage true l nctr out gctr dims counts tab fpd buf o) h = some ((), h') ∧
      (∀ ic jc kc i j k, ic < nctr 0 → jc < nctr 1 → kc < nctr 2 → i < sscN l 0 → j < sscN l 1 → k < sscN l 2 →
        h'.D (out + (((kc*sscN l 2+k)*(sscN l 1*nctr 1) + (jc*sscN l 1+j))*(sscN l 0*nctr 0) + (ic*sscN l 0+i))) =
          .val (sscOf l nctr X ic jc kc i j k)) ∧
      (∀ q, q.buf ≠ buf → (∀ m, m < sscSize l nctr → q ≠ out + m) → h'.D q = h.D q) := by
  obtain ⟨nd, hd⟩ := H.h_dims
  refine (wp_iff_run _ (fun _ h' => _) _).1 ?_ |>.elim (fun _ hx => hx.elim fun h' hh => ⟨h', hh⟩)
  unfold sscStage outStage
  dsimp only
  rw [wp_mbind]
  refine counts_wp H.h_counts ?_
  intro h1 e1 c1 f1
  have hdm := dims_in_effect (by omega) hd c1 f1
  rw [wp_mbind]
  refine prodDims_wp hdm ?_
  rw [if_pos rfl]
  have hn0 := H.h_nctr 0 (by omega)
  have hn1 := H.h_nctr 1 (by omega)
  have hn2 := H.h_nctr 2 (by omega)
  have p0 : 0 < sscN l 0 := by unfold sscN; simp
  have p1 : 0 < sscN l 1 := by unfold sscN; simp
  have p2 : 0 < sscN l 2 := by unfold sscN; rw [if_pos rfl]; exact ncart_pos _
  let ok : Heap α → Prop := fun h' => (HoldsTab h' tab ∧ HoldsD h' gctr (sscLen l * (nctr 0*nctr 1*nctr 2)) X ∧
        ∀ k, k < size → h'.D ⟨buf, k⟩ ≠ .oob) ∧ ∀ m, m < sscSize l nctr → h'.D (out + m) ≠ .oob
  have hlt : ∀ k, inOut (sscShape l nctr) k → pos4 (sscN l 0*nctr 0) (sscN l 1*nctr 1) (sscN l 2*nctr 2) k < sscSize l nctr := by
    rintro k ⟨a, b, c, d⟩
    have := pos4_lt (nl := 1) a b c (by have : k.2.2.2 < 1*1 := d; omega)
    rw [Nat.mul_one] at this
    exact this
  have T := ssc_transOK H
  have T' : TransOK (sscTrans tab fpd (l 0) (l 1) (l 2) buf (fpd*o)) gctr (sscLen l) (1*nctr 2*nctr 1*nctr 0)
      (sscN l 0*sscN l 1*sscN l 2*1)
      (fun b x => braV (l 0) (ketV (l 1) (ncart (l 0) * ncart (l 2)) fun y => X (b*sscLen l + y)) x)
      (fun q => q.buf = buf ∧ o ≤ q.off)
      (fun q => ∃ k, inOut (sscShape l nctr) k ∧
        q = out + pos4 (sscN l 0*nctr 0) (sscN l 1*nctr 1) (sscN l 2*nctr 2) k) ok := by
    have hsub : ∀ q, (∃ k, inOut (sscShape l nctr) k ∧
        q = out + pos4 (sscN l 0*nctr 0) (sscN l 1*nctr 1) (sscN l 2*nctr 2) k) → q.buf = out.buf := by
      rintro q ⟨k, _, rfl⟩; rfl
    refine ⟨fun b hb h' hok' => ?_, fun h2 h3 hok2 hA hM hI => ?_, fun q hw ho => T.sep q hw (hsub q ho)⟩
    · refine wp_mono (T.step b hb h' hok'.1) ?_
      rintro tmp h2 ⟨a, b, c, d⟩
      exact ⟨a, b, c, fun m hm x => d m hm (hsub _ x)⟩
    · exact ⟨T.keep h2 h3 hok2.1 (hA.mono (fun q hq => hq.imp (fun x => x) (hsub q))) hM hI,
        fun m hm => hM _ (hok2.2 m hm)⟩
  have Set : Setup4 (sscShape l nctr) (sscTrans tab fpd (l 0) (l 1) (l 2) buf (fpd*o))
      (fun o t => dcopyIklj o t (sscN l 0*nctr 0) (sscN l 1*nctr 1) (sscN l 2*nctr 2) (sscN l 0) (sscN l 1) (sscN l 2) 1)
      gctr out (sscLen l) (fun b x => braV (l 0) (ketV (l 1) (ncart (l 0) * ncart (l 2)) fun y => X (b*sscLen l + y)) x)
      (fun q => q.buf = buf ∧ o ≤ q.off) ok (sscN l 0*nctr 0) (sscN l 1*nctr 1) (sscN l 2*nctr 2) :=
    ⟨⟨p0, p1, p2, Nat.one_pos⟩, le_refl _, le_refl _, le_refl _, T', fun h' hok' k hk => hok'.2 _ (hlt k hk),
      cpOK_iklj (S := sscShape l nctr) (Nat.le_mul_of_pos_right _ hn0) (Nat.le_mul_of_pos_right _ hn1)
        (Nat.le_mul_of_pos_right _ hn2)⟩
  have hoff : ∀ ic, ic < nctr 0 → ncart (l 0) * ic = sscN l 0 * ic := by
    intro ic hic
    rcases hcase with hc | hc
    · congr 1
      unfold sscN
      rw [if_neg (by omega)]
      obtain hc | hc : l 0 = 0 ∨ l 0 = 1 := by omega
      all_goals rw [hc]; rfl
    · rw [hc] at hic
      obtain rfl : ic = 0 := by omega
      simp
  have key := blocks3 Set (lc := 0) Nat.one_pos
    (off := fun ic jc kc => sscN l 0*nctr 0*(sscN l 1*nctr 1)*sscN l 2*kc + sscN l 0*nctr 0*sscN l 1*jc + ncart (l 0)*ic)
    (fun ic jc kc hic _ _ => by
      rw [hoff ic hic]
      show _ = pos4 _ _ _ (ic*sscN l 0, jc*sscN l 1, kc*sscN l 2, 0*1)
      unfold pos4; simp only [Nat.zero_mul]; ring) h1
    ⟨⟨fun l hl x hx => by rw [e1]; exact H.h_tab l hl x hx, fun i hi => by rw [e1]; exact H.h_gctr i hi,
      fun k hk => by rw [e1]; exact H.h_cache k hk⟩, fun m hm => by rw [e1]; exact hout m hm⟩
  simp only [Nat.zero_mul, Ptr.add_zero] at key
  rw [forN, forS, forS]
  refine (wp_bind _ _ _ _).2 ?_
  show wp (c2s3cSsc _ _ _ _ _ _ _ _ _ _ _) _ h1
  unfold c2s3cSsc
  rw [wp_mbind]
  rw [Nat.mul_zero, Nat.mul_zero, Ptr.add_zero, Ptr.add_zero]
  refine wp_mono key ?_
  rintro _ h' ⟨_, HW⟩
  rw [wp_pure]
  refine ⟨?_, fun q hb hq => ?_⟩
  · intro ic jc kc i j k hic hjc hkc hi hj hk
    have hin : inOut (sscShape l nctr) (ic*sscN l 0+i, jc*sscN l 1+j, kc*sscN l 2+k, 0) :=
      ⟨digit_lt hi hic, digit_lt hj hjc, digit_lt hk hkc, by show 0 < 1*1; omega⟩
    have v := HW.val _ ⟨hin, by show 0 / 1 = 0; rfl⟩
    unfold pos4 at v
    simp only [Nat.zero_mul, Nat.zero_add] at v
    rw [v]
    congr 1
    unfold blkNo cellNo posIklj sscShape
    simp only [(digit hi).1, (digit hi).2, (digit hj).1, (digit hj).2, (digit hk).1, (digit hk).2,
      Nat.zero_div, Nat.zero_mod, Nat.mul_one, Nat.zero_add, Nat.add_zero, Nat.zero_mul]
    have hk' : k < ncart (l 2) := by have := hk; unfold sscN at this; rwa [if_pos rfl] at this
    have hi' : i < l 0 * 2 + 1 := hi
    have e0 : sscN l 0 = l 0 * 2 + 1 := rfl
    have e2 : sscN l 2 = ncart (l 2) := rfl
    rw [e0, e2, ssc_val (fun y => X (((kc * nctr 1 + jc) * nctr 0 + ic) * sscLen l + y)) hi' hk']
    rfl
  · rw [HW.frame q (fun x => hb x.1) (fun k hk e => hq _ (hlt k hk.1) e), e1]

/-! ### What goes wrong otherwise -/

/-- every run of `p` stores to `q` -/
def MustStore {A : Type} (p : Prog α A) (q : Ptr) : Prop := ∀ h, h.D q = .oob → run p h = none

theorem run_oob {A : Type} {p : Prog α A} {h h' : Heap α} {a : A} (e : run p h = some (a, h')) {q : Ptr}
    (hq : h.D q = .oob) : h'.D q = .oob := by
  induction p generalizing h with
  | ret a => simp only [run, Option.some.injEq, Prod.mk.injEq] at e; rw [← e.2]; exact hq
  | fail => simp [run] at e
  | rdD p k ih => simp only [run] at e; split at e; exacts [ih _ e hq, by simp at e]
  | wrD p v k ih =>
    simp only [run] at e
    split at e
    · simp at e
    · rename_i hne
      refine ih e ?_
      rw [Heap.setD_D_ne _ _ (fun x => hne (by rw [← x]; exact hq))]; exact hq
  | rdI p k ih => simp only [run] at e; split at e; exacts [ih _ e hq, by simp at e]
  | wrI p v k ih => simp only [run] at e; split at e; exacts [by simp at e, ih e hq]

theorem mustStore_iff {A : Type} {p : Prog α A} {q : Ptr} :
    MustStore p q ↔ ∀ h (Q : A → Heap α → Prop), h.D q = .oob → ¬ wp p Q h := by
  constructor
  · intro H h Q hq hw
    obtain ⟨a, h', e, _⟩ := (wp_iff_run _ _ _).1 hw
    rw [H h hq] at e
    cases e
  · intro H h hq
    by_contra hn
    obtain ⟨⟨a, h'⟩, e⟩ := Option.ne_none_iff_exists'.1 hn
    exact H h (fun _ _ => True) hq ((wp_iff_run _ _ _).2 ⟨a, h', e, True.intro⟩)

theorem mustStore_bind_left {A B : Type} {p : Prog α A} {f : A → Prog α B} {q : Ptr} (H : MustStore p q) :
    MustStore (p >>= f) q :=
  mustStore_iff.2 fun h Q hq hw => mustStore_iff.1 H h _ hq ((wp_mbind _ _ _ _).1 hw)

theorem mustStore_bind_right {A B : Type} {p : Prog α A} {f : A → Prog α B} {q : Ptr} (H : ∀ a, MustStore (f a) q) :
    MustStore (p >>= f) q := by
  refine mustStore_iff.2 fun h Q hq hw => ?_
  obtain ⟨a, h', e, hw'⟩ := (wp_iff_run _ _ _).1 ((wp_mbind _ _ _ _).1 hw)
  exact mustStore_iff.1 (H a) h' Q (run_oob e hq) hw'

theorem mustStore_forS {S : Type} {n i : Nat} {s : S} {f : Nat → S → Prog α S} {q : Ptr} (hi : i < n)
    (H : ∀ s, MustStore (f i s) q) : MustStore (forS n s f) q := by
  induction n with
  | zero => omega
  | succ n ih =>
    show MustStore (forS n s f >>= fun s' => f n s') q
    by_cases e : i = n
    · subst e; exact mustStore_bind_right H
    · exact mustStore_bind_left (ih (by omega))

theorem mustStore_forN {n i : Nat} {f : Nat → Prog α Unit} {q : Ptr} (hi : i < n)
    (H : MustStore (f i) q) : MustStore (forN n f) q := mustStore_forS hi (fun _ => H)

theorem mustStore_cpy {d s q : Ptr} (e : d = q) : MustStore (α := α) (cpy d s) q := by
  subst e
  exact mustStore_bind_right fun _ h hq => by simp [st, run, hq]

theorem mustStore_row {p s q : Ptr} {mi i : Nat} (hi : i < mi) (e : p + i = q) :
    MustStore (α := α) (copyRow p s mi) q := by
  refine mustStore_iff.2 fun h Q hq hw => ?_
  exact mustStore_iff.1 (mustStore_forN hi (mustStore_cpy e)) h Q hq (wp_copyRow.1 hw)

theorem mustStore_dcopyIklj {d s q : Ptr} {ni nj nk mi mj mk i j k : Nat} (hi : i < mi) (hj : j < mj) (hk : k < mk)
    (e : d + ((k*nj + j)*ni + i) = q) : MustStore (α := α) (dcopyIklj d s ni nj nk mi mj mk 1) q := by
  unfold dcopyIklj
  refine mustStore_bind_left ?_
  show MustStore (forS 0 _ _ >>= _) q
  refine mustStore_iff.2 fun h Q hq hw => ?_
  rw [wp_mbind] at hw
  have hw : wp (_ >>= _ : Prog α (Ptr × Ptr)) Q h := hw
  refine mustStore_iff.1 (mustStore_bind_left (mustStore_forN hk ?_)) h Q hq hw
  show MustStore (forN mj _) q
  refine mustStore_forN hj (mustStore_row hi ?_)
  rw [← e]
  simp only [Ptr.add_assoc]
  congr 1; ring

/-- C20 fails: when the first shell has angular momentum at least 2 and at least two contractions, every
call that has a value to return stores past the end of the block — into an array of exactly the stated
size this is undefined behaviour, whatever `dims` is. -/
theorem C20_ssc_overrun {l nctr : Nat → Nat} {dims : Option Ptr} {gctr counts tab out : Ptr}
    {fpd buf o : Nat} {h : Heap α} (hl : 2 ≤ l 0) (hn : 2 ≤ nctr 0) (hn1 : 0 < nctr 1) (hn2 : 0 < nctr 2)
    (hout : ∀ m, sscSize l nctr ≤ m → h.D (out + m) = .oob) :
    run (sscStage true l nctr out gctr dims counts tab fpd buf o) h = none := by
  have p1 : 0 < sscN l 1 := by unfold sscN; simp
  have p2 : 0 < sscN l 2 := by unfold sscN; rw [if_pos rfl]; exact ncart_pos _
  have hlt : l 0 * 2 + 1 < ncart (l 0) := by
    unfold ncart
    generalize l 0 = x at hl
    obtain ⟨y, rfl⟩ : ∃ y, x = y + 2 := ⟨x-2, by omega⟩
    rw [Nat.lt_div_iff_mul_lt (by omega)]
    have : (y+2+1)*(y+2+2) = y*y + 7*y + 12 := by ring
    have := Nat.zero_le (y*y)
    omega
  obtain ⟨a, ha⟩ : ∃ a, nctr 0 = a + 1 := ⟨nctr 0 - 1, by omega⟩
  obtain ⟨b, hb⟩ : ∃ b, nctr 1 = b + 1 := ⟨nctr 1 - 1, by omega⟩
  obtain ⟨c, hc⟩ : ∃ c, nctr 2 = c + 1 := ⟨nctr 2 - 1, by omega⟩
  obtain ⟨dj, hdj⟩ : ∃ d, sscN l 1 = d + 1 := ⟨sscN l 1 - 1, by omega⟩
  obtain ⟨dk, hdk⟩ : ∃ d, sscN l 2 = d + 1 := ⟨sscN l 2 - 1, by omega⟩
  obtain ⟨x, hx⟩ : ∃ x, ncart (l 0) = sscN l 0 + 1 + x := ⟨ncart (l 0) - (sscN l 0 + 1), by
    have : sscN l 0 = l 0 * 2 + 1 := rfl
    omega⟩
  let off := sscN l 0*nctr 0*(sscN l 1*nctr 1)*sscN l 2*c + sscN l 0*nctr 0*sscN l 1*b + ncart (l 0)*a
  let q := out + (off + ((dk*(sscN l 1*nctr 1) + dj)*(sscN l 0*nctr 0) + l 0 * 2))
  have hq : h.D q = .oob := by
    refine hout _ ?_
    have e0 : l 0 * 2 + 1 = sscN l 0 := rfl
    have : sscSize l nctr + (1+x) * a = off + ((dk*(sscN l 1*nctr 1) + dj)*(sscN l 0*nctr 0) + l 0 * 2) + 1 := by
      rw [Nat.add_assoc off, Nat.add_assoc _ (l 0 * 2), e0]
      show sscSize l nctr + _ = sscN l 0*nctr 0*(sscN l 1*nctr 1)*sscN l 2*c + sscN l 0*nctr 0*sscN l 1*b + ncart (l 0)*a + _
      unfold sscSize
      rw [ha, hb, hc, hdj, hdk, hx]
      ring
    have h1 : 1 ≤ (1+x)*a := Nat.mul_pos (by omega) (by omega)
    omega
  have key : MustStore (sscStage (α := α) true l nctr out gctr dims counts tab fpd buf o) q := by
    unfold sscStage outStage
    refine mustStore_bind_right fun _ => mustStore_bind_right fun nout => ?_
    rw [if_pos rfl]
    refine mustStore_forN (i := 0) (by omega) ?_
    rw [Nat.mul_zero, Ptr.add_zero]
    unfold c2s3cSsc
    refine mustStore_bind_left (mustStore_forS (i := c) (by omega) fun _ => mustStore_forS (i := b) (by omega) fun _ =>
      mustStore_forS (i := a) (by omega) fun _ => mustStore_bind_right fun _ => mustStore_bind_left ?_)
    refine mustStore_dcopyIklj (i := l 0 * 2) (j := dj) (k := dk) (by omega) ?_ ?_ ?_
    · have : sscN l 1 = l 1 * 2 + 1 := rfl
      omega
    · have : sscN l 2 = lenCart (l 2) := rfl
      omega
    · rw [Ptr.add_assoc]; rfl
  exact key h hq

/-- C20 fails: when the result is zero, the zero fill uses Cartesian sizes; with `dims == NULL` it stores
past the end of the block as soon as one of the first two shells has angular momentum at least 2. -/
theorem C20_ssc_zero_fill_overrun {l nctr : Nat → Nat} {gctr counts tab out : Ptr}
    {fpd buf o : Nat} {h : Heap α} (hl : 2 ≤ l 0 ∨ 2 ≤ l 1) (hn : ∀ t, t < 3 → 0 < nctr t)
    (hcnt : ∀ t, t < 4 → h.I (counts + t) ≠ .oob)
    (hout : ∀ m, sscSize l nctr ≤ m → h.D (out + m) = .oob) :
    run (sscStage false l nctr out gctr none counts tab fpd buf o) h = none := by
  have hlt : ∀ x, 2 ≤ x → x * 2 + 1 < ncart x := by
    intro x hl
    unfold ncart
    obtain ⟨y, rfl⟩ : ∃ y, x = y + 2 := ⟨x-2, by omega⟩
    rw [Nat.lt_div_iff_mul_lt (by omega)]
    have : (y+2+1)*(y+2+2) = y*y + 7*y + 12 := by ring
    have := Nat.zero_le (y*y)
    omega
  have hle := nd_le_ncart
  have h0 := hn 0 (by omega)
  have h1 := hn 1 (by omega)
  have h2 := hn 2 (by omega)
  have hS : sscSize l nctr < ncart (l 0) * nctr 0 * (ncart (l 1) * nctr 1) * (ncart (l 2) * nctr 2) := by
    unfold sscSize
    show (l 0*2+1) * nctr 0 * ((l 1*2+1) * nctr 1) * (ncart (l 2) * nctr 2) < _
    refine (Nat.mul_lt_mul_right (Nat.mul_pos (ncart_pos _) h2)).2 ?_
    rcases hl with hl | hl
    · exact Nat.mul_lt_mul_of_lt_of_le ((Nat.mul_lt_mul_right h0).2 (hlt _ hl)) (Nat.mul_le_mul_right _ (hle _))
        (Nat.mul_pos (ncart_pos _) h1)
    · exact Nat.mul_lt_mul_of_le_of_lt (Nat.mul_le_mul_right _ (hle _)) ((Nat.mul_lt_mul_right h1).2 (hlt _ hl))
        (Nat.mul_pos (ncart_pos _) h0)
  by_contra hne
  obtain ⟨⟨a, h'⟩, e⟩ := Option.ne_none_iff_exists'.1 hne
  have hw := (wp_iff_run _ (fun _ _ => True) _).2 ⟨a, h', e, True.intro⟩
  unfold sscStage outStage at hw
  dsimp only at hw
  rw [wp_mbind] at hw
  have hc := counts_wp (cnt := fun t => if t = 3 then 1 else lenCart (l t) * nctr t) hcnt
    (Q := fun _ h' => h'.D = h.D ∧ ∀ t, t < 4 → h'.I (counts + t) = .val ((if t = 3 then 1 else lenCart (l t) * nctr t : Nat) : Int))
    (fun h' a b _ => ⟨a, b⟩)
  obtain ⟨_, g, eg, hw1⟩ := (wp_iff_run _ _ _).1 hw
  obtain ⟨_, g', eg', hD, hI⟩ := (wp_iff_run _ _ _).1 hc
  rw [eg] at eg'
  obtain rfl : g = g' := by injection eg' with x; injection x
  rw [wp_mbind] at hw1
  obtain ⟨nout, g2, eg2, hw2⟩ := (wp_iff_run _ _ _).1 hw1
  have hp := prodDims_wp (dims := counts) (nd := fun t => if t = 3 then 1 else lenCart (l t) * nctr t) (r := 3) (h := g)
    (Q := fun _ h' => h' = g) (fun t ht => hI t (by omega)) rfl
  obtain ⟨_, g3, eg3, hg3⟩ := (wp_iff_run _ _ _).1 hp
  rw [Option.getD_none, eg3] at eg2
  obtain rfl : g3 = g2 := by injection eg2 with x; injection x
  subst hg3
  have hw3 : wp (c2sDset0 (out + nout*0) counts counts) (fun _ _ => True) g3 := by
    rw [if_neg (by decide), Option.getD_none] at hw2
    exact hw2
  rw [Nat.mul_zero, Ptr.add_zero] at hw3
  unfold c2sDset0 at hw3
  simp only [wp_mbind, wp_ldI, if_true] at hw3
  obtain ⟨n0, e0, n1, e1, n2, e2, n3, e3, hw4⟩ := hw3
  rw [show counts = counts + 0 from rfl, hI 0 (by omega)] at e0
  rw [hI 1 (by omega)] at e1
  rw [hI 2 (by omega)] at e2
  rw [hI 3 (by omega)] at e3
  injection e0 with e0
  injection e1 with e1
  injection e2 with e2
  injection e3 with e3
  subst e0 e1 e2 e3
  refine mustStore_iff.1 (mustStore_forN (i := sscSize l nctr) ?_ (q := out + sscSize l nctr)
    (fun h2 hq => by simp [st, run, hq])) g3 _ (by rw [hD]; exact hout _ (le_refl _)) hw4
  rw [Int.toNat_natCast, Int.toNat_natCast, Int.toNat_natCast, Int.toNat_natCast]
  refine lt_of_lt_of_eq hS ?_
  simp only [show (0:Nat) ≠ 3 by omega, show (1:Nat) ≠ 3 by omega, show (2:Nat) ≠ 3 by omega, if_false, if_true,
    Nat.mul_one, lenCart_eq]

/-! ### The hypotheses can be met -/

namespace SscDemo

/-- a p shell with two contractions, a d shell and a Cartesian p shell -/
def ls (t : Nat) : Nat := [1, 2, 1].getD t 0
def nct (t : Nat) : Nat := if t = 0 then 2 else 1

/-- table in buffer 3, cache in buffer 1 with 108 contracted integrals, output in buffer 2 -/
def mem (outLen : Nat) : Heap ℚ where
  D q := if q.buf = 3 then .val (SphDemo.flat q.off)
    else if q.buf = 1 then (if q.off < 108 then .val (q.off : ℚ) else if q.off < 270 then .undef else .oob)
    else if q.buf = 2 then (if q.off < outLen then .undef else .oob) else .oob
  I q := if q.buf = 0 then .oob else .undef

theorem tabOk (n : Nat) : HoldsTab (mem n) ⟨3, 0⟩ := fun l hl x hx => SphDemo.tabOk l hl x hx

theorem ready (n : Nat) : SscMem ls nct none ⟨1, 0⟩ ⟨4, 0⟩ ⟨3, 0⟩ ⟨2, 0⟩ 1 1 108 270 (fun i => (i : ℚ)) (mem n) where
  h_fpd := by decide
  h_l := by decide
  h_nctr := by decide
  h_dims := ⟨_, fun _ _ => rfl⟩
  h_counts := fun t ht => by simp [mem]
  h_tab := tabOk n
  h_gctr := fun i hi => by
    have hi : i < 108 := hi
    show (mem n).D ⟨1, 0 + i⟩ = _
    simp [mem, hi]
  h_gbuf := rfl
  h_used := by decide
  h_free := by decide
  h_cache := fun k hk => by
    simp only [mem]
    rw [if_neg (by decide), if_pos trivial]
    split <;> simp_all
  h_tbuf := by decide
  h_obuf := by decide

/-- the block has 6·5·3 elements -/
example : ∃ h', run (sscStage true ls nct ⟨2, 0⟩ ⟨1, 0⟩ none ⟨4, 0⟩ ⟨3, 0⟩ 1 1 108) (mem 90) = some ((), h') ∧
    h'.D (⟨2, 16⟩ : Ptr) = .val (sscOf ls nct (fun i => (i : ℚ)) 1 0 0 1 2 0) := by
  obtain ⟨h', h1, h2, _⟩ := C20_ssc_block_partial (ready 90) (fun m hm => by
    have hm : m < 90 := hm
    show (mem 90).D ⟨2, 0 + m⟩ ≠ _
    simp [mem, hm]) (Or.inl (by decide))
  exact ⟨h', h1, h2 1 0 0 1 2 0 (by decide) (by decide) (by decide) (by decide) (by decide) (by decide)⟩

/-- the zero fill of the same call overruns the array -/
example : run (sscStage false ls nct ⟨2, 0⟩ ⟨1, 0⟩ none ⟨4, 0⟩ ⟨3, 0⟩ 1 1 108) (mem 90) = none :=
  C20_ssc_zero_fill_overrun (Or.inr (by decide)) (by decide) (fun t ht => by simp [mem]) (fun m hm => by
    have hm : 90 ≤ m := hm
    show (mem 90).D ⟨2, 0 + m⟩ = _
    simp [mem]; omega)

/-- two d functions, then s and s: the block has 10 elements -/
example : run (sscStage true (fun t => [2, 0, 0].getD t 0) nct ⟨2, 0⟩ ⟨1, 0⟩ none ⟨4, 0⟩ ⟨3, 0⟩ 1 1 12) (mem 10) = none :=
  C20_ssc_overrun (by decide) (by decide) (by decide) (by decide) (fun m hm => by
    have hm : 10 ≤ m := hm
    show (mem 10).D ⟨2, 0 + m⟩ = _
    simp [mem]; omega)

end SscDemo
end Verif.Props
