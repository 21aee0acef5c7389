import Verif.Lemmas.Sph
import Verif.Lemmas.Drv1e

/-! The transformation of a whole block: successive indices. -/
namespace Verif.Lemmas
open Verif Verif.Model Verif.Prog Verif.Spec

variable {α : Type} [Field α]

/-- state between two steps: the intermediate is at `r`, below `top`; the scratch area starts at `o` -/
structure Stg (h0 : Heap α) (tab : Ptr) (buf o size : Nat) (h : Heap α) (r : Ptr) (N : Nat) (V : Nat → α)
    (top : Nat) : Prop where
  tabOk : HoldsTab h tab
  val : HoldsD h r N V
  rbuf : r.buf = buf
  below : r.off + N ≤ top
  agree : AgreeD h0 h (fun q => q.buf = buf ∧ o ≤ q.off)
  int : h.I = h0.I
  alloc : ∀ k, k < size → h.D ⟨buf, k⟩ ≠ .oob

theorem Stg.mono {h0 : Heap α} {tab : Ptr} {buf o size : Nat} {h : Heap α} {r : Ptr} {N : Nat} {V : Nat → α}
    {top top' : Nat} (S : Stg h0 tab buf o size h r N V top) (ht : top ≤ top') :
    Stg h0 tab buf o size h r N V top' := { S with below := le_trans S.below ht }

theorem Stg.cast {h0 : Heap α} {tab : Ptr} {buf o size : Nat} {h : Heap α} {r : Ptr} {N N' : Nat} {V : Nat → α}
    {top : Nat} (S : Stg h0 tab buf o size h r N V top) (ht : N = N') :
    Stg h0 tab buf o size h r N' V top := ht ▸ S

theorem Stg.disj {h0 : Heap α} {tab : Ptr} {buf o size : Nat} {h : Heap α} {r : Ptr} {N : Nat} {V : Nat → α}
    {top N' : Nat} (S : Stg h0 tab buf o size h r N V top) : Disj r N ⟨buf, top⟩ N' := by
  intro i j hi hj e
  have := congrArg Ptr.off e
  have h1 : r.off + i = top + j := this
  have := S.below
  omega

theorem Stg.step {h0 : Heap α} {tab : Ptr} {buf o size : Nat} {h : Heap α} {r : Ptr} {N N' l : Nat}
    {V V' : Nat → α} {top : Nat} {p : Prog α Ptr} (S : Stg h0 tab buf o size h r N V top)
    (hb : tab.buf ≠ buf) (ho : o ≤ top) (hN : N' ≤ N)
    (H : wp p (fun r' h' => KOut l h h' r' r ⟨buf, top⟩ N' V') h) :
    wp p (fun r' h' => Stg h0 tab buf o size h' r' N' V' (top + N')) h := by
  refine wp_mono (wp_allocMono H) ?_
  rintro r' h' ⟨K, hm⟩
  have hW : ∀ q, Blk ⟨buf, top⟩ N' q → q.buf = buf ∧ o ≤ q.off := by
    rintro q ⟨i, _, rfl⟩
    exact ⟨rfl, by show o ≤ top + i; omega⟩
  refine ⟨holdsTab_agree S.tabOk K.agree (fun q hq e => hb ((hW q hq).1 ▸ e.symm)), K.val, ?_, ?_,
    S.agree.trans K.agree (fun _ x => x) hW, by rw [K.int, S.int], fun k hk => hm.D _ (S.alloc k hk)⟩
  · rw [K.res]; split
    · exact S.rbuf
    · rfl
  · rw [K.res]; split
    · have := S.below; omega
    · exact le_refl _

theorem Stg.ket {h0 : Heap α} {tab : Ptr} {buf o size : Nat} {h : Heap α} {r : Ptr} {nbra l : Nat}
    {V : Nat → α} {top : Nat} (S : Stg h0 tab buf o size h r (nbra * ncart l) V top) (hl : l < 16)
    (hb : tab.buf ≠ buf) (ho : o ≤ top) (hs : top + nbra*(l*2+1) ≤ size) (hN : l*2+1 ≤ ncart l) :
    wp (ketSph tab l ⟨buf, top⟩ r nbra nbra)
      (fun r' h' => Stg h0 tab buf o size h' r' (nbra*(l*2+1)) (ketV l nbra V) (top + nbra*(l*2+1))) h :=
  S.step hb ho (Nat.mul_le_mul_left _ hN) (ketSph_wp hl S.tabOk S.val
    (fun i hi => S.alloc (top+i) (by omega)) hb S.disj)

theorem Stg.inner {h0 : Heap α} {tab : Ptr} {buf o size : Nat} {h : Heap α} {r : Ptr} {nbra ncall l : Nat}
    {V : Nat → α} {top : Nat} (S : Stg h0 tab buf o size h r (nbra * ncart l * ncall) V top) (hl : l < 16)
    (hb : tab.buf ≠ buf) (ho : o ≤ top) (hs : top + nbra*(l*2+1)*ncall ≤ size) (hN : l*2+1 ≤ ncart l) :
    wp (sph2eInner tab ⟨buf, top⟩ r l nbra ncall (nbra*(l*2+1)) (nbra*ncart l))
      (fun r' h' => Stg h0 tab buf o size h' r' (nbra*(l*2+1)*ncall) (midV l nbra V) (top + nbra*(l*2+1)*ncall)) h :=
  S.step hb ho (Nat.mul_le_mul_right _ (Nat.mul_le_mul_left _ hN)) (sph2eInner_wp hl S.tabOk S.val
    (fun i hi => S.alloc (top+i) (by omega)) hb S.disj)

theorem Stg.bra {h0 : Heap α} {tab : Ptr} {buf o size : Nat} {h : Heap α} {r : Ptr} {nket l : Nat}
    {V : Nat → α} {top : Nat} (S : Stg h0 tab buf o size h r (ncart l * nket) V top) (hl : l < 16)
    (hb : tab.buf ≠ buf) (ho : o ≤ top) (hs : top + (l*2+1)*nket ≤ size) (hN : l*2+1 ≤ ncart l) :
    wp (braSph tab l ⟨buf, top⟩ nket r)
      (fun r' h' => Stg h0 tab buf o size h' r' ((l*2+1)*nket) (braV l V) (top + (l*2+1)*nket)) h :=
  S.step hb ho (Nat.mul_le_mul_right _ hN) (braSph_wp hl S.tabOk S.val
    (fun i hi => S.alloc (top+i) (by omega)) hb S.disj)

theorem nd_le_ncart (l : Nat) : l*2+1 ≤ ncart l := by
  unfold ncart
  rcases l with _ | _ | l
  · decide
  · decide
  · rw [Nat.le_div_iff_mul_le (by omega)]
    have : (l+1+1+1)*(l+1+1+2) = l*l + 7*l + 12 := by ring
    rw [this]
    have := Nat.zero_le (l*l)
    omega

/-- how `sph2`, … arise from single transformations -/
theorem braV_ketV {li lj : Nat} (X : Nat → α) {i j : Nat} (hi : i < li*2+1) :
    braV li (ketV lj (ncart li) X) (j*(li*2+1)+i) = sph2 li lj X i j := by
  unfold braV sph2 sphV
  rw [(digit hi).1, (digit hi).2]
  refine Finset.sum_congr rfl fun a ha => ?_
  have ha' := Finset.mem_range.1 ha
  unfold ketV sphV
  beta_reduce
  rw [(digit ha').1, (digit ha').2, Finset.mul_sum]
  exact Finset.sum_congr rfl fun b _ => by ring

theorem midV_digits {l nbra : Nat} (X : Nat → α) {x m y : Nat} (hm : m < l*2+1) (hy : y < nbra) :
    midV l nbra X ((x*(l*2+1)+m)*nbra + y) = sphV l m fun k => X ((x*ncart l + k)*nbra + y) := by
  unfold midV ketV
  have e : (x*(l*2+1)+m)*nbra + y = x*(nbra*(l*2+1)) + (m*nbra + y) := by ring
  rw [e, (digit (digit_lt hy hm)).1, (digit (digit_lt hy hm)).2, (digit hy).1, (digit hy).2]
  refine sphV_congr fun k _ => ?_
  have e2 : x*(nbra * ncart l) + (k*nbra + y) = (x*ncart l + k)*nbra + y := by ring
  beta_reduce
  rw [e2]

theorem trans3_val {li lj lk : Nat} (X : Nat → α) {i j k : Nat} (hi : i < li*2+1) (hk : k < lk*2+1) :
    braV li (midV lk (ncart li) (ketV lj (ncart li * ncart lk) X)) ((j*(lk*2+1)+k)*(li*2+1)+i) =
      sph3 li lj lk X i j k := by
  unfold braV sph3
  rw [(digit hi).1, (digit hi).2]
  unfold sphV
  refine Finset.sum_congr rfl fun a ha => ?_
  have ha' := Finset.mem_range.1 ha
  beta_reduce
  rw [midV_digits _ hk ha']
  unfold sphV
  have : ∀ c ∈ Finset.range (ncart lk), (c2sCoef lk k c : α) * ketV lj (ncart li * ncart lk) X ((j*ncart lk + c)*ncart li + a)
      = ∑ b ∈ Finset.range (ncart lj), c2sCoef lk k c * (c2sCoef lj j b * X ((b*ncart lk + c)*ncart li + a)) := by
    intro c hc
    have hc' := Finset.mem_range.1 hc
    have e : (j*ncart lk + c)*ncart li + a = j*(ncart li * ncart lk) + (c*ncart li + a) := by ring
    unfold ketV sphV
    beta_reduce
    rw [e, (digit (digit_lt ha' hc')).1, (digit (digit_lt ha' hc')).2, Finset.mul_sum]
    refine Finset.sum_congr rfl fun b _ => ?_
    have e2 : b*(ncart li * ncart lk) + (c*ncart li + a) = (b*ncart lk + c)*ncart li + a := by ring
    rw [e2]
  rw [Finset.sum_congr rfl this, Finset.sum_comm, Finset.mul_sum]
  refine Finset.sum_congr rfl fun b _ => ?_
  rw [Finset.mul_sum]
  exact Finset.sum_congr rfl fun c _ => by ring

theorem trans4_val {li lj lk ll : Nat} (X : Nat → α) {i j k l : Nat} (hi : i < li*2+1) (hk : k < lk*2+1)
    (hl : l < ll*2+1) :
    braV li (midV lk (ncart li) (midV ll (ncart li * ncart lk) (ketV lj (ncart li * ncart lk * ncart ll) X)))
      (((j*(ll*2+1)+l)*(lk*2+1)+k)*(li*2+1)+i) = sph4 li lj lk ll X i j k l := by
  unfold braV sph4
  rw [(digit hi).1, (digit hi).2]
  unfold sphV
  refine Finset.sum_congr rfl fun a ha => ?_
  have ha' := Finset.mem_range.1 ha
  beta_reduce
  rw [midV_digits _ hk ha']
  unfold sphV
  have : ∀ c ∈ Finset.range (ncart lk), (c2sCoef lk k c : α) *
      midV ll (ncart li * ncart lk) (ketV lj (ncart li * ncart lk * ncart ll) X) (((j*(ll*2+1)+l)*ncart lk + c)*ncart li + a)
      = ∑ d ∈ Finset.range (ncart ll), ∑ b ∈ Finset.range (ncart lj), c2sCoef lk k c * (c2sCoef ll l d *
        (c2sCoef lj j b * X (((b*ncart ll + d)*ncart lk + c)*ncart li + a))) := by
    intro c hc
    have hc' := Finset.mem_range.1 hc
    have e : ((j*(ll*2+1)+l)*ncart lk + c)*ncart li + a = (j*(ll*2+1)+l)*(ncart li * ncart lk) + (c*ncart li + a) := by ring
    rw [e, midV_digits _ hl (digit_lt ha' hc')]
    unfold sphV
    rw [Finset.mul_sum]
    refine Finset.sum_congr rfl fun d hd => ?_
    have hd' := Finset.mem_range.1 hd
    have e2 : (j*ncart ll + d)*(ncart li*ncart lk) + (c*ncart li + a) =
        j*(ncart li * ncart lk * ncart ll) + (d*(ncart li*ncart lk) + (c*ncart li + a)) := by ring
    have h3 := digit_lt (digit_lt ha' hc') hd'
    unfold ketV sphV
    beta_reduce
    rw [e2, (digit h3).1, (digit h3).2, Finset.mul_sum, Finset.mul_sum]
    refine Finset.sum_congr rfl fun b _ => ?_
    have e3 : b*(ncart li * ncart lk * ncart ll) + (d*(ncart li*ncart lk) + (c*ncart li + a)) =
      ((b*ncart ll + d)*ncart lk + c)*ncart li + a := by ring
    rw [e3]
  rw [Finset.sum_congr rfl this]
  have h2 : ∀ c ∈ Finset.range (ncart lk), (∑ d ∈ Finset.range (ncart ll), ∑ b ∈ Finset.range (ncart lj),
      (c2sCoef lk k c : α) * (c2sCoef ll l d * (c2sCoef lj j b * X (((b*ncart ll + d)*ncart lk + c)*ncart li + a)))) =
      ∑ b ∈ Finset.range (ncart lj), ∑ d ∈ Finset.range (ncart ll), c2sCoef lk k c * (c2sCoef ll l d *
        (c2sCoef lj j b * X (((b*ncart ll + d)*ncart lk + c)*ncart li + a))) := fun c _ => Finset.sum_comm
  rw [Finset.sum_congr rfl h2, Finset.sum_comm, Finset.mul_sum]
  refine Finset.sum_congr rfl fun b _ => ?_
  rw [Finset.mul_sum]
  refine Finset.sum_congr rfl fun c _ => ?_
  rw [Finset.mul_sum]
  exact Finset.sum_congr rfl fun d _ => by ring

section
variable {h : Heap α} {tab gctr : Ptr} {buf o size fpd : Nat} {X : Nat → α}

/-- c2s_sph_1e, one block -/
theorem sphTrans1e_wp {li lj : Nat} (hf : 0 < fpd) (hli : li < 16) (hlj : lj < 16) (hb : tab.buf ≠ buf)
    (S : Stg h tab buf o size h gctr (ncart li * ncart lj) X o)
    (hs : o + ncart li * (lj*2+1) * 2 ≤ size) :
    wp (sphTrans1e tab fpd li lj buf (fpd*o) gctr) (fun r h' =>
      Stg h tab buf o size h' r ((li*2+1)*(lj*2+1)) (fun x => sph2 li lj X (x % (li*2+1)) (x / (li*2+1))) size) h := by
  unfold sphTrans1e
  dsimp only
  rw [mallocD_eq hf, mallocD_eq hf]
  have hi := nd_le_ncart li
  have hij : (li*2+1)*(lj*2+1) ≤ ncart li * (lj*2+1) := Nat.mul_le_mul_right _ hi
  simp only [lenCart_eq]
  rw [wp_mbind]
  refine wp_mono (S.ket hlj hb (le_refl _) (by omega) (nd_le_ncart lj)) ?_
  intro r1 h1 S1
  refine wp_mono (S1.bra hli hb (by omega) (by omega) hi) ?_
  intro r2 h2 S2
  refine { S2.mono (top' := size) (by omega) with val := fun x hx => ?_ }
  beta_reduce
  rw [S2.val x hx, ← braV_ketV X (Nat.mod_lt _ (by omega)), Nat.mul_comm (x / (li*2+1)), Nat.div_add_mod]

/-- c2s_sph_3c2e1, one block -/
theorem sphTrans3c_wp {li lj lk : Nat} (hf : 0 < fpd) (hli : li < 16) (hlj : lj < 16) (hlk : lk < 16) (hb : tab.buf ≠ buf)
    (S : Stg h tab buf o size h gctr (ncart li * ncart lk * ncart lj) X o)
    (hs : o + ncart li * ncart lk * (lj*2+1) * 3 ≤ size) :
    wp (sphTrans3c tab fpd li lj lk buf (fpd*o) gctr) (fun r h' =>
      Stg h tab buf o size h' r ((li*2+1)*((lk*2+1)*(lj*2+1))) (fun x => sph3 li lj lk X (x % (li*2+1))
        (x / (li*2+1) / (lk*2+1)) (x / (li*2+1) % (lk*2+1))) size) h := by
  unfold sphTrans3c
  dsimp only
  rw [mallocD_eq hf]
  have hi := nd_le_ncart li
  have hk := nd_le_ncart lk
  have h3 : ncart li * (lk*2+1) * (lj*2+1) ≤ ncart li * ncart lk * (lj*2+1) :=
    Nat.mul_le_mul_right _ (Nat.mul_le_mul_left _ hk)
  have h4 : (li*2+1) * ((lk*2+1) * (lj*2+1)) ≤ ncart li * ncart lk * (lj*2+1) := by
    refine le_trans ?_ h3
    rw [Nat.mul_assoc]
    exact Nat.mul_le_mul_right _ hi
  simp only [lenCart_eq]
  rw [wp_mbind]
  refine wp_mono (S.ket hlj hb (le_refl _) (by omega) (nd_le_ncart lj)) ?_
  intro r1 h1 S1
  rw [wp_mbind]
  refine wp_mono (Stg.inner (nbra := ncart li) (ncall := lj*2+1) (top := o + ncart li * ncart lk * (lj*2+1)) S1 hlk hb (by omega) (by omega) hk) ?_
  intro r2 h2 S2
  refine wp_mono (Stg.bra (top := o + ncart li * ncart lk * (lj*2+1) + ncart li * ncart lk * (lj*2+1)) ((S2.mono (top' := o + ncart li * ncart lk * (lj*2+1) + ncart li * ncart lk * (lj*2+1)) (by omega)).cast
    (N' := ncart li * ((lk*2+1)*(lj*2+1))) (by ring)) hli hb (by omega) (by omega) hi) ?_
  intro r3 h3 S3
  refine { S3.mono (top' := size) (by omega) with val := fun x hx => ?_ }
  beta_reduce
  rw [S3.val x hx, ← trans3_val X (Nat.mod_lt _ (by omega)) (Nat.mod_lt _ (by omega)), Nat.mul_comm _ (lk*2+1),
    Nat.div_add_mod, Nat.mul_comm (x / (li*2+1)), Nat.div_add_mod]

/-- c2s_sph_2e1, one block -/
theorem sphTrans2e_wp {li lj lk ll : Nat} (hf : 0 < fpd) (hli : li < 16) (hlj : lj < 16) (hlk : lk < 16)
    (hll : ll < 16) (hb : tab.buf ≠ buf)
    (S : Stg h tab buf o size h gctr (ncart li * ncart lk * ncart ll * ncart lj) X o)
    (hs : o + ncart li * ncart lk * ncart ll * (lj*2+1) * 4 ≤ size) :
    wp (sphTrans2e tab fpd li lj lk ll buf (fpd*o) gctr) (fun r h' =>
      Stg h tab buf o size h' r ((li*2+1)*((lk*2+1)*((ll*2+1)*(lj*2+1)))) (fun x => sph4 li lj lk ll X (x % (li*2+1))
        (x / (li*2+1) / (lk*2+1) / (ll*2+1)) (x / (li*2+1) % (lk*2+1)) (x / (li*2+1) / (lk*2+1) % (ll*2+1))) size) h := by
  unfold sphTrans2e
  dsimp only
  rw [mallocD_eq hf]
  have hi := nd_le_ncart li
  have hk := nd_le_ncart lk
  have hl := nd_le_ncart ll
  let B := ncart li * ncart lk * ncart ll * (lj*2+1)
  have h3 : ncart li * ncart lk * (ll*2+1) * (lj*2+1) ≤ B :=
    Nat.mul_le_mul_right _ (Nat.mul_le_mul_left _ hl)
  have h4 : ncart li * (lk*2+1) * ((ll*2+1) * (lj*2+1)) ≤ B := by
    refine le_trans ?_ h3
    rw [← Nat.mul_assoc]
    exact Nat.mul_le_mul_right _ (Nat.mul_le_mul_right _ (Nat.mul_le_mul_left _ hk))
  have h5 : (li*2+1)*((lk*2+1) * ((ll*2+1) * (lj*2+1))) ≤ B := by
    refine le_trans ?_ h4
    rw [← Nat.mul_assoc]
    exact Nat.mul_le_mul_right _ (Nat.mul_le_mul_right _ hi)
  have hs : o + B * 4 ≤ size := hs
  simp only [lenCart_eq]
  rw [wp_mbind]
  refine wp_mono (Stg.ket (nbra := ncart li * ncart lk * ncart ll) S hlj hb (le_refl _) (by show o + B ≤ size; omega) (nd_le_ncart lj)) ?_
  intro r1 h1 S1
  rw [wp_mbind]
  refine wp_mono (Stg.inner (nbra := ncart li * ncart lk) (ncall := lj*2+1) (top := o + B) S1 hll hb (by omega)
    (by show o + B + _ ≤ size; omega) hl) ?_
  intro r2 h2 S2
  rw [wp_mbind]
  refine wp_mono (Stg.inner (nbra := ncart li) (ncall := (ll*2+1)*(lj*2+1)) (top := o + B + B) ((S2.mono (top' := o + B + B) (by
      show o + B + _ ≤ o + B + B; omega)).cast
    (N' := ncart li * ncart lk * ((ll*2+1)*(lj*2+1))) (by ring)) hlk hb (by omega) (by omega) hk) ?_
  intro r3 h3 S3
  refine wp_mono (Stg.bra (nket := (lk*2+1)*((ll*2+1)*(lj*2+1))) (top := o + B + B + B) ((S3.mono (top' := o + B + B + B) (by omega)).cast
    (N' := ncart li * ((lk*2+1)*((ll*2+1)*(lj*2+1)))) (by ring)) hli hb (by omega) (by omega) hi) ?_
  intro r4 h4 S4
  refine { S4.mono (top' := size) (by omega) with val := fun x hx => ?_ }
  beta_reduce
  rw [S4.val x hx, ← trans4_val X (Nat.mod_lt _ (by omega)) (Nat.mod_lt _ (by omega)) (Nat.mod_lt _ (by omega)),
    Nat.mul_comm _ (ll*2+1), Nat.div_add_mod, Nat.mul_comm _ (lk*2+1), Nat.div_add_mod, Nat.mul_comm (x / (li*2+1)), Nat.div_add_mod]

end
end Verif.Lemmas
