import Verif.Lemmas.OutStage
import Verif.Model.Grids

/-! Output stage of the integrals on grids: element `(g,i,j)` of a component is number `(j*ni+i)*Ng+g`. -/
namespace Verif.Lemmas
open Verif Verif.Model Verif.Prog

variable {α : Type}

/-- dcopy_grids_ij -/
theorem dcopyGridsIj_writes {out gctr : Ptr} {Ng ni nj b mi mj : Nat} {v : Ix4 → α} (hb : b ≤ Ng) (hi : mi ≤ ni)
    (hj : mj ≤ nj)
    (hd : ∀ k k', inBlk b mi mj 1 k → inBlk b mi mj 1 k' → gctr + pos4 b mi mj k ≠ out + pos4 Ng ni nj k') :
    Writes (fun _ => False) (CopyOk (inBlk b mi mj 1) (fun k => gctr + pos4 b mi mj k)
        (fun k => out + pos4 Ng ni nj k) v)
      (dcopyGridsIj out gctr Ng ni b mi mj) (fun _ => True) (inBlk b mi mj 1)
      (fun k => out + pos4 Ng ni nj k) v := by
  have hst := copyOk_stable (W := fun _ => False) (P := inBlk b mi mj 1)
    (src := fun k => gctr + pos4 b mi mj k) (addr := fun k => out + pos4 Ng ni nj k) (v := v)
    (fun _ _ h => h) hd
  have hinj : ∀ k k', inBlk b mi mj 1 k → inBlk b mi mj 1 k' →
      out + pos4 Ng ni nj k = out + pos4 Ng ni nj k' → v k = v k' := by
    rintro k k' ⟨a1, a2, a3, a4⟩ ⟨b1, b2, b3, b4⟩ e
    rw [pos4_inj (by omega) (by omega) (by omega) (by omega) (by omega) (by omega)
      ((Ptr.add_right_inj _ _ _).1 e)]
  have hst' : ∀ (P' : Ix4 → Prop), (∀ k, P' k → inBlk b mi mj 1 k) →
      Stable (fun _ => False) (CopyOk (inBlk b mi mj 1) (fun k => gctr + pos4 b mi mj k)
        (fun k => out + pos4 Ng ni nj k) v) P' (fun k => out + pos4 Ng ni nj k) v :=
    fun P' hP h h' P2 hP2 => hst h h' P2 (fun k hk => hP k (hP2 k hk))
  unfold dcopyGridsIj
  refine (Writes.forN (P := inBlk b mi mj 1) (d := fun k => k.2.2.1) hst (fun _ _ h => h) hinj ?_).congr
    (fun k => by unfold inBlk; omega) (fun _ _ => rfl)
  intro j hj'
  refine (Writes.forN (P := fun q => inBlk b mi mj 1 q ∧ q.2.2.1 = j) (d := fun q => q.2.1)
    (hst' _ (fun k hk => hk.1)) (fun _ _ h => h) (fun k k' a b => hinj k k' a.1 b.1) ?_).congr
    (fun q => by unfold inBlk; omega) (fun _ _ => rfl)
  intro i hi'
  refine (Writes.forN (P := fun q => (inBlk b mi mj 1 q ∧ q.2.2.1 = j) ∧ q.2.1 = i) (d := fun q => q.1)
    (hst' _ (fun k hk => hk.1.1)) (fun _ _ h => h) (fun k k' a b => hinj k k' a.1.1 b.1.1) ?_).congr
    (fun q => by unfold inBlk; omega) (fun _ _ => rfl)
  intro m hm
  have hin : inBlk b mi mj 1 (m, i, j, 0) := ⟨hm, hi', hj', Nat.zero_lt_one⟩
  refine Writes.cpy (k0 := (m, i, j, 0)) ?_ (fun h hok => ?_) (fun h hok => (hok _ hin).2) (fun q => ?_)
  · simp only [Ptr.add_assoc, pos4]
    congr 1; ring
  · rw [← (hok _ hin).1]
    simp only [Ptr.add_assoc, pos4]
    congr 2; ring
  · simp only [Prod.ext_iff]
    unfold inBlk
    omega

/-- What the transformation of a block of points must do: from block `N` of contracted functions of the points
`104*t …` it produces the values `Y g N m` of the points `g`, output functions `m`. -/
structure TransGOK (trans : Nat → Ptr → Prog α Ptr) (gctr : Ptr) (S : Shape) (ngrids : Nat) (Y : Nat → Nat → Nat → α)
    (W Out : Ptr → Prop) (ok : Heap α → Prop) : Prop where
  step : ∀ t N, t < nblk ngrids → N < S.jc*S.ic → ∀ h, ok h →
    let b := bgrids ngrids (104*t)
    wp (trans b (gctr + (104*t*(S.jc*S.ic*S.nf) + N*(b*S.nf)))) (fun tmp h' =>
      (∀ k, inBlk b S.di S.dj 1 k → h'.D (tmp + pos4 b S.di S.dj k) = .val (Y (104*t+k.1) N (k.2.2.1*S.di+k.2.1)) ∧
        ¬ Out (tmp + pos4 b S.di S.dj k)) ∧ AgreeD h h' W ∧ h'.I = h.I) h
  keep : ∀ h h', ok h → AgreeD h h' (fun q => W q ∨ Out q) → (∀ q, h.D q ≠ .oob → h'.D q ≠ .oob) →
    h'.I = h.I → ok h'
  sep : ∀ q, W q → ¬ Out q

/-- the elements of a component -/
def inGrid (S : Shape) (ngrids : Nat) : Ix4 → Prop := inBlk ngrids (S.di*S.ic) (S.dj*S.jc) 1

/-- number of the block of contracted functions, and of the function in it -/
def gBlk (S : Shape) (k : Ix4) : Nat := k.2.2.1/S.dj*S.ic + k.2.1/S.di
def gCell (S : Shape) (k : Ix4) : Nat := k.2.2.1%S.dj*S.di + k.2.1%S.di

structure SetupG (S : Shape) (ngrids : Nat) (trans : Nat → Ptr → Prog α Ptr) (gctr out : Ptr)
    (Y : Nat → Nat → Nat → α) (W : Ptr → Prop) (ok : Heap α → Prop) (Ng ni nj : Nat) : Prop where
  di : 0 < S.di
  dj : 0 < S.dj
  hNg : ngrids ≤ Ng
  hni : S.di*S.ic ≤ ni
  hnj : S.dj*S.jc ≤ nj
  T : TransGOK trans gctr S ngrids Y W (fun q => ∃ k, inGrid S ngrids k ∧ q = out + pos4 Ng ni nj k) ok
  hal : ∀ h, ok h → ∀ k, inGrid S ngrids k → h.D (out + pos4 Ng ni nj k) ≠ .oob

section
variable {S : Shape} {ngrids : Nat} {trans : Nat → Ptr → Prog α Ptr} {gctr out : Ptr} {Y : Nat → Nat → Nat → α}
  {W : Ptr → Prop} {ok : Heap α → Prop} {Ng ni nj : Nat}

theorem SetupG.inj (H : SetupG S ngrids trans gctr out Y W ok Ng ni nj) {k k' : Ix4} (hk : inGrid S ngrids k)
    (hk' : inGrid S ngrids k') (e : out + pos4 Ng ni nj k = out + pos4 Ng ni nj k') : k = k' := by
  obtain ⟨a1, a2, a3, a4⟩ := hk
  obtain ⟨b1, b2, b3, b4⟩ := hk'
  have := H.hNg
  have := H.hni
  have := H.hnj
  exact pos4_inj (by omega) (by omega) (by omega) (by omega) (by omega) (by omega)
    ((Ptr.add_right_inj _ _ _).1 e)

theorem SetupG.stable (H : SetupG S ngrids trans gctr out Y W ok Ng ni nj) {P : Ix4 → Prop}
    (hP : ∀ k, P k → inGrid S ngrids k) (v : Ix4 → α) : Stable W ok P (fun k => out + pos4 Ng ni nj k) v := by
  intro h h' P' hP' hok HW
  exact H.T.keep h h' hok (HW.agree.mono (fun q hq => by
    rcases hq with hq | ⟨k, hk, e⟩
    · exact Or.inl hq
    · exact Or.inr ⟨k, hP k (hP' k hk), e⟩)) HW.alloc HW.int

theorem bgrids_lt {ngrids t r : Nat} (hr : r < bgrids ngrids (104*t)) : 104*t + r < ngrids ∧ r < 104 := by
  unfold bgrids at hr; omega

/-- the points of block `t` -/
theorem block_of {ngrids t g : Nat} (hg : g < ngrids) (h : g/104 = t) :
    ∃ r, r < bgrids ngrids (104*t) ∧ g = 104*t + r := by
  refine ⟨g % 104, ?_, by omega⟩
  unfold bgrids; omega

/-- one block of points, one block of contracted functions -/
theorem blockG (H : SetupG S ngrids trans gctr out Y W ok Ng ni nj) {t jc ic : Nat} (ht : t < nblk ngrids)
    (hjc : jc < S.jc) (hic : ic < S.ic) {p : Ptr}
    (hp : p = gctr + (104*t*(S.jc*S.ic*S.nf) + (jc*S.ic+ic)*(bgrids ngrids (104*t)*S.nf))) :
    Writes W ok (do
      let tmp1 ← trans (bgrids ngrids (104*t)) p
      let pij := out + Ng * (ni*S.dj * jc + S.di * ic) + 104*t
      dcopyGridsIj pij tmp1 Ng ni (bgrids ngrids (104*t)) S.di S.dj
      pure (p + bgrids ngrids (104*t) * S.nf)) (· = p + bgrids ngrids (104*t) * S.nf)
      (fun k => ((inGrid S ngrids k ∧ k.1/104 = t) ∧ k.2.2.1/S.dj = jc) ∧ k.2.1/S.di = ic)
      (fun k => out + pos4 Ng ni nj k) (fun k => Y k.1 (gBlk S k) (gCell S k)) := by
  intro h hok
  let b := bgrids ngrids (104*t)
  have hin : ∀ k, inBlk b S.di S.dj 1 k → inGrid S ngrids (104*t+k.1, ic*S.di+k.2.1, jc*S.dj+k.2.2.1, k.2.2.2) :=
    fun k hk => ⟨(bgrids_lt hk.1).1, digit_lt hk.2.1 hic, digit_lt hk.2.2.1 hjc, hk.2.2.2⟩
  have hpos : ∀ k : Ix4, inBlk b S.di S.dj 1 k → out + Ng * (ni*S.dj * jc + S.di * ic) + 104*t + pos4 Ng ni nj k =
      out + pos4 Ng ni nj (104*t+k.1, ic*S.di+k.2.1, jc*S.dj+k.2.2.1, k.2.2.2) := by
    intro k _
    simp only [Ptr.add_assoc]
    unfold pos4
    congr 1; ring
  rw [wp_mbind, hp]
  refine wp_mono (wp_allocMono (H.T.step t (jc*S.ic+ic) ht (radix_lt hjc hic) h hok)) ?_
  rintro tmp h1 ⟨⟨hY, hA, hI⟩, hM⟩
  have hok1 := H.T.keep h h1 hok (hA.mono (fun q => Or.inl)) hM.D hI
  rw [wp_mbind]
  have hb : b ≤ Ng := le_trans (by show min _ _ ≤ _; omega) H.hNg
  have hi : S.di ≤ ni := le_trans (Nat.le_mul_of_pos_right _ (by omega)) H.hni
  have hj : S.dj ≤ nj := le_trans (Nat.le_mul_of_pos_right _ (by omega)) H.hnj
  refine wp_mono (dcopyGridsIj_writes (out := out + Ng * (ni*S.dj * jc + S.di * ic) + 104*t) (gctr := tmp) (nj := nj)
    (v := fun k => Y (104*t+k.1) (jc*S.ic+ic) (k.2.2.1*S.di+k.2.1)) hb hi hj ?_ h1 ?_) ?_
  · intro k k' hk hk' e
    rw [hpos k' hk'] at e
    exact (hY k hk).2 ⟨_, hin k' hk', e⟩
  · intro k hk
    refine ⟨(hY k hk).1, ?_⟩
    dsimp only
    rw [hpos k hk]
    exact H.hal h1 hok1 _ (hin k hk)
  · rintro _ h2 ⟨_, HW⟩
    rw [wp_pure]
    refine ⟨rfl, Wr.pre hA hM.D hI (HW.reindex ?_ ?_)⟩
    · rintro ⟨g, I, J, z⟩ ⟨⟨⟨hk, hg⟩, hj⟩, hi⟩
      obtain ⟨i, hi1, rfl⟩ := digit_exists H.di hi
      obtain ⟨j, hj1, rfl⟩ := digit_exists H.dj hj
      obtain ⟨r, hr, rfl⟩ := block_of hk.1 hg
      have hin' : inBlk b S.di S.dj 1 (r, i, j, z) := ⟨hr, hi1, hj1, hk.2.2.2⟩
      refine ⟨(r,i,j,z), hin', hpos _ hin', ?_⟩
      unfold gBlk gCell
      simp only [(digit hi1).1, (digit hi1).2, (digit hj1).1, (digit hj1).2]
    · rintro k hk
      refine ⟨_, ⟨⟨⟨hin k hk, ?_⟩, ?_⟩, ?_⟩, hpos k hk⟩
      · have := (bgrids_lt hk.1).2
        show (104*t+k.1)/104 = t
        omega
      · exact (digit hk.2.2.1).1
      · exact (digit hk.2.1).1

theorem c2sGrids_writes (H : SetupG S ngrids trans gctr out Y W ok Ng ni nj) {dims : Ptr} {nj0 : Int}
    (hdim : ∀ h, ok h → h.I dims = .val ni ∧ h.I (dims+1) = .val nj0 ∧ h.I (dims+2) = .val Ng) :
    Writes W ok (c2sGrids S ngrids trans out gctr dims) (fun _ => True) (inGrid S ngrids)
      (fun k => out + pos4 Ng ni nj k) (fun k => Y k.1 (gBlk S k) (gCell S k)) := by
  have hWP : ∀ k, inGrid S ngrids k → ¬ W (out + pos4 Ng ni nj k) := fun k hk hw => H.T.sep _ hw ⟨k, hk, rfl⟩
  have hinj : ∀ k k', inGrid S ngrids k → inGrid S ngrids k' → out + pos4 Ng ni nj k = out + pos4 Ng ni nj k' →
      Y k.1 (gBlk S k) (gCell S k) = Y k'.1 (gBlk S k') (gCell S k') :=
    fun k k' a b e => by rw [H.inj a b e]
  intro h hok
  obtain ⟨d0, d1, d2⟩ := hdim h hok
  unfold c2sGrids
  simp only [wp_mbind, wp_ldI]
  refine ⟨_, d0, _, d1, _, d2, ?_⟩
  simp only [Int.toNat_natCast]
  have key := (Writes.forS (n := nblk ngrids) (s := fun t => gctr + min (104*t) ngrids*(S.jc*S.ic*S.nf))
    (f := fun t gctr => forS S.jc gctr fun jc gctr => forS S.ic gctr fun ic gctr => do
      let tmp1 ← trans (bgrids ngrids (104*t)) gctr
      let pij := out + Ng * (ni*S.dj * jc + S.di * ic) + 104*t
      dcopyGridsIj pij tmp1 Ng ni (bgrids ngrids (104*t)) S.di S.dj
      pure (gctr + bgrids ngrids (104*t) * S.nf))
    (P := inGrid S ngrids) (d := fun k => k.1/104) (H.stable (fun k hk => hk) _) hWP hinj ?_) h hok
  · simp only [Nat.mul_zero, Nat.zero_le, Nat.min_eq_left, Nat.zero_mul, Ptr.add_zero] at key
    refine wp_mono key ?_
    rintro _ h' ⟨_, HW⟩
    rw [wp_pure]
    refine ⟨True.intro, HW.congr (fun k => ⟨fun hk => ⟨hk, ?_⟩, fun hk => hk.1⟩) (fun _ _ => rfl)⟩
    have := hk.1
    unfold nblk; omega
  intro t ht
  have htn : 104*t < ngrids := by unfold nblk at ht; omega
  have e1 : min (104*t) ngrids = 104*t := by omega
  have e2 : min (104*(t+1)) ngrids = 104*t + bgrids ngrids (104*t) := by unfold bgrids; omega
  dsimp only
  rw [e1, e2]
  have e0 : gctr + 104*t*(S.jc*S.ic*S.nf) = gctr + (104*t*(S.jc*S.ic*S.nf) + 0*(S.ic*(bgrids ngrids (104*t)*S.nf))) := by
    rw [Nat.zero_mul, Nat.add_zero]
  rw [e0]
  refine ((Writes.forS (s := fun jc => gctr + (104*t*(S.jc*S.ic*S.nf) + jc*(S.ic*(bgrids ngrids (104*t)*S.nf))))
      (P := fun k => inGrid S ngrids k ∧ k.1/104 = t) (d := fun k => k.2.2.1/S.dj)
      (H.stable (fun k hk => hk.1) _) (fun k hk => hWP k hk.1) (fun k k' a b => hinj k k' a.1 b.1) ?_).weaken
      (fun _ x => x) ?_ (fun _ x => x)).congr (fun k => ⟨fun hk => ⟨hk, Nat.div_lt_of_lt_mul hk.1.2.2.1⟩, fun hk => hk.1⟩)
      (fun _ _ => rfl)
  · intro jc hjc
    have e3 : gctr + (104*t*(S.jc*S.ic*S.nf) + jc*(S.ic*(bgrids ngrids (104*t)*S.nf))) =
      gctr + (104*t*(S.jc*S.ic*S.nf) + (jc*S.ic+0)*(bgrids ngrids (104*t)*S.nf)) := by congr 1; ring
    rw [e3]
    refine ((Writes.forS (s := fun ic => gctr + (104*t*(S.jc*S.ic*S.nf) + (jc*S.ic+ic)*(bgrids ngrids (104*t)*S.nf)))
      (P := fun k => (inGrid S ngrids k ∧ k.1/104 = t) ∧ k.2.2.1/S.dj = jc) (d := fun k => k.2.1/S.di)
      (H.stable (fun k hk => hk.1.1) _) (fun k hk => hWP k hk.1.1) (fun k k' a b => hinj k k' a.1.1 b.1.1) ?_).weaken
      (fun _ x => x) ?_ (fun _ x => x)).congr
      (fun k => ⟨fun hk => ⟨hk, Nat.div_lt_of_lt_mul hk.1.1.2.1⟩, fun hk => hk.1⟩) (fun _ _ => rfl)
    · intro ic hic
      refine (blockG H ht hjc hic rfl).weaken (fun _ x => x) ?_ (fun _ x => x)
      rintro a rfl
      rw [Ptr.add_assoc]; congr 1; ring
    · rintro a rfl
      congr 1; ring
  · rintro a rfl
    congr 1; ring

end

/-- c2s_grids_dset0 -/
theorem c2sGridsDset0_wp [Zero α] {out dims counts loc2 : Ptr} {nd cnt : Nat → Nat} {h : Heap α}
    (hd : ∀ t, t < 3 → h.I (dims + t) = .val (nd t)) (hd3 : ∃ z, h.I (dims + 3) = .val z)
    (hc : ∀ t, t < 4 → h.I (counts + t) = .val (cnt t)) (hl : ∀ t, t < 8 → h.I (loc2 + t) ≠ .oob)
    (hdl : dims.buf ≠ loc2.buf)
    (hal : ∀ k, inBlk (cnt 2) (cnt 0) (cnt 1) (cnt 3) k → h.D (out + pos4 (nd 2) (nd 0) (nd 1) k) ≠ .oob) :
    wp (c2sGridsDset0 out dims counts loc2) (fun _ h' =>
      (∀ k, inBlk (cnt 2) (cnt 0) (cnt 1) (cnt 3) k → h'.D (out + pos4 (nd 2) (nd 0) (nd 1) k) = .val 0) ∧
      (∀ q, (∀ k, inBlk (cnt 2) (cnt 0) (cnt 1) (cnt 3) k → q ≠ out + pos4 (nd 2) (nd 0) (nd 1) k) → h'.D q = h.D q) ∧
      (∀ q, h.D q ≠ .oob → h'.D q ≠ .oob) ∧
      (∀ t, t < 8 → h'.I (loc2 + t) ≠ .oob) ∧
      ∀ q, q.buf ≠ loc2.buf → h'.I q = h.I q) h := by
  unfold c2sGridsDset0
  have z : ∀ p : Ptr, p + 0 = p := Ptr.add_zero
  have c0 := hc 0 (by omega)
  have d0 := hd 0 (by omega)
  rw [z] at c0 d0
  obtain ⟨d3, hd3⟩ := hd3
  have l0 := hl 0 (by omega)
  rw [z] at l0
  have f0 : ∀ t : Nat, dims + t ≠ loc2 := fun t e => hdl (show (dims + t).buf = loc2.buf by rw [e])
  have f1 : ∀ t k : Nat, dims + t ≠ loc2 + k := fun t k e => hdl (show (dims + t).buf = (loc2 + k).buf by rw [e])
  have f2 : ∀ k : Nat, dims ≠ loc2 + k := fun k e => hdl (show dims.buf = (loc2 + k).buf by rw [e])
  have f3 : dims ≠ loc2 := fun e => hdl (congrArg Ptr.buf e)
  have n0 : ∀ k : Nat, loc2 + (k+1) ≠ loc2 := fun k e => by
    have : loc2.off + (k+1) = loc2.off := congrArg Ptr.off e
    omega
  have n1 : ∀ k m : Nat, loc2 + k = loc2 + m ↔ k = m := fun k m => Ptr.add_right_inj _ _ _
  simp only [wp_mbind, wp_ldI, wp_stI]
  refine ⟨_, hc 2 (by omega), _, c0, _, hc 1 (by omega), _, hc 3 (by omega), l0, ?_, ?_, ?_, ?_⟩
  · rw [Heap.setI_I_ne _ _ (n0 0)]; exact hl 1 (by omega)
  · simp only [Heap.setI_I, n1, n0 1, if_false, reduceCtorEq, ne_eq, OfNat.ofNat_ne_one]; exact hl 2 (by omega)
  · simp only [Heap.setI_I, n1, n0 2, if_false]
    exact hl 3 (by omega)
  refine ⟨nd 2, ?_, nd 0, ?_, nd 1, ?_, d3, ?_, ?_⟩
  · simp only [Heap.setI_I, f0, f1, if_false]; exact hd 2 (by omega)
  · simp only [Heap.setI_I, f2, f3, if_false]; exact d0
  · simp only [Heap.setI_I, f0, f1, if_false]; exact hd 1 (by omega)
  · simp only [Heap.setI_I, f0, f1, if_false]; exact hd3
  refine ⟨?_, ?_, ?_, ?_, ?_⟩
  · simp only [Heap.setI_I, n1, n0 3, if_false]; exact hl 4 (by omega)
  · simp only [Heap.setI_I, n1, n0 4, if_false]; exact hl 5 (by omega)
  · simp only [Heap.setI_I, n1, n0 5, if_false]; exact hl 6 (by omega)
  · simp only [Heap.setI_I, n1, n0 6, if_false]; exact hl 7 (by omega)
  let nd' : Nat → Nat := fun t => if t = 0 then nd 2 else if t = 1 then nd 0 else nd 1
  let cnt' : Nat → Nat := fun t => if t = 0 then cnt 2 else if t = 1 then cnt 0 else if t = 2 then cnt 1 else cnt 3
  refine wp_mono (wp_allocMono (c2sDset0_writes (nd := nd') (cnt := cnt') (out := out) _ ⟨?_, ?_, ?_⟩)) ?_
  · intro t ht
    obtain rfl | rfl | rfl : t = 0 ∨ t = 1 ∨ t = 2 := by omega
    · exact ⟨nd 2, by simp only [Heap.setI_I, Ptr.add_assoc, n1, n0 3]; rfl, by simp [nd']⟩
    · exact ⟨nd 0, by simp only [Heap.setI_I, Ptr.add_assoc, n1, n0 4]; rfl, by simp [nd']⟩
    · exact ⟨nd 1, by simp only [Heap.setI_I, Ptr.add_assoc, n1, n0 5]; rfl, by simp [nd']⟩
  · intro t ht
    have z0 : loc2 = loc2 + 0 := (z _).symm
    obtain rfl | rfl | rfl | rfl : t = 0 ∨ t = 1 ∨ t = 2 ∨ t = 3 := by omega
    · rw [z]; simp only [Heap.setI_I, (fun k => (n0 k).symm : ∀ k, loc2 ≠ loc2 + (k+1)), if_true, cnt']
      simp [fun k => (n0 k).symm]
    · simp only [Heap.setI_I, n1, n0 0]; rfl
    · simp only [Heap.setI_I, n1, n0 1]; rfl
    · simp only [Heap.setI_I, n1, n0 2]; rfl
  · exact hal
  · rintro _ h' ⟨⟨_, HW⟩, hm⟩
    refine ⟨HW.val, fun q hq => HW.frame q (fun x => x) hq, fun q hq => HW.alloc q hq, fun t ht => ?_, fun q hq => ?_⟩
    · rw [HW.int]
      simp only [Heap.setI_I]
      split_ifs <;> first | exact hl t ht | simp
    · rw [HW.int]
      have g0 : q ≠ loc2 := fun e => hq (congrArg Ptr.buf e)
      have g1 : ∀ k : Nat, q ≠ loc2 + k := fun k e => hq (show q.buf = (loc2 + k).buf by rw [e])
      simp only [Heap.setI_I, g0, g1, if_false]

end Verif.Lemmas
