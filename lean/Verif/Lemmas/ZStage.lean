import Verif.Lemmas.ZOut
import Verif.Props.Out

/-! Output stage of the spinor drivers. -/
namespace Verif.Lemmas
open Verif Verif.Model Verif.Prog Verif.Spec Verif.Props

variable {α : Type} [Field α]

/-- the two stores of one element -/
theorem zst0_writes {ok : Heap α → Prop} {P : Zx → Prop} {addr : Zx → Ptr} {q : Ix4} {out : Ptr}
    {d : Nat} (hst : Stable (fun _ => False) ok P addr (fun _ => 0))
    (hP : ∀ k, P k ↔ k.2 = q) (h0 : out + 2*d = addr (false, q)) (h1 : out + (2*d+1) = addr (true, q))
    (ha : ∀ h, ok h → ∀ im, h.D (addr (im, q)) ≠ .oob) :
    Writes (fun _ => False) ok (zst0 out d) (fun _ => True) P addr (fun _ => (0:α)) := by
  unfold zst0
  refine Writes.seq (P1 := fun k => k = (false, q)) (P2 := fun k => k = (true, q))
    (Writes.st h0 rfl (fun h hh => ha h hh _) (fun k => Iff.rfl)) (Writes.st h1 rfl (fun h hh => ha h hh _) (fun k => Iff.rfl))
    (fun h h' P' hP' => hst h h' P' (fun k hk => (hP k).2 (by rw [hP' k hk]))) (fun _ _ x => x)
    (fun _ _ _ _ _ => rfl) ?_
  rintro ⟨im, k⟩
  rw [hP]
  cases im <;> simp

/-- what `c2s_zset0` needs -/
structure Zset0Ok (dims counts out : Ptr) (nd cnt : Nat → Nat) (h : Heap α) : Prop where
  d : ∀ t, t < 3 → ∃ z : Int, h.I (dims + t) = .val z ∧ z.toNat = nd t
  c : ∀ t, t < 4 → h.I (counts + t) = .val (cnt t)
  al : ∀ k : Zx, inBlk (cnt 0) (cnt 1) (cnt 2) (cnt 3) k.2 → h.D (out + posZ (nd 0) (nd 1) (nd 2) k) ≠ .oob

theorem c2sZset0_writes {dims counts out : Ptr} {nd cnt : Nat → Nat} :
    Writes (fun _ => False) (Zset0Ok (α := α) dims counts out nd cnt) (c2sZset0 out dims counts) (fun _ => True)
      (fun k : Zx => inBlk (cnt 0) (cnt 1) (cnt 2) (cnt 3) k.2) (fun k => out + posZ (nd 0) (nd 1) (nd 2) k) (fun _ => 0) := by
  have hst : ∀ P : Zx → Prop, Stable (fun _ => False) (Zset0Ok (α := α) dims counts out nd cnt) P
      (fun k => out + posZ (nd 0) (nd 1) (nd 2) k) (fun _ => 0) := by
    intro P h h' P' _ hok H
    refine ⟨fun t ht => ?_, fun t ht => ?_, fun k hk => H.alloc _ (hok.al k hk)⟩
    · rw [H.int]; exact hok.d t ht
    · rw [H.int]; exact hok.c t ht
  intro h hok
  unfold c2sZset0
  simp only [wp_mbind, wp_ldI]
  obtain ⟨z0, d0, t0⟩ := hok.d 0 (by omega)
  obtain ⟨z1, d1, t1⟩ := hok.d 1 (by omega)
  obtain ⟨z2, d2, t2⟩ := hok.d 2 (by omega)
  refine ⟨_, d0, _, d1, _, d2, ?_⟩
  simp only [t0, t1, t2]
  split
  · rename_i e
    subst e
    have e0 : nd 0 = cnt 0 := by
      rw [hok.c 0 (by omega)] at d0
      simp only [Cell.val.injEq] at d0; omega
    have e1 : nd 1 = cnt 1 := by
      rw [hok.c 1 (by omega)] at d1
      simp only [Cell.val.injEq] at d1; omega
    have e2 : nd 2 = cnt 2 := by
      rw [hok.c 2 (by omega)] at d2
      simp only [Cell.val.injEq] at d2; omega
    simp only [wp_mbind, wp_ldI]
    refine ⟨_, hok.c 3 (by omega), ?_⟩
    simp only [Int.toNat_natCast]
    have key := Writes.forN (W := fun _ => False) (ok := Zset0Ok (α := α) dims dims out nd cnt)
      (n := nd 0 * nd 1 * nd 2 * cnt 3) (f := fun i => zst0 (α := α) out i)
      (P := fun k : Zx => inBlk (cnt 0) (cnt 1) (cnt 2) (cnt 3) k.2)
      (d := fun k => pos4 (nd 0) (nd 1) (nd 2) k.2) (addr := fun k => out + posZ (nd 0) (nd 1) (nd 2) k) (v := fun _ => 0)
      (hst _) (fun _ _ x => x) (fun _ _ _ _ _ => rfl) ?_ h hok
    · refine wp_mono key ?_
      rintro _ h' ⟨_, H⟩
      refine ⟨True.intro, H.congr (fun k => ⟨fun hk => ⟨hk, ?_⟩, fun hk => hk.1⟩) (fun _ _ => rfl)⟩
      obtain ⟨a, b, c, d⟩ := hk
      exact pos4_lt (by omega) (by omega) (by omega) d
    · intro m hm
      obtain ⟨k, ⟨a, b, c, d⟩, e⟩ := pos4_surj hm
      have hk : inBlk (cnt 0) (cnt 1) (cnt 2) (cnt 3) k := ⟨by omega, by omega, by omega, d⟩
      refine zst0_writes (q := k) (hst _) (fun k' => ?_) ?_ ?_ (fun h hok im => hok.al (im, k) hk)
      · constructor
        · rintro ⟨⟨a', b', c', d'⟩, e'⟩
          exact pos4_inj (by omega) (by omega) (by omega) a b c (e'.trans e)
        · intro e'
          rw [e']
          exact ⟨hk, e.symm⟩
      · rw [e]; rfl
      · rw [e]; rfl
  · simp only [wp_mbind, wp_ldI]
    refine ⟨_, hok.c 0 (by omega), _, hok.c 1 (by omega), _, hok.c 2 (by omega), _, hok.c 3 (by omega), ?_⟩
    simp only [Int.toNat_natCast]
    have key := Writes.forS (W := fun _ => False) (ok := Zset0Ok (α := α) dims counts out nd cnt)
      (n := cnt 3) (s := fun l => out + l*(2*(nd 0*nd 1*nd 2)))
      (f := fun _ (out : Ptr) => do
        forN (cnt 2) fun k =>
          let pout := out + 2*(k * (nd 0*nd 1))
          forN (cnt 1) fun j => forN (cnt 0) fun i => zst0 (α := α) pout (j*nd 0+i)
        pure (out + 2*(nd 0*nd 1*nd 2)))
      (P := fun k : Zx => inBlk (cnt 0) (cnt 1) (cnt 2) (cnt 3) k.2) (d := fun k => k.2.2.2.2)
      (addr := fun k => out + posZ (nd 0) (nd 1) (nd 2) k) (v := fun _ => 0)
      (hst _) (fun _ _ x => x) (fun _ _ _ _ _ => rfl) ?_ h hok
    · simp only [Nat.zero_mul, Ptr.add_zero] at key
      refine wp_mono key ?_
      rintro _ h' ⟨_, H⟩
      rw [wp_pure]
      exact ⟨True.intro, H.congr (fun k => ⟨fun hk => ⟨hk, hk.2.2.2⟩, fun hk => hk.1⟩) (fun _ _ => rfl)⟩
    · intro l hl h1 hok1
      rw [wp_mbind]
      refine wp_mono ((Writes.forN (P := fun k : Zx => inBlk (cnt 0) (cnt 1) (cnt 2) (cnt 3) k.2 ∧ k.2.2.2.2 = l)
        (d := fun k => k.2.2.2.1) (hst _) (fun _ _ x => x) (fun _ _ _ _ _ => rfl) ?_) h1 hok1) ?_
      swap
      · rintro _ h' ⟨_, H⟩
        rw [wp_pure]
        refine ⟨?_, H.congr (fun k => by unfold inBlk; omega) (fun _ _ => rfl)⟩
        rw [Ptr.add_assoc]; congr 1; ring
      intro k hk
      refine (Writes.forN (P := fun q : Zx => (inBlk (cnt 0) (cnt 1) (cnt 2) (cnt 3) q.2 ∧ q.2.2.2.2 = l) ∧ q.2.2.2.1 = k)
        (d := fun q => q.2.2.1) (hst _) (fun _ _ x => x) (fun _ _ _ _ _ => rfl) ?_).congr
        (fun q => by unfold inBlk; omega) (fun _ _ => rfl)
      intro j hj
      refine (Writes.forN (P := fun q : Zx => ((inBlk (cnt 0) (cnt 1) (cnt 2) (cnt 3) q.2 ∧ q.2.2.2.2 = l) ∧ q.2.2.2.1 = k) ∧
          q.2.2.1 = j)
        (d := fun q => q.2.1) (hst _) (fun _ _ x => x) (fun _ _ _ _ _ => rfl) ?_).congr
        (fun q => by unfold inBlk; omega) (fun _ _ => rfl)
      intro i hi
      refine zst0_writes (q := (i,j,k,l)) (hst _) (fun q => ?_) ?_ ?_
        (fun h hok im => hok.al (im,i,j,k,l) ⟨hi, hj, hk, hl⟩)
      · simp only [Prod.ext_iff]
        unfold inBlk
        constructor
        · rintro ⟨⟨⟨⟨_, h1⟩, h2⟩, h3⟩, h4⟩; exact ⟨h4, h3, h2, h1⟩
        · rintro ⟨h1, h2, h3, h4⟩
          exact ⟨⟨⟨⟨⟨by omega, by omega, by omega, by omega⟩, h4⟩, h3⟩, h2⟩, h1⟩
      · simp only [Ptr.add_assoc, posZ, pos4, imOff, Bool.false_eq_true, if_false]
        congr 1; ring
      · simp only [Ptr.add_assoc, posZ, pos4, imOff, if_true]
        congr 1; ring

/-- looping a family of writers over the components -/
theorem compZ_writes {W : Ptr → Prop} {ok : Heap α → Prop} {P : Zx → Prop} {nComp nout : Nat} {out : Ptr}
    {ad : Zx → Nat} {v : Nat → Zx → α} {f : Nat → Prog α Unit}
    (hW : ∀ n k, n < nComp → P k → ¬ W (out + nout*n + ad k))
    (hlt : ∀ k, P k → ad k < nout) (hinj : ∀ k k', P k → P k' → ad k = ad k' → k = k')
    (hst : ∀ n, n < nComp → Stable W ok P (fun k => out + nout*n + ad k) (v n))
    (H : ∀ n, n < nComp → Writes W ok (f n) (fun _ => True) P (fun k => out + nout*n + ad k) (v n)) :
    Writes W ok (forN nComp f) (fun _ => True) (fun k : Nat × Zx => k.1 < nComp ∧ P k.2)
      (fun k => out + nout*k.1 + ad k.2) (fun k => v k.1 k.2) := by
  have hinj2 : ∀ k k' : Nat × Zx, (k.1 < nComp ∧ P k.2) → (k'.1 < nComp ∧ P k'.2) →
      out + nout*k.1 + ad k.2 = out + nout*k'.1 + ad k'.2 → k = k' := by
    rintro ⟨n, k⟩ ⟨n', k'⟩ ⟨_, hk⟩ ⟨_, hk'⟩ e
    simp only [Ptr.add_assoc, Ptr.add_right_inj] at e
    rw [Nat.mul_comm nout n, Nat.mul_comm nout n'] at e
    obtain ⟨e1, e2⟩ := radix_inj (hlt k hk) (hlt k' hk') e
    rw [e1, hinj k k' hk hk' e2]
  intro h hok
  refine wp_forN (fun t h' => ok h' ∧ Wr W h h' (fun k : Nat × Zx => (k.1 < nComp ∧ P k.2) ∧ k.1 < t)
      (fun k => out + nout*k.1 + ad k.2) (fun k => v k.1 k.2))
    ⟨hok, Wr.init _ (fun k hk => by omega)⟩ ?_ ?_
  · rintro t ht h1 ⟨hok1, H1⟩
    refine wp_mono (H t ht h1 hok1) ?_
    rintro _ h2 ⟨_, H2⟩
    refine ⟨hst t ht h1 h2 _ (fun _ x => x) hok1 H2, ?_⟩
    have H2' : Wr W h1 h2 (fun k : Nat × Zx => (k.1 < nComp ∧ P k.2) ∧ k.1 = t)
      (fun k => out + nout*k.1 + ad k.2) (fun k => v k.1 k.2) := by
      refine H2.reindex ?_ ?_
      · rintro ⟨n, k⟩ ⟨⟨_, hk⟩, e⟩
        dsimp only at e hk
        subst e
        exact ⟨k, hk, rfl, rfl⟩
      · intro k hk
        exact ⟨(t, k), ⟨⟨ht, hk⟩, rfl⟩, rfl⟩
    refine H1.comp H2' (fun k hk => hW _ _ hk.1.1 hk.1.2) (fun k k' a b e => by rw [hinj2 k k' a.1 b.1 e])
      (fun k => ?_)
    constructor
    · rintro ⟨a, b⟩
      rcases Nat.lt_succ_iff_lt_or_eq.1 b with b | b
      · exact Or.inl ⟨a, b⟩
      · exact Or.inr ⟨a, b⟩
    · rintro (⟨a, b⟩ | ⟨a, b⟩)
      · exact ⟨a, by omega⟩
      · exact ⟨a, by omega⟩
  · rintro h' ⟨_, H⟩
    exact ⟨True.intro, H.congr (fun k => ⟨fun hk => ⟨hk, hk.1⟩, fun hk => hk.1⟩) (fun _ _ => rfl)⟩

theorem outAtZ_eq (nd : Nat → Nat) (n : Nat) (k : Zx) :
    2*outAt nd n k.2.1 k.2.2.1 k.2.2.2.1 k.2.2.2.2 + imOff k.1 =
      2*(nd 0 * nd 1 * nd 2 * nd 3)*n + posZ (nd 0) (nd 1) (nd 2) k := by
  rw [outAt_eq nd n k.2]
  unfold posZ; ring

/-- element `m` of an array of doubles belongs to a complex block -/
theorem inBlockZ_iff {nd cnt : Nat → Nat} {ncomp m : Nat} : InBlock nd cnt ncomp (m/2) ↔
    ∃ n, ∃ k : Zx, n < ncomp ∧ inBlk (cnt 0) (cnt 1) (cnt 2) (cnt 3) k.2 ∧
      m = 2*(nd 0 * nd 1 * nd 2 * nd 3)*n + posZ (nd 0) (nd 1) (nd 2) k := by
  rw [inBlock_iff]
  constructor
  · rintro ⟨n, k, hn, hk, e⟩
    refine ⟨n, (decide (m%2 = 1), k), hn, hk, ?_⟩
    have e2 : m = 2*(m/2) + m%2 := (Nat.div_add_mod m 2).symm
    rw [e] at e2
    have e3 : imOff (decide (m%2 = 1)) = m%2 := by
      rcases Nat.mod_two_eq_zero_or_one m with h | h <;> rw [h] <;> rfl
    unfold posZ
    dsimp only
    rw [e3]
    calc m = _ := e2
      _ = _ := by ring
  · rintro ⟨n, k, hn, hk, e⟩
    refine ⟨n, k.2, hn, hk, ?_⟩
    have := imOff_lt k.1
    have e2 : m = 2*(nd 0*nd 1*nd 2*nd 3*n + pos4 (nd 0) (nd 1) (nd 2) k.2) + imOff k.1 := by
      rw [e]; unfold posZ; ring
    omega

section
variable {r : Nat} {nf nctr nd : Nat → Nat} {nT : Nat} {out : Ptr} {dims : Option Ptr} {counts : Ptr} {h : Heap α}

theorem posZ_lt {ni nj nk nl : Nat} {k : Zx} (h1 : k.2.1 < ni) (h2 : k.2.2.1 < nj) (h3 : k.2.2.2.1 < nk)
    (h4 : k.2.2.2.2 < nl) : posZ ni nj nk k < 2*(ni*nj*nk*nl) := by
  have := pos4_lt h1 h2 h3 h4
  have := imOff_lt k.1
  unfold posZ
  omega

/-- the stage with values; `f n` transforms tensor element `n` and stores it -/
theorem zOutStage_value (hs : Sizes r nf nctr nd) (nfc : Nat) {f : Nat → Ptr → Ptr → Prog α Unit}
    {V : Nat → Ix4 → Cx α} {W : Ptr → Prop} {ok : Heap α → Prop}
    (hd : DimsArg r h dims counts nd (fun t => nf t * nctr t))
    (hcnt : ∀ t, t < 4 → h.I (counts + t) ≠ .oob)
    (hok : ∀ h', h'.D = h.D → (∀ q, (∀ t, t < 4 → q ≠ counts + t) → h'.I q = h.I q) →
      (∀ t, t < r → h'.I (dims.getD counts + t) = .val (nd t)) → ok h')
    (hkeep : ∀ h1 h2 : Heap α, ok h1 → AgreeD h1 h2 (fun q => W q ∨
      ∃ m, InBlock nd (fun t => nf t * nctr t) nT (m/2) ∧ q = out + m) → (∀ q, h1.D q ≠ .oob → h2.D q ≠ .oob) →
      h2.I = h1.I → ok h2)
    (hsep : ∀ q, W q → ¬ ∃ m, InBlock nd (fun t => nf t * nctr t) nT (m/2) ∧ q = out + m)
    (F : ∀ n, n < nT → Writes W ok (f n (out + 2*(nd 0*nd 1*nd 2*nd 3)*n) (dims.getD counts)) (fun _ => True)
      (fun k : Zx => inOut (shapeOf nf nctr nfc) k.2)
      (fun k => out + 2*(nd 0*nd 1*nd 2*nd 3)*n + posZ (nd 0) (nd 1) (nd 2) k) (fun k => part (V n k.2) k.1)) :
    ∃ h', run (zOutStage r true nT f out dims counts (fun t => nf t * nctr t)) h = some ((), h') ∧
      (∀ im n I J K L, n < nT → I < nf 0*nctr 0 → J < nf 1*nctr 1 → K < nf 2*nctr 2 → L < nf 3*nctr 3 →
        h'.D (out + (2*outAt nd n I J K L + imOff im)) = .val (part (V n (I,J,K,L)) im)) ∧
      (∀ q, ¬ W q → (∀ m, InBlock nd (fun t => nf t * nctr t) nT (m/2) → q ≠ out + m) → h'.D q = h.D q) ∧
      (∀ q, (∀ t, t < 4 → q ≠ counts + t) → h'.I q = h.I q) := by
  have hS := hs.shapeR nfc
  have hr4 : r ≤ 4 := hS.r4
  refine (wp_iff_run _ (fun _ h' => _) _).1 ?_ |>.elim (fun _ hx => hx.elim fun h' hh => ⟨h', hh⟩)
  unfold zOutStage
  rw [wp_mbind]
  refine counts_wp hcnt ?_
  intro h1 e1 c1 f1
  have hdm := dims_in_effect hr4 hd c1 f1
  rw [wp_mbind]
  refine prodDims_wp hdm ?_
  rw [prod_nd hS]
  have hInB : ∀ n, ∀ k : Zx, n < nT → inOut (shapeOf nf nctr nfc) k.2 →
      InBlock nd (fun t => nf t * nctr t) nT ((2*(nd 0 * nd 1 * nd 2 * nd 3) * n + posZ (nd 0) (nd 1) (nd 2) k)/2) :=
    fun n k hn hk => inBlockZ_iff.2 ⟨n, k, hn, hk, rfl⟩
  rw [if_pos rfl]
  have f0 := hs.fits 0 (by omega)
  have f1' := hs.fits 1 (by omega)
  have f2 := hs.fits 2 (by omega)
  have f3 := hs.fits 3 (by omega)
  simp only [← Nat.mul_assoc 2]
  refine wp_mono (compZ_writes (P := fun k : Zx => inOut (shapeOf nf nctr nfc) k.2) (ok := ok) (W := W)
    (out := out) (nout := 2*(nd 0 * nd 1 * nd 2 * nd 3)) (ad := fun k => posZ (nd 0) (nd 1) (nd 2) k)
    (v := fun n k => part (V n k.2) k.1)
    ?_ ?_ ?_ ?_ ?_ h1 (hok h1 e1 f1 hdm)) ?_
  · intro n k hn hk hw
    exact hsep _ hw ⟨_, hInB n k hn hk, by rw [Ptr.add_assoc]⟩
  · rintro k ⟨a, b, c, d⟩
    exact posZ_lt (lt_of_lt_of_le a f0) (lt_of_lt_of_le b f1') (lt_of_lt_of_le c f2) (lt_of_lt_of_le d f3)
  · rintro k k' ⟨a, b, c, d⟩ ⟨a', b', c', d'⟩ e
    exact posZ_inj (lt_of_lt_of_le a f0) (lt_of_lt_of_le b f1') (lt_of_lt_of_le c f2)
      (lt_of_lt_of_le a' f0) (lt_of_lt_of_le b' f1') (lt_of_lt_of_le c' f2) e
  · intro n hn h2 h3 P' hP' hok2 HW
    refine hkeep h2 h3 hok2 (HW.agree.mono (fun q hq => ?_)) HW.alloc HW.int
    rcases hq with hq | ⟨k, hk, e⟩
    · exact Or.inl hq
    · exact Or.inr ⟨_, hInB n k hn (hP' k hk), by rw [e, Ptr.add_assoc]⟩
  · intro n hn
    have := F n hn
    simpa only [← Nat.mul_assoc 2] using this
  · rintro _ h2 ⟨_, HW⟩
    refine ⟨?_, ?_, ?_⟩
    · intro im n I J K L hn hI hJ hK hL
      have := HW.val (n, (im,I,J,K,L)) ⟨hn, hI, hJ, hK, hL⟩
      rw [Ptr.add_assoc] at this
      rw [← this]
      congr 2
      exact outAtZ_eq nd n (im,I,J,K,L)
    · intro q hw hq
      rw [HW.frame q hw ?_, e1]
      rintro ⟨n, k⟩ ⟨hn, hk⟩ e
      exact hq _ (hInB n k hn hk) (by rw [e, Ptr.add_assoc])
    · intro q hq
      rw [HW.int]; exact f1 q hq

/-- the stage without values -/
theorem zOutStage_zero (hs : Sizes r nf nctr nd) {f : Nat → Ptr → Ptr → Prog α Unit}
    (hd : DimsArg r h dims counts nd (fun t => nf t * nctr t))
    (hd2 : ∀ d, dims = some d → r = 2 → ∃ x, h.I (d + 2) = .val x)
    (hcnt : ∀ t, t < 4 → h.I (counts + t) ≠ .oob)
    (hal : ∀ m, InBlock nd (fun t => nf t * nctr t) nT (m/2) → h.D (out + m) ≠ .oob) :
    ∃ h', run (zOutStage r false nT f out dims counts (fun t => nf t * nctr t)) h = some ((), h') ∧
      (∀ m, InBlock nd (fun t => nf t * nctr t) nT (m/2) → h'.D (out + m) = .val 0) ∧
      (∀ q, (∀ m, InBlock nd (fun t => nf t * nctr t) nT (m/2) → q ≠ out + m) → h'.D q = h.D q) ∧
      (∀ q, (∀ t, t < 4 → q ≠ counts + t) → h'.I q = h.I q) := by
  have hS := hs.shapeR 0
  have hr4 : r ≤ 4 := hS.r4
  refine (wp_iff_run _ (fun _ h' => _) _).1 ?_ |>.elim (fun _ hx => hx.elim fun h' hh => ⟨h', hh⟩)
  unfold zOutStage
  rw [wp_mbind]
  refine counts_wp hcnt ?_
  intro h1 e1 c1 f1
  have hdm := dims_in_effect hr4 hd c1 f1
  rw [wp_mbind]
  refine prodDims_wp hdm ?_
  rw [prod_nd hS]
  rw [if_neg (by simp)]
  obtain ⟨z2, hz2, ht2⟩ : ∃ z2 : Int, h1.I (dims.getD counts + 2) = .val z2 ∧ (r ≠ 2 → z2.toNat = nd 2) := by
    by_cases hr : r = 2
    · cases dims with
      | none => exact ⟨_, c1 2 (by omega), fun x => absurd hr x⟩
      | some d =>
        obtain ⟨x, hx⟩ := hd2 d rfl hr
        refine ⟨x, ?_, fun x => absurd hr x⟩
        rw [Option.getD_some, f1 (d + 2) (fun s _ e => hd.2 (Ptr.ext_iff'.1 e).1), hx]
    · have := hs.rank
      exact ⟨_, hdm 2 (by omega), fun _ => by simp⟩
  let nd' : Nat → Nat := fun t => if t = 2 then z2.toNat else nd t
  have hpos : ∀ k : Zx, inOut (shapeOf nf nctr 0) k.2 →
      posZ (nd' 0) (nd' 1) (nd' 2) k = posZ (nd 0) (nd 1) (nd 2) k := by
    intro k hk
    by_cases hr : r = 2
    · have h1 := hk.2.2.2
      have hl := hS.l (by omega)
      rw [hl.1, hl.2.1] at h1
      have h0 : k.2.2.2.2 = 0 := by omega
      unfold posZ pos4
      rw [h0]
      simp [nd']
    · have : nd' 2 = nd 2 := by simp only [nd', if_true]; exact ht2 hr
      rw [this]; simp [nd']
  have hInB : ∀ n, ∀ k : Zx, n < nT → inOut (shapeOf nf nctr 0) k.2 →
      InBlock nd (fun t => nf t * nctr t) nT ((2*(nd 0 * nd 1 * nd 2 * nd 3) * n + posZ (nd 0) (nd 1) (nd 2) k)/2) :=
    fun n k hn hk => inBlockZ_iff.2 ⟨n, k, hn, hk, rfl⟩
  have f0 := hs.fits 0 (by omega)
  have f1' := hs.fits 1 (by omega)
  have f2 := hs.fits 2 (by omega)
  have f3 := hs.fits 3 (by omega)
  let ok' : Heap α → Prop := fun h' => ∀ n, n < nT →
    Zset0Ok (dims.getD counts) counts (out + 2*(nd 0 * nd 1 * nd 2 * nd 3) * n) nd' (fun t => nf t * nctr t) h'
  have hok1 : ok' h1 := by
    intro n hn
    refine ⟨fun t ht => ?_, c1, fun k hk => ?_⟩
    · by_cases h2 : t = 2
      · subst h2; exact ⟨z2, hz2, by simp [nd']⟩
      · refine ⟨nd t, hdm t (by have := hs.rank; omega), ?_⟩
        simp [nd', h2]
    · rw [hpos k hk, e1, Ptr.add_assoc]
      exact hal _ (hInB n k hn hk)
  simp only [← Nat.mul_assoc 2]
  refine wp_mono (compZ_writes (P := fun k : Zx => inOut (shapeOf nf nctr 0) k.2) (ok := ok') (W := fun _ => False)
    (out := out) (nout := 2*(nd 0 * nd 1 * nd 2 * nd 3)) (ad := fun k => posZ (nd 0) (nd 1) (nd 2) k)
    (v := fun _ _ => 0) ?_ ?_ ?_ ?_ ?_ h1 hok1) ?_
  · intro n k hn hk hw
    exact hw
  · rintro k ⟨a, b, c, d⟩
    exact posZ_lt (lt_of_lt_of_le a f0) (lt_of_lt_of_le b f1') (lt_of_lt_of_le c f2) (lt_of_lt_of_le d f3)
  · rintro k k' ⟨a, b, c, d⟩ ⟨a', b', c', d'⟩ e
    exact posZ_inj (lt_of_lt_of_le a f0) (lt_of_lt_of_le b f1') (lt_of_lt_of_le c f2)
      (lt_of_lt_of_le a' f0) (lt_of_lt_of_le b' f1') (lt_of_lt_of_le c' f2) e
  · intro n hn h2 h3 P' hP' hok2 HW n' hn'
    refine ⟨fun t ht => ?_, fun t ht => ?_, fun k hk => HW.alloc _ ((hok2 n' hn').al k hk)⟩
    · rw [HW.int]; exact (hok2 n' hn').d t ht
    · rw [HW.int]; exact (hok2 n' hn').c t ht
  · intro n hn h2 hok2
    have := c2sZset0_writes h2 (hok2 n hn)
    simp only [← Nat.mul_assoc 2] at this ⊢
    refine wp_mono this ?_
    rintro _ h3 ⟨_, HW⟩
    refine ⟨True.intro, HW.reindex (fun k hk => ⟨k, hk, by rw [hpos k hk], rfl⟩)
      (fun k hk => ⟨k, hk, by rw [hpos k hk]⟩)⟩
  · rintro _ h2 ⟨_, HW⟩
    refine ⟨?_, ?_, ?_⟩
    · intro m hm
      obtain ⟨n, k, hn, hk, rfl⟩ := inBlockZ_iff.1 hm
      rw [← Ptr.add_assoc]
      exact HW.val (n, k) ⟨hn, hk⟩
    · intro q hq
      rw [HW.frame q (fun x => x) ?_, e1]
      rintro ⟨n, k⟩ ⟨hn, hk⟩ e
      exact hq _ (hInB n k hn hk) (by rw [e, Ptr.add_assoc])
    · intro q hq
      rw [HW.int]; exact f1 q hq

end
end Verif.Lemmas
