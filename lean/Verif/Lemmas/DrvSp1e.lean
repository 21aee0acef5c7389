import Verif.Lemmas.SpTwo
import Verif.Lemmas.DrvOut
import Verif.Lemmas.DrvSph

/-! CINT1e_spinor_drv. -/
namespace Verif.Lemmas
open Verif Verif.Model Verif.Prog Verif.Spec Verif.Props

variable {α : Type} [Field α]

theorem blk_iff {buf o N : Nat} {q : Ptr} : Blk ⟨buf, o⟩ N q ↔ q.buf = buf ∧ o ≤ q.off ∧ q.off < o + N := by
  constructor
  · rintro ⟨j, hj, rfl⟩
    exact ⟨rfl, Nat.le_add_right _ _, Nat.add_lt_add_left hj _⟩
  · rintro ⟨h1, h2, h3⟩
    refine ⟨q.off - o, by omega, ?_⟩
    obtain ⟨b, f⟩ := q
    dsimp only at h1 h2
    subst h1
    show (⟨b, f⟩ : Ptr) = ⟨b, o + (f - o)⟩
    rw [Nat.add_sub_cancel' h2]

/-- free cells of the cache -/
def Room (h : Heap α) (buf o size : Nat) : Prop := ∀ k, o ≤ k → k < size → h.D ⟨buf, k⟩ ≠ .oob

theorem outS_of_room {h : Heap α} {buf o size a b N : Nat} (H : Room h buf o size) (ha : o ≤ a) (hab : a + N ≤ b)
    (hb : b + N ≤ size) : OutS h ⟨buf, a⟩ ⟨buf, b⟩ N := by
  refine ⟨fun k hk => H (a+k) (by omega) (by omega), fun k hk => H (b+k) (by omega) (by omega), ?_⟩
  intro i j hi hj e
  have : a + i = b + j := (congrArg Ptr.off e :)
  omega

/-- four arrays one after the other in the cache -/
theorem reg2_room {buf a b N : Nat} {q : Ptr} (hq : Reg2 ⟨buf, a⟩ ⟨buf, b⟩ N q) :
    q.buf = buf ∧ ((a ≤ q.off ∧ q.off < a + N) ∨ (b ≤ q.off ∧ q.off < b + N)) := by
  rcases hq with hq | hq
  · obtain ⟨h1, h2, h3⟩ := blk_iff.1 hq
    exact ⟨h1, Or.inl ⟨h2, h3⟩⟩
  · obtain ⟨h1, h2, h3⟩ := blk_iff.1 hq
    exact ⟨h1, Or.inr ⟨h2, h3⟩⟩

variable [DecidableEq α]

theorem spTrans1e_wp {h : Heap α} {tab : JTab} {k : SpKind} {fpd li lj n buf o size goff : Nat} {ki kj : Int}
    {x : Nat → Nat → α} (hf : 0 < fpd) (hT : HoldsJ h tab.R tab.I) (hli : li < 13) (hlj : lj < 13)
    (htR : tab.R.buf ≠ buf) (htI : tab.I.buf ≠ buf) (hR : Room h buf o size)
    (hsz : o + ncart li*ncart lj*16 ≤ size)
    (G : ∀ t, t < (if k.si then 4 else 1) → ∀ m, m < ncart li*ncart lj → h.D ((⟨buf, goff⟩ : Ptr) + (t*n + m)) = .val (x t m) ∧
      goff + (t*n+m) < o) :
    wp (spTrans1e k tab fpd li lj ki kj n buf (fpd*o) ⟨buf, goff⟩) (fun t h' =>
      (∀ im m, m < lenSpinorC2S ki li*lenSpinorC2S kj lj → h'.D (side t im + m) =
        .val (part (spinor2 k.si k.ph ki kj li lj (fun t a b => Cx.ofR (x t (b*ncart li+a)))
          (m % lenSpinorC2S ki li) (m / lenSpinorC2S ki li)) im)) ∧
      From h (fun q => q.buf = buf ∧ o ≤ q.off) h' ∧
      ∀ im, (side t im).buf = buf) h := by
  let di := lenSpinorC2S ki li
  let dj := lenSpinorC2S kj lj
  let nfj := lenCart lj
  have hdi : di ≤ 2*ncart li := lenSpinorC2S_le ki li
  have hdj : dj ≤ 2*ncart lj := lenSpinorC2S_le kj lj
  let N1 := di*(nfj+nfj)
  have eN1 : N1 = 2*(nfj*1*di*1) := by show di*(nfj+nfj) = _; ring
  let N2 := di*dj
  have eN2 : N2 = 1*dj*(1*di) := by show di*dj = _; ring
  have hN1 : N1 ≤ ncart li*ncart lj*4 := by
    calc N1 = di*(2*nfj) := by show di*(nfj+nfj) = _; ring
      _ ≤ 2*ncart li*(2*ncart lj) := Nat.mul_le_mul hdi (le_of_eq rfl)
      _ = _ := by ring
  have hN2 : N2 ≤ ncart li*ncart lj*4 := by
    calc N2 ≤ 2*ncart li*(2*ncart lj) := Nat.mul_le_mul hdi hdj
      _ = _ := by ring
  unfold spTrans1e
  dsimp only
  rw [mallocD_eq hf]
  dsimp only
  rw [mallocD_eq hf]
  dsimp only
  rw [mallocD_eq hf]
  dsimp only
  rw [mallocD_eq hf]
  dsimp only
  have key := spTwo_wp (h := h) (tab := tab) (k := k) (R1 := ⟨buf, o⟩) (I1 := ⟨buf, o+N1⟩) (R2 := ⟨buf, o+N1+N1⟩)
    (I2 := ⟨buf, o+N1+N1+N2⟩) (g := ⟨buf, goff⟩) (C := 1) (n := n) (nket := nfj) (nbra := di) (ki := ki) (kj := kj)
    (x := fun t a m => x t (a*ncart li+m)) hT hli hlj (by rw [Nat.mul_one]) (by rw [Nat.one_mul])
    (by rw [← eN1]; exact outS_of_room hR (Nat.le_refl _) (Nat.le_refl _) (by omega))
    (by rw [← eN2]; exact outS_of_room hR (by omega) (Nat.le_refl _) (by omega))
    (by
      rw [← eN1, ← eN2]
      intro q h1 h2
      obtain ⟨_, h3⟩ := reg2_room h1
      obtain ⟨_, h4⟩ := reg2_room h2
      omega)
    (by
      intro q hq
      have : q.buf = buf := by
        rcases hq with h1 | h1
        · exact (reg2_room h1).1
        · exact (reg2_room h1).1
      rw [this]
      exact ⟨htR.symm, htI.symm⟩)
    (by
      intro t ht a m ha hm
      have hm' : a*ncart li+m < ncart li*ncart lj := by
        rw [Nat.mul_comm (ncart li)]
        exact radix_lt (by rw [Nat.mul_one] at ha; exact ha) hm
      obtain ⟨g1, g2⟩ := G t ht _ hm'
      refine ⟨by rw [Ptr.add_assoc]; exact g1, fun hq => ?_⟩
      rw [← eN1] at hq
      obtain ⟨_, h3⟩ := reg2_room hq
      have e : (((⟨buf, goff⟩ : Ptr) + t*n) + (a*lenCart li+m)).off = goff + (t*n + (a*ncart li+m)) := Nat.add_assoc _ _ _
      rw [e] at h3
      omega)
  rw [wp_mbind] at key ⊢
  refine wp_mono key ?_
  intro _ h1 key1
  rw [wp_mbind]
  refine wp_mono key1 ?_
  rintro _ h' ⟨H, F⟩
  rw [wp_pure]
  refine ⟨fun im m hm => ?_, ⟨fun q hq => F.D q (fun h1 => hq ?_), F.al, F.I⟩, fun im => by cases im <;> rfl⟩
  · have hp : 0 < di := by
      rcases Nat.eq_zero_or_pos di with h | h
      · have : m < di*dj := hm
        rw [h] at this; simp at this
      · exact h
    have := H im (m/di) 0 (m%di) (Nat.div_lt_of_lt_mul hm) Nat.one_pos (Nat.mod_lt _ hp)
    rw [show (m/di*1+0)*lenSpinorC2S ki li + m%di = m from by
      show (m/di*1+0)*di + m%di = m
      rw [Nat.mul_one, Nat.add_zero, Nat.mul_comm]; exact Nat.div_add_mod _ _] at this
    simp only [Nat.mul_one, Nat.add_zero] at this
    exact this
  · rw [← eN1, ← eN2] at h1
    rcases h1 with h1 | h1
    · obtain ⟨h2, h3⟩ := reg2_room h1
      exact ⟨h2, by omega⟩
    · obtain ⟨h2, h3⟩ := reg2_room h1
      exact ⟨h2, by omega⟩

end Verif.Lemmas

namespace Verif.Lemmas
open Verif Verif.Model Verif.Prog Verif.Spec Verif.Props
variable {α : Type} [Field α] [LinearOrder α]

/-- the caller's output array of complex numbers -/
structure OutArgZ (r : Nat) (h : Heap α) (nd cnt : Nat → Nat) (nT : Nat) (out : Ptr) (dims : Option Ptr)
    (buf : Nat) (fl loc counts : Ptr) : Prop where
  h_dims : DimsArg r h dims counts nd cnt
  h_dims2 : ∀ d, dims = some d → r = 2 → ∃ x, h.I (d + 2) = .val x
  h_dbuf : ∀ d, dims = some d → d.buf ≠ buf ∧ d.buf ≠ fl.buf ∧ d.buf ≠ loc.buf
  h_out : ∀ m, InBlock nd cnt nT (m/2) → h.D (out + m) ≠ .oob
  h_obuf : out.buf ≠ buf

/-- the tables of the transformation: in buffers that are neither cache nor output -/
structure TabArg (h : Heap α) (tab : JTab) (buf : Nat) (out : Ptr) : Prop where
  holds : HoldsJ h tab.R tab.I
  Rbuf : tab.R.buf ≠ buf
  Ibuf : tab.I.buf ≠ buf
  Rout : tab.R.buf ≠ out.buf
  Iout : tab.I.buf ≠ out.buf

theorem holdsJ_agree {h h' : Heap α} {tab : JTab} {P : Ptr → Prop} (H : HoldsJ h tab.R tab.I) (A : AgreeD h h' P)
    (hR : ∀ q, P q → q.buf ≠ tab.R.buf) (hI : ∀ q, P q → q.buf ≠ tab.I.buf) : HoldsJ h' tab.R tab.I := by
  intro l hl r hr x hx
  obtain ⟨h1, h2⟩ := H l hl r hr x hx
  refine ⟨(A _ ?_).trans h1, (A _ ?_).trans h2⟩
  · intro hp
    exact hR _ hp rfl
  · intro hp
    exact hI _ hp rfl

/-- the number of components of the operator in spin space -/
def SpKind.e1 (k : SpKind) : Nat := if k.si then 4 else 1

theorem spinor2_zero {si ph : Bool} {k1 k2 : Int} {l1 l2 i j : Nat} {x : Nat → Nat → Nat → Cx α} (hx : ∀ c m n, x c m n = 0) :
    spinor2 si ph k1 k2 l1 l2 x i j = 0 := by
  have hs : ∀ s t, spinMat si (fun _ => (0 : Cx α)) s t = 0 := by
    intro s t
    unfold spinMat
    cases si <;> cases s <;> cases t <;> simp [pauli, scalar2]
  unfold spinor2 phase
  simp only [hx, hs, mul_zero, zero_mul, Finset.sum_const_zero]
  split <;> rfl

set_option maxHeartbeats 1600000 in
/-- CINT1e_spinor_drv -/
theorem drv1eSp_run {K : Consts α} {L : MathLib α} {X : Int1e α} {s : Call α} {w : Nat → Nat → Nat → α}
    {h : Heap α} {fpd buf size nT : Nat} {fl loc counts out : Ptr} {dims : Option Ptr} {nd : Nat → Nat} {tab : JTab} {kd : SpKind}
    {ki kj : Int}
    (M : CallMem h fpd buf size fl loc counts) (hsize : cacheSize1e X s ≤ size)
    (hs : Sizes 2 (two (lenSpinorC2S ki s.si.l) (lenSpinorC2S kj s.sj.l)) (two s.si.nctr s.sj.nctr) nd)
    (O : OutArgZ 2 h nd (fun t => two (lenSpinorC2S ki s.si.l) (lenSpinorC2S kj s.sj.l) t * two s.si.nctr s.sj.nctr t) nT out dims
      buf fl loc counts)
    (T : TabArg h tab buf out) (hn : X.nComp = SpKind.e1 kd * nT)
    (hK : EvalOK K L X s w) (hnT : 1 ≤ nT) (hli : s.si.l < 13) (hlj : s.sj.l < 13) :
    ∃ has h', run (drv1eSp K L X s (SpKind.e1 kd) nT kd tab ki kj fpd out dims buf 0 fl loc counts) h = some (has, h') ∧
      (∀ n ic jc i j, n < nT → ic < s.si.nctr → jc < s.sj.nctr → i < lenSpinorC2S ki s.si.l → j < lenSpinorC2S kj s.sj.l →
        HoldsC h' out (outAt nd n (ic*lenSpinorC2S ki s.si.l+i) (jc*lenSpinorC2S kj s.sj.l+j) 0 0)
          (spinor2 kd.si kd.ph ki kj s.si.l s.sj.l
            (fun c a b => Cx.ofR (loopVal K L X s w (n*SpKind.e1 kd + c) ic jc (b*ncart s.si.l+a))) i j)) ∧
      (has = false → ∀ m, InBlock nd (fun t => two (lenSpinorC2S ki s.si.l) (lenSpinorC2S kj s.sj.l) t *
        two s.si.nctr s.sj.nctr t) nT (m/2) → h'.D (out + m) = .val 0) ∧
      (∀ q, q.buf ≠ buf → (∀ m, InBlock nd (fun t => two (lenSpinorC2S ki s.si.l) (lenSpinorC2S kj s.sj.l) t *
        two s.si.nctr s.sj.nctr t) nT (m/2) → q ≠ out + m) → h'.D q = h.D q) ∧
      (∀ q, q.buf ≠ buf → q.buf ≠ fl.buf → q.buf ≠ loc.buf → q.buf ≠ counts.buf → h'.I q = h.I q) ∧
      (has = true ↔ loopAny L X s) := by
  have hf := M.fpd_pos
  have hic : 1 ≤ s.si.nctr := hs.nctr_pos 0 (by omega)
  have hjc : 1 ≤ s.sj.nctr := hs.nctr_pos 1 (by omega)
  have he1 : 1 ≤ SpKind.e1 kd := by unfold SpKind.e1; split <;> omega
  have hnc : 1 ≤ X.nComp := by rw [hn]; exact Nat.mul_pos he1 hnT
  let di := lenSpinorC2S ki s.si.l
  let dj := lenSpinorC2S kj s.sj.l
  let nf := (s.env X).nf
  have hnf : nf = ncart s.si.l * ncart s.sj.l := rfl
  let nc := nf * s.si.nctr * s.sj.nctr
  let tot := nc * X.nComp
  let V : Nat → α := fun m => loopVal K L X s w (m / (nf * (s.si.nctr * s.sj.nctr)))
            (m % (nf * (s.si.nctr * s.sj.nctr)) / nf % s.si.nctr)
            (m % (nf * (s.si.nctr * s.sj.nctr)) / nf / s.si.nctr)
            (m % nf)
  have hncA : (s.env X).nf * (s.si.nctr * s.sj.nctr) * X.nComp = tot := by
    show _ = (s.env X).nf * s.si.nctr * s.sj.nctr * X.nComp
    ring
  have hfree : tot + ncart s.si.l*ncart s.sj.l*16 ≤ size := by
    refine le_trans ?_ hsize
    unfold cacheSize1e
    refine le_trans ?_ (le_max_right _ _)
    show nc * X.nComp + nf*16 ≤ nc * X.nComp + nf * 8 * 2
    omega
  have LM : LoopMem X s h fpd buf size 0 tot fl loc := by
    refine ⟨hf, ⟨fun k hk _ => M.dbl k hk, fun m hm _ => M.int m hm⟩, ?_, ?_, M.flw, M.locw, M.flbuf, M.locbuf⟩
    · exact le_trans (used_le_cacheSize X s hf) hsize
    · rw [hncA]; omega
  have key := loop1eRun_wp LM hK hic hjc hnc (by omega) (by omega)
  refine (wp_iff_run _ (fun has h' => _) _).1 ?_
  unfold drv1eSp
  dsimp only
  have etot : (s.env X).nf * s.si.nctr * s.sj.nctr * SpKind.e1 kd * nT = tot := by
    show nc * SpKind.e1 kd * nT = nc * X.nComp
    rw [hn, Nat.mul_assoc]
  rw [etot, show mallocD fpd buf 0 tot = (⟨buf, 0⟩, fpd * tot) from by
    have := mallocD_eq hf buf 0 tot; rw [Nat.zero_add] at this; exact this]
  dsimp only
  rw [wp_mbind]
  refine wp_mono (wp_allocMono key) ?_
  rintro has h1 ⟨⟨hv, hz, _, hD, hI, hret⟩, hm⟩
  have hcnt : (fun t => if t = 0 then lenSpinorC2S ki s.si.l * s.si.nctr else if t = 1 then lenSpinorC2S kj s.sj.l * s.sj.nctr else 1)
      = (fun t => two di dj t * two s.si.nctr s.sj.nctr t) := by
    funext t
    unfold two
    by_cases h0 : t = 0
    · simp [h0, di]
    · by_cases h1 : t = 1
      · simp [h1, dj]
      · simp [h0, h1]
  rw [hcnt]
  have hd1 : DimsArg 2 h1 dims counts nd (fun t => two di dj t * two s.si.nctr s.sj.nctr t) := by
    cases hdim : dims with
    | none => have := O.h_dims; rw [hdim] at this; exact this
    | some d =>
      have h2 := O.h_dims; rw [hdim] at h2
      refine ⟨fun t ht => ?_, h2.2⟩
      rw [hI]
      · exact h2.1 t ht
      · have := O.h_dbuf d hdim
        rintro (hb | hb | hb)
        · exact this.1 hb
        · exact this.2.1 hb
        · exact this.2.2 hb
  have hd2 : ∀ d, dims = some d → (2 : Nat) = 2 → ∃ x, h1.I (d + 2) = .val x := by
    intro d hdim _
    obtain ⟨x, hx⟩ := O.h_dims2 d hdim rfl
    refine ⟨x, ?_⟩
    rw [hI, hx]
    have := O.h_dbuf d hdim
    rintro (hb | hb | hb)
    · exact this.1 hb
    · exact this.2.1 hb
    · exact this.2.2 hb
  have hcn : ∀ t, t < 4 → h1.I (counts + t) ≠ .oob := fun t ht => hm.I _ (M.countsw t ht)
  have hal : ∀ m, InBlock nd (fun t => two di dj t * two s.si.nctr s.sj.nctr t) nT (m/2) →
      h1.D (out + m) ≠ .oob := fun m hm' => hm.D _ (O.h_out m hm')
  rw [wp_mbind]
  cases has with
  | true =>
    have hh := hv rfl
    rw [hncA] at hh
    let W : Ptr → Prop := fun q => q.buf = buf ∧ tot ≤ q.off
    let OutP : Ptr → Prop := fun q => ∃ m, InBlock nd (fun t => two di dj t * two s.si.nctr s.sj.nctr t) nT (m/2) ∧ q = out + m
    let ok : Heap α → Prop := fun h' => HoldsJ h' tab.R tab.I ∧ HoldsD h' ⟨buf, 0⟩ tot V ∧ (∀ k, k < size → h'.D ⟨buf, k⟩ ≠ .oob) ∧
      (∀ t, t < 2 → h'.I (dims.getD counts + t) = .val (nd t)) ∧
      (∀ m, InBlock nd (fun t => two di dj t * two s.si.nctr s.sj.nctr t) nT (m/2) → h'.D (out + m) ≠ .oob)
    have hobuf : ∀ q, OutP q → q.buf = out.buf := by rintro q ⟨m, _, rfl⟩; rfl
    have hkeep : ∀ h1 h2 : Heap α, ok h1 → AgreeD h1 h2 (fun q => W q ∨ OutP q) → (∀ q, h1.D q ≠ .oob → h2.D q ≠ .oob) →
        h2.I = h1.I → ok h2 := by
      rintro h2 h3 ⟨k1, k2, k3, k4, k5⟩ hA hM hI'
      refine ⟨holdsJ_agree k1 hA ?_ ?_, ?_, fun k hk => hM _ (k3 k hk), fun t ht => by rw [hI']; exact k4 t ht,
        fun m hm => hM _ (k5 m hm)⟩
      · rintro q (⟨hw, _⟩ | hq)
        · rw [hw]; exact T.Rbuf.symm
        · rw [hobuf q hq]; exact T.Rout.symm
      · rintro q (⟨hw, _⟩ | hq)
        · rw [hw]; exact T.Ibuf.symm
        · rw [hobuf q hq]; exact T.Iout.symm
      · refine k2.agree hA (fun i hi => ?_)
        rintro (⟨_, hq⟩ | hq)
        · have : tot ≤ 0 + i := hq
          omega
        · exact O.h_obuf (hobuf _ hq).symm
    have hsep : ∀ q, W q → ¬ OutP q := fun q hw ho => O.h_obuf (by rw [← hobuf q ho]; exact hw.1)
    let Y : Nat → Nat → Nat → Cx α := fun n b m => spinor2 kd.si kd.ph ki kj s.si.l s.sj.l
      (fun c a b' => Cx.ofR (V (nc*(n*SpKind.e1 kd + c) + b*nf + (b'*ncart s.si.l+a)))) (m % di) (m / di)
    have hlt : ∀ n c b m, n < nT → c < SpKind.e1 kd → b < s.sj.nctr * s.si.nctr → m < nf →
        nc*(n*SpKind.e1 kd + c) + b*nf + m < tot := by
      intro n c b m hn' hc hb hm
      have e : nc = s.sj.nctr*s.si.nctr*nf := by
        show nf * s.si.nctr * s.sj.nctr = _; ring
      have h5 : b*nf + m < s.sj.nctr*s.si.nctr*nf := radix_lt hb hm
      rw [← e] at h5
      have h6 := radix_lt (radix_lt hn' hc) h5
      have e2 : tot = nT*SpKind.e1 kd*nc := by
        show nc * X.nComp = _
        rw [hn]; ring
      rw [e2, Nat.mul_comm nc, Nat.add_assoc]; exact h6
    have F : ∀ n, n < nT → Writes W ok (c2sZ1e { ic := s.si.nctr, jc := s.sj.nctr, di := di, dj := dj, nf := nf }
          (spTrans1e kd tab fpd s.si.l s.sj.l ki kj (nf * s.si.nctr * s.sj.nctr) buf (fpd*tot))
          (out + 2*(nd 0*nd 1*nd 2*nd 3)*n) ((⟨buf, 0⟩ : Ptr) + nf * s.si.nctr * s.sj.nctr * SpKind.e1 kd * n) (dims.getD counts))
        (fun _ => True)
        (fun k : Zx => inOut (shapeOf (two di dj) (two s.si.nctr s.sj.nctr) nf) k.2)
        (fun k => out + 2*(nd 0*nd 1*nd 2*nd 3)*n + posZ (nd 0) (nd 1) (nd 2) k)
        (fun k => part (Y n (blkNo (shapeOf (two di dj) (two s.si.nctr s.sj.nctr) nf) k.2)
          (cellNo (shapeOf (two di dj) (two s.si.nctr s.sj.nctr) nf) k.2)) k.1) := by
      intro n hn'
      have hS := hs.shapeR nf
      have hsub : ∀ q, (∃ k : Zx, inOut (shapeOf (two di dj) (two s.si.nctr s.sj.nctr) nf) k.2 ∧
          q = out + 2*(nd 0*nd 1*nd 2*nd 3)*n + posZ (nd 0) (nd 1) (nd 2) k) → OutP q := by
        rintro q ⟨k, hk, rfl⟩
        exact ⟨_, inBlockZ_iff.2 ⟨n, k, hn', hk, rfl⟩, by rw [Ptr.add_assoc]⟩
      refine c2sZ1e_writes (S := shapeOf (two di dj) (two s.si.nctr s.sj.nctr) nf) (ni := nd 0) (nj := nd 1) (nk := nd 2) (nj0 := nd 1)
        (Y := Y n) ⟨hS.pos, hS.hni, hS.hnj, hS.hnk, ?_, ?_, ?_⟩ (by simp [shapeOf, two]) (by simp [shapeOf, two])
        (by simp [shapeOf, two]) (by simp [shapeOf, two]) (fun h' hok => ⟨hok.2.2.2.1 0 (by omega), hok.2.2.2.1 1 (by omega)⟩)
      · have e31 : (shapeOf (two di dj) (two s.si.nctr s.sj.nctr) nf).lc * (shapeOf (two di dj) (two s.si.nctr s.sj.nctr) nf).kc *
          (shapeOf (two di dj) (two s.si.nctr s.sj.nctr) nf).jc * (shapeOf (two di dj) (two s.si.nctr s.sj.nctr) nf).ic =
            s.sj.nctr * s.si.nctr := by simp [two, shapeOf]
        have e32 : (shapeOf (two di dj) (two s.si.nctr s.sj.nctr) nf).di * (shapeOf (two di dj) (two s.si.nctr s.sj.nctr) nf).dj *
          (shapeOf (two di dj) (two s.si.nctr s.sj.nctr) nf).dk * (shapeOf (two di dj) (two s.si.nctr s.sj.nctr) nf).dl = di * dj := by
            simp [two, shapeOf]
        rw [e31, e32]
        refine ⟨fun b hb h2 hok => ?_, fun h2 h3 hok hA hM hI' => ?_, fun q hw ho => hsep q hw (hsub q ho)⟩
        · obtain ⟨k1, k2, k3, k4, k5⟩ := hok
          have key2 := spTrans1e_wp (k := kd) (ki := ki) (kj := kj) (n := nf * s.si.nctr * s.sj.nctr)
            (goff := 0 + nf * s.si.nctr * s.sj.nctr * SpKind.e1 kd * n + b*nf)
            (x := fun c m => V (nc*(n*SpKind.e1 kd + c) + b*nf + m)) hf k1 hli hlj T.Rbuf T.Ibuf
            (fun k _ hk => k3 k hk) hfree (fun c hc m hm => by
              have h6 := hlt n c b m hn' hc hb hm
              have e3 : 0 + nf * s.si.nctr * s.sj.nctr * SpKind.e1 kd * n + b*nf + (c*(nf * s.si.nctr * s.sj.nctr) + m) =
                  0 + (nc*(n*SpKind.e1 kd + c) + b*nf + m) := by
                show 0 + nc * SpKind.e1 kd * n + b*nf + (c*nc + m) = _
                ring
              refine ⟨?_, by rw [e3, Nat.zero_add]; exact h6⟩
              have h7 := k2 _ h6
              rw [← h7]
              refine congrArg h2.D ?_
              exact congrArg (Ptr.mk buf) e3)
          refine wp_mono key2 ?_
          rintro t h3 ⟨q1, q2, q3⟩
          exact ⟨q1, q2.D, q2.I, fun im m _ ho => O.h_obuf (by
            rw [← hobuf _ (hsub _ ho)]
            exact q3 im)⟩
        · exact hkeep h2 h3 hok (hA.mono (fun q hq => hq.imp id (hsub q))) hM hI'
      · rintro h' ⟨_, _, _, _, k5⟩ k hk
        rw [Ptr.add_assoc]
        exact k5 _ (inBlockZ_iff.2 ⟨n, k, hn', hk, rfl⟩)
      · refine cpZ_ij ?_ (by simp [shapeOf, two]) (by simp [shapeOf, two])
        exact le_trans (Nat.le_mul_of_pos_right _ hic) hS.hni
    obtain ⟨h2, r2, v2, f2, i2⟩ := zOutStage_value (nT := nT) (out := out) (W := W) (ok := ok)
      (f := fun n out dims => c2sZ1e { ic := s.si.nctr, jc := s.sj.nctr, di := di, dj := dj, nf := nf }
          (spTrans1e kd tab fpd s.si.l s.sj.l ki kj (nf * s.si.nctr * s.sj.nctr) buf (fpd*tot))
          out ((⟨buf, 0⟩ : Ptr) + nf * s.si.nctr * s.sj.nctr * SpKind.e1 kd * n) dims)
      (V := fun n k => Y n (blkNo (shapeOf (two di dj) (two s.si.nctr s.sj.nctr) nf) k)
          (cellNo (shapeOf (two di dj) (two s.si.nctr s.sj.nctr) nf) k))
      hs nf hd1 hcn
      (fun h' e _ hd => ⟨holdsJ_agree (P := fun q => q.buf = buf) T.holds (fun q hq => by rw [e]; exact hD q hq)
          (fun q hq => by rw [hq]; exact T.Rbuf.symm) (fun q hq => by rw [hq]; exact T.Ibuf.symm),
        fun i hi => by rw [e]; exact hh i hi, fun k hk => by rw [e]; exact hm.D _ (M.dbl k hk), hd,
        fun m hm' => by rw [e]; exact hal m hm'⟩) hkeep hsep F
    refine (wp_iff_run _ _ _).2 ⟨(), h2, r2, ?_⟩
    rw [wp_pure]
    refine ⟨?_, fun x => Bool.noConfusion x, ?_, ?_, hret⟩
    · intro n ic jc i j hn' h3 h4 h5 h6
      have hval : ∀ im, h2.D (out + (2*outAt nd n (ic*di+i) (jc*dj+j) 0 0 + imOff im)) =
          .val (part (spinor2 kd.si kd.ph ki kj s.si.l s.sj.l
            (fun c a b => Cx.ofR (loopVal K L X s w (n*SpKind.e1 kd + c) ic jc (b*ncart s.si.l+a))) i j) im) := by
        intro im
        have := v2 im n (ic*di+i) (jc*dj+j) 0 0 hn' (digit_lt h5 h3) (digit_lt h6 h4) (by simp [two]) (by simp [two])
        rw [this]
        congr 2
        have eb : blkNo (shapeOf (two di dj) (two s.si.nctr s.sj.nctr) nf) (ic*di+i, jc*dj+j, 0, 0) = jc*s.si.nctr+ic := by
          unfold blkNo shapeOf
          simp [two, (digit h5).1, (digit h6).1, di, dj]
        have ec : cellNo (shapeOf (two di dj) (two s.si.nctr s.sj.nctr) nf) (ic*di+i, jc*dj+j, 0, 0) = j*di+i := by
          unfold cellNo posIklj shapeOf
          simp [two, (digit h5).2, (digit h6).2, di, dj]
        rw [eb, ec]
        show spinor2 kd.si kd.ph ki kj s.si.l s.sj.l _ ((j*di+i) % di) ((j*di+i) / di) = _
        rw [(digit h5).1, (digit h5).2]
        unfold spinor2
        congr 1
        refine Finset.sum_congr rfl fun a ha => Finset.sum_congr rfl fun b hb => ?_
        have hx : b * ncart s.si.l + a < nf := by
          rw [hnf, Nat.mul_comm (ncart s.si.l)]
          exact radix_lt (Finset.mem_range.1 hb) (Finset.mem_range.1 ha)
        refine Finset.sum_congr rfl fun p _ => Finset.sum_congr rfl fun q _ => ?_
        have e5 : ∀ c, V (nc*(n*SpKind.e1 kd + c) + (jc*s.si.nctr+ic)*nf + (b*ncart s.si.l+a)) =
            loopVal K L X s w (n*SpKind.e1 kd + c) ic jc (b*ncart s.si.l+a) := by
          intro c
          obtain ⟨e1, e2, e3, e4⟩ := ctr_digits (n := n*SpKind.e1 kd + c) hx h3 h4
          show loopVal K L X s w ((nc*(n*SpKind.e1 kd + c) + (jc*s.si.nctr+ic)*nf + (b*ncart s.si.l+a)) / (nf * (s.si.nctr * s.sj.nctr)))
            ((nc*(n*SpKind.e1 kd + c) + (jc*s.si.nctr+ic)*nf + (b*ncart s.si.l+a)) % (nf * (s.si.nctr * s.sj.nctr)) / nf % s.si.nctr)
            ((nc*(n*SpKind.e1 kd + c) + (jc*s.si.nctr+ic)*nf + (b*ncart s.si.l+a)) % (nf * (s.si.nctr * s.sj.nctr)) / nf / s.si.nctr)
            ((nc*(n*SpKind.e1 kd + c) + (jc*s.si.nctr+ic)*nf + (b*ncart s.si.l+a)) % nf) = _
          rw [e1, e2, e3, e4]
        simp only [e5]
      exact ⟨hval false, hval true⟩
    · intro q hq hb
      rw [f2 q (fun x => hq x.1) hb]
      exact hD q hq
    · intro q h3 h4 h5 h6
      rw [i2 q (fun t _ e => h6 (by rw [e]; rfl))]
      exact hI q (by rintro (x | x | x) <;> [exact h3 x; exact h4 x; exact h5 x])
  | false =>
    obtain ⟨h2, r2, v2, f2, i2⟩ := zOutStage_zero (nT := nT) (out := out)
      (f := fun n out dims => c2sZ1e { ic := s.si.nctr, jc := s.sj.nctr, di := di, dj := dj, nf := nf }
          (spTrans1e kd tab fpd s.si.l s.sj.l ki kj (nf * s.si.nctr * s.sj.nctr) buf (fpd*tot))
          out ((⟨buf, 0⟩ : Ptr) + nf * s.si.nctr * s.sj.nctr * SpKind.e1 kd * n) dims) hs hd1 hd2 hcn hal
    refine (wp_iff_run _ _ _).2 ⟨(), h2, r2, ?_⟩
    rw [wp_pure]
    refine ⟨?_, fun _ => v2, ?_, ?_, hret⟩
    · intro n ic jc i j hn' h3 h4 h5 h6
      rw [spinor2_zero (fun c a b => by rw [hz rfl]; rfl)]
      have hin : ∀ e, e < 2 → InBlock nd (fun t => two di dj t * two s.si.nctr s.sj.nctr t) nT
          ((2*outAt nd n (ic*di+i) (jc*dj+j) 0 0 + e)/2) := by
        intro e he
        refine ⟨n, ic*di+i, jc*dj+j, 0, 0, hn', ?_, ?_, by simp [two], by simp [two], by omega⟩
        · exact digit_lt h5 h3
        · exact digit_lt h6 h4
      exact ⟨v2 _ (hin 0 (by omega)), v2 _ (hin 1 (by omega))⟩
    · intro q hq hb
      rw [f2 q hb]
      exact hD q hq
    · intro q h3 h4 h5 h6
      rw [i2 q (fun t _ e => h6 (by rw [e]; rfl))]
      exact hI q (by rintro (x | x | x) <;> [exact h3 x; exact h4 x; exact h5 x])

end Verif.Lemmas
