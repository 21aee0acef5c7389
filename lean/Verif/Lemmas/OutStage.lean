import Verif.Lemmas.Out

namespace Verif.Lemmas
open Verif Verif.Model Verif.Prog

variable {α : Type}

section
variable [Zero α]

/-- what `c2s_dset0` needs -/
structure Dset0Ok (dims counts out : Ptr) (nd cnt : Nat → Nat) (h : Heap α) : Prop where
  d : ∀ t, t < 3 → ∃ z : Int, h.I (dims + t) = .val z ∧ z.toNat = nd t
  c : ∀ t, t < 4 → h.I (counts + t) = .val (cnt t)
  al : ∀ k, inBlk (cnt 0) (cnt 1) (cnt 2) (cnt 3) k → h.D (out + pos4 (nd 0) (nd 1) (nd 2) k) ≠ .oob

theorem pos4_surj {ni nj nk nl m : Nat} (hm : m < ni*nj*nk*nl) :
    ∃ k, inBlk ni nj nk nl k ∧ m = pos4 ni nj nk k := by
  have hni : 0 < ni := by
    rcases Nat.eq_zero_or_pos ni with h | h
    · subst h; simp at hm
    · exact h
  have hnj : 0 < nj := by
    rcases Nat.eq_zero_or_pos nj with h | h
    · subst h; simp at hm
    · exact h
  have hnk : 0 < nk := by
    rcases Nat.eq_zero_or_pos nk with h | h
    · subst h; simp at hm
    · exact h
  refine ⟨(m % ni, m/ni % nj, m/ni/nj % nk, m/ni/nj/nk), ⟨Nat.mod_lt _ hni, Nat.mod_lt _ hnj, Nat.mod_lt _ hnk, ?_⟩, ?_⟩
  · refine Nat.div_lt_of_lt_mul (Nat.div_lt_of_lt_mul (Nat.div_lt_of_lt_mul ?_))
    calc m < ni*nj*nk*nl := hm
      _ = _ := by ring
  · unfold pos4
    dsimp only
    rw [Nat.mul_comm (m/ni/nj/nk) nk, Nat.div_add_mod, Nat.mul_comm (m/ni/nj) nj, Nat.div_add_mod,
      Nat.mul_comm (m/ni) ni, Nat.div_add_mod]

theorem pos4_lt {ni nj nk nl : Nat} {k : Ix4} (h1 : k.1 < ni) (h2 : k.2.1 < nj) (h3 : k.2.2.1 < nk)
    (h4 : k.2.2.2 < nl) : pos4 ni nj nk k < ni*nj*nk*nl := by
  have e : ni*nj*nk*nl = nl*nk*nj*ni := by ring
  rw [e]
  exact radix_lt (radix_lt (radix_lt h4 h3) h2) h1

theorem c2sDset0_writes {dims counts out : Ptr} {nd cnt : Nat → Nat} :
    Writes (fun _ => False) (Dset0Ok (α := α) dims counts out nd cnt) (c2sDset0 out dims counts) (fun _ => True)
      (inBlk (cnt 0) (cnt 1) (cnt 2) (cnt 3)) (fun k => out + pos4 (nd 0) (nd 1) (nd 2) k) (fun _ => 0) := by
  have hst : ∀ P : Ix4 → Prop, Stable (fun _ => False) (Dset0Ok (α := α) dims counts out nd cnt) P
      (fun k => out + pos4 (nd 0) (nd 1) (nd 2) k) (fun _ => 0) := by
    intro P h h' P' _ hok H
    refine ⟨fun t ht => ?_, fun t ht => ?_, fun k hk => H.alloc _ (hok.al k hk)⟩
    · rw [H.int]; exact hok.d t ht
    · rw [H.int]; exact hok.c t ht
  intro h hok
  unfold c2sDset0
  simp only [wp_mbind, wp_ldI]
  obtain ⟨z0, d0, t0⟩ := hok.d 0 (by omega)
  obtain ⟨z1, d1, t1⟩ := hok.d 1 (by omega)
  obtain ⟨z2, d2, t2⟩ := hok.d 2 (by omega)
  refine ⟨_, d0, _, d1, _, d2, ?_⟩
  simp only [t0, t1, t2]
  split
  · rename_i e
    subst e
    have e0 : nd 0 = cnt 0 := by
      rw [hok.c 0 (by omega)] at d0
      simp only [Cell.val.injEq] at d0; omega
    have e1 : nd 1 = cnt 1 := by
      rw [hok.c 1 (by omega)] at d1
      simp only [Cell.val.injEq] at d1; omega
    have e2 : nd 2 = cnt 2 := by
      rw [hok.c 2 (by omega)] at d2
      simp only [Cell.val.injEq] at d2; omega
    simp only [wp_mbind, wp_ldI]
    refine ⟨_, hok.c 3 (by omega), ?_⟩
    simp only [Int.toNat_natCast]
    have key := Writes.forN (W := fun _ => False) (ok := fun h : Heap α => ∀ m, m < nd 0 * nd 1 * nd 2 * cnt 3 → h.D (out + m) ≠ .oob)
      (n := nd 0 * nd 1 * nd 2 * cnt 3) (f := fun i => Prog.st (out + i) (0:α)) (P := fun _ : Nat => True)
      (d := fun m => m) (addr := fun m => out + m) (v := fun _ => 0)
      (fun h h' P' _ hok H m hm => H.alloc _ (hok m hm)) (fun _ _ x => x) (fun _ _ _ _ _ => rfl)
      (fun t ht => Writes.st (k0 := t) rfl rfl (fun h hok => hok t ht) (fun k => by simp)) h ?_
    · refine wp_mono key ?_
      rintro _ h' ⟨_, H⟩
      refine ⟨True.intro, H.reindex ?_ ?_⟩
      · rintro k ⟨a, b, c, d⟩
        exact ⟨_, ⟨True.intro, pos4_lt (by omega) (by omega) (by omega) d⟩, rfl, rfl⟩
      · rintro m ⟨_, hm⟩
        obtain ⟨k, ⟨a, b, c, d⟩, e⟩ := pos4_surj hm
        exact ⟨k, ⟨by omega, by omega, by omega, d⟩, by rw [e]⟩
    · intro m hm
      obtain ⟨k, ⟨a, b, c, d⟩, e⟩ := pos4_surj hm
      rw [e]
      exact hok.al k ⟨by omega, by omega, by omega, d⟩
  · simp only [wp_mbind, wp_ldI]
    refine ⟨_, hok.c 0 (by omega), _, hok.c 1 (by omega), _, hok.c 2 (by omega), _, hok.c 3 (by omega), ?_⟩
    simp only [Int.toNat_natCast]
    have key := Writes.forS (W := fun _ => False) (ok := Dset0Ok (α := α) dims counts out nd cnt)
      (n := cnt 3) (s := fun l => out + l*(nd 0*nd 1*nd 2))
      (f := fun _ (out : Ptr) => do
        forN (cnt 2) fun k =>
          let pout := out + k * (nd 0*nd 1)
          forN (cnt 1) fun j => forN (cnt 0) fun i => st (pout + (j*nd 0+i)) (0:α)
        pure (out + nd 0*nd 1*nd 2))
      (P := inBlk (cnt 0) (cnt 1) (cnt 2) (cnt 3)) (d := fun k => k.2.2.2)
      (addr := fun k => out + pos4 (nd 0) (nd 1) (nd 2) k) (v := fun _ => 0)
      (hst _) (fun _ _ x => x) (fun _ _ _ _ _ => rfl) ?_ h hok
    · simp only [Nat.zero_mul, Ptr.add_zero] at key
      refine wp_mono key ?_
      rintro _ h' ⟨_, H⟩
      rw [wp_pure]
      exact ⟨True.intro, H.congr (fun k => ⟨fun hk => ⟨hk, hk.2.2.2⟩, fun hk => hk.1⟩) (fun _ _ => rfl)⟩
    · intro l hl h1 hok1
      rw [wp_mbind]
      refine wp_mono ((Writes.forN (P := fun k => inBlk (cnt 0) (cnt 1) (cnt 2) (cnt 3) k ∧ k.2.2.2 = l)
        (d := fun k => k.2.2.1) (hst _) (fun _ _ x => x) (fun _ _ _ _ _ => rfl) ?_) h1 hok1) ?_
      swap
      · rintro _ h' ⟨_, H⟩
        rw [wp_pure]
        refine ⟨?_, H.congr (fun k => by unfold inBlk; omega) (fun _ _ => rfl)⟩
        rw [Ptr.add_assoc]; congr 1; ring
      intro k hk
      refine (Writes.forN (P := fun q => (inBlk (cnt 0) (cnt 1) (cnt 2) (cnt 3) q ∧ q.2.2.2 = l) ∧ q.2.2.1 = k)
        (d := fun q => q.2.1) (hst _) (fun _ _ x => x) (fun _ _ _ _ _ => rfl) ?_).congr
        (fun q => by unfold inBlk; omega) (fun _ _ => rfl)
      intro j hj
      refine (Writes.forN (P := fun q => ((inBlk (cnt 0) (cnt 1) (cnt 2) (cnt 3) q ∧ q.2.2.2 = l) ∧ q.2.2.1 = k) ∧ q.2.1 = j)
        (d := fun q => q.1) (hst _) (fun _ _ x => x) (fun _ _ _ _ _ => rfl) ?_).congr
        (fun q => by unfold inBlk; omega) (fun _ _ => rfl)
      intro i hi
      refine Writes.st (k0 := (i,j,k,l)) ?_ rfl (fun h hok => hok.al (i,j,k,l) ⟨hi, hj, hk, hl⟩) (fun q => ?_)
      · simp only [Ptr.add_assoc, pos4]
        congr 1; ring
      · simp only [Prod.ext_iff]
        unfold inBlk
        constructor
        · rintro ⟨⟨⟨⟨_, h1⟩, h2⟩, h3⟩, h4⟩; exact ⟨h4, h3, h2, h1⟩
        · rintro ⟨h1, h2, h3, h4⟩
          exact ⟨⟨⟨⟨⟨by omega, by omega, by omega, by omega⟩, h4⟩, h3⟩, h2⟩, h1⟩

end

theorem prodDims_wp {dims : Ptr} {nd : Nat → Nat} {r : Nat} {h : Heap α}
    (hd : ∀ t, t < r → h.I (dims + t) = .val (nd t)) {Q : Nat → Heap α → Prop}
    (hQ : Q (Nat.rec 1 (fun t p => p * nd t) r) h) : wp (prodDims dims r) Q h := by
  induction r generalizing Q with
  | zero => exact hQ
  | succ r ih =>
    unfold prodDims
    rw [wp_mbind]
    refine ih (fun t ht => hd t (by omega)) ?_
    rw [wp_mbind, wp_ldI]
    refine ⟨_, hd r (by omega), ?_⟩
    rw [wp_pure]
    simpa using hQ

/-- looping a family of writers over the components -/
theorem comp_writes {W : Ptr → Prop} {ok : Heap α → Prop} {P : Ix4 → Prop} {nComp nout : Nat} {out : Ptr}
    {ad : Ix4 → Nat} {v : Nat → Ix4 → α} {f : Nat → Prog α Unit}
    (hW : ∀ n k, n < nComp → P k → ¬ W (out + nout*n + ad k))
    (hlt : ∀ k, P k → ad k < nout) (hinj : ∀ k k', P k → P k' → ad k = ad k' → k = k')
    (hst : ∀ n, n < nComp → Stable W ok P (fun k => out + nout*n + ad k) (v n))
    (H : ∀ n, n < nComp → Writes W ok (f n) (fun _ => True) P (fun k => out + nout*n + ad k) (v n)) :
    Writes W ok (forN nComp f) (fun _ => True) (fun k : Nat × Ix4 => k.1 < nComp ∧ P k.2)
      (fun k => out + nout*k.1 + ad k.2) (fun k => v k.1 k.2) := by
  have hinj2 : ∀ k k' : Nat × Ix4, (k.1 < nComp ∧ P k.2) → (k'.1 < nComp ∧ P k'.2) →
      out + nout*k.1 + ad k.2 = out + nout*k'.1 + ad k'.2 → k = k' := by
    rintro ⟨n, k⟩ ⟨n', k'⟩ ⟨_, hk⟩ ⟨_, hk'⟩ e
    simp only [Ptr.add_assoc, Ptr.add_right_inj] at e
    rw [Nat.mul_comm nout n, Nat.mul_comm nout n'] at e
    obtain ⟨e1, e2⟩ := radix_inj (hlt k hk) (hlt k' hk') e
    rw [e1, hinj k k' hk hk' e2]
  intro h hok
  refine wp_forN (fun t h' => ok h' ∧ Wr W h h' (fun k : Nat × Ix4 => (k.1 < nComp ∧ P k.2) ∧ k.1 < t)
      (fun k => out + nout*k.1 + ad k.2) (fun k => v k.1 k.2))
    ⟨hok, Wr.init _ (fun k hk => by omega)⟩ ?_ ?_
  · rintro t ht h1 ⟨hok1, H1⟩
    refine wp_mono (H t ht h1 hok1) ?_
    rintro _ h2 ⟨_, H2⟩
    refine ⟨hst t ht h1 h2 _ (fun _ x => x) hok1 H2, ?_⟩
    have H2' : Wr W h1 h2 (fun k : Nat × Ix4 => (k.1 < nComp ∧ P k.2) ∧ k.1 = t)
      (fun k => out + nout*k.1 + ad k.2) (fun k => v k.1 k.2) := by
      refine H2.reindex ?_ ?_
      · rintro ⟨n, k⟩ ⟨⟨_, hk⟩, e⟩
        dsimp only at e hk
        subst e
        exact ⟨k, hk, rfl, rfl⟩
      · intro k hk
        exact ⟨(t, k), ⟨⟨ht, hk⟩, rfl⟩, rfl⟩
    refine H1.comp H2' (fun k hk => hW _ _ hk.1.1 hk.1.2) (fun k k' a b e => by rw [hinj2 k k' a.1 b.1 e])
      (fun k => ?_)
    constructor
    · rintro ⟨a, b⟩
      rcases Nat.lt_succ_iff_lt_or_eq.1 b with b | b
      · exact Or.inl ⟨a, b⟩
      · exact Or.inr ⟨a, b⟩
    · rintro (⟨a, b⟩ | ⟨a, b⟩)
      · exact ⟨a, by omega⟩
      · exact ⟨a, by omega⟩
  · rintro h' ⟨_, H⟩
    exact ⟨True.intro, H.congr (fun k => ⟨fun hk => ⟨hk, hk.1⟩, fun hk => hk.1⟩) (fun _ _ => rfl)⟩

/-- the function that stores the blocks of an `r`-index integral -/
def c2sFun (r : Nat) (S : Shape) (trans : Ptr → Prog α Ptr) (out gctr dims : Ptr) : Prog α Unit :=
  if r = 2 then c2s1e S trans out gctr dims
  else if r = 3 then c2s3c S trans out gctr dims
  else c2s2e1 S trans out gctr dims

/-- the trailing indices of an `r`-index integral are trivial -/
structure ShapeR (r : Nat) (S : Shape) (nd : Nat → Nat) : Prop where
  r2 : 2 ≤ r
  r4 : r ≤ 4
  pos : ShapePos S
  k : r ≤ 2 → S.kc = 1 ∧ S.dk = 1 ∧ nd 2 = 1
  l : r ≤ 3 → S.lc = 1 ∧ S.dl = 1 ∧ nd 3 = 1
  hni : S.di*S.ic ≤ nd 0
  hnj : S.dj*S.jc ≤ nd 1
  hnk : S.dk*S.kc ≤ nd 2
  hnl : S.dl*S.lc ≤ nd 3

theorem c2sFun_writes {r : Nat} {S : Shape} {nd : Nat → Nat} (hS : ShapeR r S nd) {trans : Ptr → Prog α Ptr}
    {gctr out dims : Ptr} {Y : Nat → Nat → α} {W : Ptr → Prop} {ok : Heap α → Prop}
    (hpos : 0 < S.ic ∧ 0 < S.jc ∧ 0 < S.kc)
    (T : TransOK trans gctr S.nf (S.lc*S.kc*S.jc*S.ic) (S.di*S.dj*S.dk*S.dl) Y W
      (fun q => ∃ k, inOut S k ∧ q = out + pos4 (nd 0) (nd 1) (nd 2) k) ok)
    (hal : ∀ h, ok h → ∀ k, inOut S k → h.D (out + pos4 (nd 0) (nd 1) (nd 2) k) ≠ .oob)
    (hdim : ∀ h, ok h → ∀ t, t < r → h.I (dims + t) = .val (nd t)) :
    Writes W ok (c2sFun r S trans out gctr dims) (fun _ => True) (inOut S)
      (fun k => out + pos4 (nd 0) (nd 1) (nd 2) k) (fun k => Y (blkNo S k) (cellNo S k)) := by
  have hi : S.di ≤ nd 0 := le_trans (Nat.le_mul_of_pos_right _ hpos.1) hS.hni
  have hj : S.dj ≤ nd 1 := le_trans (Nat.le_mul_of_pos_right _ hpos.2.1) hS.hnj
  have hk : S.dk ≤ nd 2 := le_trans (Nat.le_mul_of_pos_right _ hpos.2.2) hS.hnk
  have := hS.r2
  have := hS.r4
  unfold c2sFun
  split
  · have hk2 := hS.k (by omega)
    have hl2 := hS.l (by omega)
    exact c2s1e_writes ⟨hS.pos, hS.hni, hS.hnj, hS.hnk, T, hal, cpOK_ij hi hk2.2.1 hl2.2.1⟩ hk2.1 hl2.1 hk2.2.1 hl2.2.1
      (fun h hok => ⟨hdim h hok 0 (by omega), hdim h hok 1 (by omega)⟩)
  split
  · have hl2 := hS.l (by omega)
    exact c2s3c_writes ⟨hS.pos, hS.hni, hS.hnj, hS.hnk, T, hal, cpOK_iklj hi hj hk⟩ hl2.1 hl2.2.1
      (fun h hok => ⟨hdim h hok 0 (by omega), hdim h hok 1 (by omega), hdim h hok 2 (by omega)⟩)
  · exact c2s2e1_writes ⟨hS.pos, hS.hni, hS.hnj, hS.hnk, T, hal, cpOK_iklj hi hj hk⟩
      (fun h hok => ⟨hdim h hok 0 (by omega), hdim h hok 1 (by omega), hdim h hok 2 (by omega),
        hdim h hok 3 (by omega)⟩)

/-- the leading dimension in effect -/
theorem prod_nd {r : Nat} {S : Shape} {nd : Nat → Nat} (hS : ShapeR r S nd) :
    (Nat.rec 1 (fun t p => p * nd t) r : Nat) = nd 0 * nd 1 * nd 2 * nd 3 := by
  obtain rfl | rfl | rfl : r = 2 ∨ r = 3 ∨ r = 4 := by have := hS.r2; have := hS.r4; omega
  · rw [(hS.k (by omega)).2.2, (hS.l (by omega)).2.2]
    show 1 * nd 0 * nd 1 = _
    simp
  · rw [(hS.l (by omega)).2.2]
    show 1 * nd 0 * nd 1 * nd 2 = _
    simp
  · show 1 * nd 0 * nd 1 * nd 2 * nd 3 = _
    simp

/-- storing the shell sizes -/
theorem counts_wp {counts : Ptr} {cnt : Nat → Nat} {h : Heap α} (ha : ∀ t, t < 4 → h.I (counts + t) ≠ .oob)
    {Q : Unit → Heap α → Prop}
    (hQ : ∀ h', h'.D = h.D → (∀ t, t < 4 → h'.I (counts + t) = .val (cnt t)) →
      (∀ q, (∀ t, t < 4 → q ≠ counts + t) → h'.I q = h.I q) → Q () h') :
    wp (forN 4 fun t => stI (counts + t) (cnt t)) Q h := by
  refine wp_forN (fun n h' => AssignedI h h' (fun t => t < n) (fun t => counts + t) (fun t => (cnt t : Int)))
    (AssignedI.init h _ _ (fun _ hk => by omega)) ?_ ?_
  · intro t ht h1 H1
    rw [wp_stI]
    refine ⟨H1.ne_oob (ha t ht), H1.set t (fun k hk e => ?_) (fun k => by omega)⟩
    rw [(Ptr.add_right_inj _ _ _).1 e]
  · intro h' H
    exact hQ h' H.dbl (fun t ht => H.val t ht) (fun q hq => H.frame q hq)

end Verif.Lemmas
