import Verif.Model.Int4c1e
import Verif.Lemmas.G2eHrr
import Verif.Lemmas.EriKernel

/-! CINTg4c1e_ovlp fills the array of intermediates with any values that satisfy the recursion relations. -/
namespace Verif.Lemmas
open Verif Verif.Model Verif.Prog Verif.Props

theorem shape4_int4c1e (li lj lk ll : Nat) (ng : Inc) : Shape4 (initInt4c1e li lj lk ll ng) := by
  refine ⟨rfl, ?_, ?_, ?_, ?_, rfl, rfl⟩
  · show dimA _ _ = 1 * _
    rw [Nat.one_mul]; rfl
  · show dimA _ _ * dimA _ _ = 1 * _ * _
    rw [Nat.one_mul]; rfl
  · show dimA _ _ * dimA _ _ * dimB _ _ = 1 * _ * _ * _
    rw [Nat.one_mul]; rfl
  · show dimA _ _ * dimA _ _ * dimB _ _ * dimB _ _ = 1 * _ * _ * _ * _
    rw [Nat.one_mul]; rfl

/-- the cells of the three buffers -/
def cellsB {α : Type} (b : Ptr) (bs db tot low : Nat) (hdb : db = tot + 1) (hbs : db * (low+1) ≤ bs)
    (W : Nat → Nat → Nat → α) : Cells α (Nat × Nat) where
  addr := fun c x => bufAx b bs c (x.1 + x.2*db)
  box := fun x => x.1 + x.2 ≤ tot ∧ x.2 ≤ low
  v := fun c x => W c x.1 x.2
  reg := fun q => ∃ n, n < 3 * bs ∧ q = b + n
  mem := by
    rintro c ⟨x, y⟩ hc ⟨h1, h2⟩
    dsimp only at h1 h2
    refine ⟨c*bs + (x + y*db), ?_, rfl⟩
    have h3 : (y+1)*db ≤ (low+1)*db := Nat.mul_le_mul_right _ (by omega)
    have h4 : (y+1)*db = y*db + db := by ring
    have h5 : (low+1)*db = db*(low+1) := Nat.mul_comm _ _
    have h6 : (c+1)*bs ≤ 3*bs := Nat.mul_le_mul_right _ hc
    have h7 : (c+1)*bs = c*bs + bs := by ring
    omega
  inj := by
    rintro c c' ⟨x, y⟩ ⟨x', y'⟩ hc hc' ⟨h1, h2⟩ ⟨h1', h2'⟩ h
    dsimp only at h1 h2 h1' h2'
    have ho : c*bs + (x + y*db) = c'*bs + (x' + y'*db) := by
      have := congrArg Ptr.off h
      simp only [bufAx] at this
      simpa using this
    have hlt : ∀ {x y}, x + y ≤ tot → y ≤ low → x + y*db < bs := by
      intro x y h1 h2
      have h3 : (y+1)*db ≤ (low+1)*db := Nat.mul_le_mul_right _ (by omega)
      have h4 : (y+1)*db = y*db + db := by ring
      have h5 : (low+1)*db = db*(low+1) := Nat.mul_comm _ _
      omega
    have b1 := hlt h1 h2
    have b2 := hlt h1' h2'
    have hp : 0 < bs := by omega
    have hcc : c = c' := by
      have a1 := Nat.div_eq_of_lt b1
      have a2 := Nat.div_eq_of_lt b2
      have b := congrArg (· / bs) ho
      simp only [Nat.mul_comm c, Nat.mul_comm c', Nat.mul_add_div hp, a1, a2] at b
      omega
    subst hcc
    have ho2 : x + y*db = x' + y'*db := by omega
    have hyy : y = y' := by
      have b := congrArg (· / db) ho2
      simp only [Nat.add_mul_div_right _ _ (show 0 < db by omega)] at b
      rw [Nat.div_eq_of_lt (show x < db by omega), Nat.div_eq_of_lt (show x' < db by omega)] at b
      omega
    subst hyy
    have : x = x' := by omega
    subst this
    exact ⟨rfl, rfl⟩

section
variable {α : Type} [Field α] {b : Ptr} {bs db tot low : Nat} {hdb : db = tot + 1} {hbs : db * (low+1) ≤ bs}
  {W : Nat → Nat → Nat → α} {h0 h : Heap α} {p : α} {r12 r : Nat → α}

theorem g4c1eBuf_wp (hlow : low ≤ tot)
    (hup : ∀ c a, c < 3 → W c (a+1) 0 = 1/2 * (a:α) / p * W c (a-1) 0 - r12 c * W c a 0)
    (htr : ∀ c a m, c < 3 → W c a (m+1) = W c (a+1) m + r c * W c a m)
    (H : (cellsB b bs db tot low hdb hbs W).T h0 (fun x => x = (0,0)) h) :
    wp (g4c1eBuf b bs db tot low p r12 r) (fun _ h' => (cellsB b bs db tot low hdb hbs W).T h0 (fun _ => True) h') h := by
  have ad : ∀ c x y n, n = x + y*db → bufAx b bs c n = (cellsB b bs db tot low hdb hbs W).addr c (x, y) := by
    rintro c x y n rfl; rfl
  unfold g4c1eBuf
  rw [wp_mbind]
  have s1 : wp (if tot > 0 then
      forN 3 fun c => do
        let x ← ld (bufAx b bs c 0)
        st (bufAx b bs c 1) (-(r12 c) * x)
      else pure ()) (fun _ h' => (cellsB b bs db tot low hdb hbs W).T h0 (fun x => x.2 = 0 ∧ x.1 ≤ 1) h') h := by
    by_cases ht : tot > 0
    · rw [if_pos ht]
      refine T_for3 (k := (1, 0)) H ⟨by dsimp only; omega, by dsimp only; omega⟩ ?_ ?_
      · intro c h' hc H' Q hQ
        rw [wp_mbind, ad c 0 0 _ (by omega), wp_ld]
        refine ⟨_, T_val H' hc rfl ⟨by dsimp only; omega, by dsimp only; omega⟩, ?_⟩
        rw [ad c 1 0 _ (by omega), wp_st]
        have hal := H'.alloc _ ((cellsB b bs db tot low hdb hbs W).mem c (1,0) hc ⟨by dsimp only; omega, by dsimp only; omega⟩)
        refine ⟨hal, ?_⟩
        have := hQ hal
        have ev : -(r12 c) * (cellsB b bs db tot low hdb hbs W).v c (0,0) = (cellsB b bs db tot low hdb hbs W).v c (1,0) := by
          show -(r12 c) * W c 0 0 = W c 1 0
          rw [hup c 0 hc]; simp
        rw [ev]; exact this
      · rintro ⟨x, y⟩ _ ⟨e1, e2⟩
        dsimp only at e1 e2
        subst e1
        by_cases hx : x = 0
        · exact Or.inr (by rw [hx])
        · exact Or.inl (by rw [show x = 1 by omega])
    · rw [if_neg ht, wp_pure]
      refine T_mono H ?_
      rintro ⟨x, y⟩ ⟨b1, b2⟩ ⟨e1, e2⟩
      dsimp only at b1 b2 e1 e2
      rw [show x = 0 by omega, e1]
  refine wp_mono s1 (fun _ h1 H1 => ?_)
  rw [wp_mbind]
  refine wp_mono (T_forN (fun m x => x.2 = 0 ∧ x.1 ≤ m + 1) H1 (fun x _ hx => ⟨hx.1, by omega⟩)
    (S' := fun x => x.2 = 0) ?_ ?_) ?_
  · intro m hm h' H'
    refine T_for3 (k := (m+1+1, 0)) H' ⟨by dsimp only; omega, by dsimp only; omega⟩ ?_ ?_
    · intro c h' hc H' Q hQ
      rw [wp_mbind, ad c m 0 _ (by omega), wp_ld]
      refine ⟨_, T_val H' hc ⟨rfl, by dsimp only; omega⟩ ⟨by dsimp only; omega, by dsimp only; omega⟩, ?_⟩
      rw [wp_mbind, ad c (m+1) 0 _ (by omega), wp_ld]
      refine ⟨_, T_val H' hc ⟨rfl, by dsimp only; omega⟩ ⟨by dsimp only; omega, by dsimp only; omega⟩, ?_⟩
      rw [ad c (m+1+1) 0 _ (by omega), wp_st]
      have hal := H'.alloc _ ((cellsB b bs db tot low hdb hbs W).mem c (m+1+1,0) hc ⟨by dsimp only; omega, by dsimp only; omega⟩)
      refine ⟨hal, ?_⟩
      have := hQ hal
      have ev : 1/2 * ((m+1 : Nat):α) / p * (cellsB b bs db tot low hdb hbs W).v c (m,0) -
          r12 c * (cellsB b bs db tot low hdb hbs W).v c (m+1,0) = (cellsB b bs db tot low hdb hbs W).v c (m+1+1,0) := by
        show 1/2 * ((m+1 : Nat):α) / p * W c m 0 - r12 c * W c (m+1) 0 = W c (m+1+1) 0
        rw [hup c (m+1) hc]; rfl
      rw [ev]; exact this
    · rintro ⟨x, y⟩ _ ⟨e1, e2⟩
      dsimp only at e1 e2
      by_cases hx : x = m+1+1
      · exact Or.inl (by rw [hx, e1])
      · exact Or.inr ⟨e1, by dsimp only; omega⟩
  · rintro ⟨x, y⟩ ⟨b1, b2⟩ e1
    dsimp only at b1 b2 e1
    exact ⟨e1, by dsimp only; omega⟩
  intro _ h2 H2
  refine T_forN (fun m x => x.2 ≤ m) H2 (fun x _ hx => Nat.le_zero.1 hx) ?_ (fun x hb _ => hb.2)
  intro m hm h' H'
  refine T_forN (fun t x => x.2 ≤ m ∨ (x.2 = m+1 ∧ x.1 < t)) H' (fun x _ hx => hx.resolve_right (by omega)) ?_ ?_
  · intro t ht h' H'
    have e1 : db * (m+1) = (m+1)*db := Nat.mul_comm _ _
    have e2 : (m+1)*db = m*db + db := by ring
    have bk : (cellsB b bs db tot low hdb hbs W).box (t, m+1) := ⟨by dsimp only; omega, by dsimp only; omega⟩
    refine T_for3 (k := (t, m+1)) H' bk ?_ ?_
    · intro c h' hc H' Q hQ
      rw [wp_mbind, ad c (t+1) m _ (by omega), wp_ld]
      refine ⟨_, T_val H' hc (Or.inl (le_refl _)) ⟨by dsimp only; omega, by dsimp only; omega⟩, ?_⟩
      rw [wp_mbind, ad c t m _ (by omega), wp_ld]
      refine ⟨_, T_val H' hc (Or.inl (le_refl _)) ⟨by dsimp only; omega, by dsimp only; omega⟩, ?_⟩
      rw [ad c t (m+1) _ (by omega), wp_st]
      have hal := H'.alloc _ ((cellsB b bs db tot low hdb hbs W).mem c (t,m+1) hc bk)
      refine ⟨hal, ?_⟩
      have := hQ hal
      have ev : (cellsB b bs db tot low hdb hbs W).v c (t+1,m) + r c * (cellsB b bs db tot low hdb hbs W).v c (t,m) =
          (cellsB b bs db tot low hdb hbs W).v c (t,m+1) := (htr c t m hc).symm
      rw [ev]; exact this
    · rintro ⟨x, y⟩ _ hx
      dsimp only at hx
      by_cases hk : x = t ∧ y = m+1
      · exact Or.inl (by rw [hk.1, hk.2])
      · right; dsimp only; omega
  · rintro ⟨x, y⟩ ⟨b1, b2⟩ hx
    dsimp only at b1 b2 hx
    show _ ∨ _
    dsimp only
    omega

/-- copying the buffers to the array of intermediates -/
theorem g4c1eCopy_wp {e : EnvG} {he : Shape4 e} {g : Ptr} {E : Nat → Nat → Nat → Nat → Nat → Nat → α}
    (hroot : e.nrys_roots = 1) {pos : Nat → Nat → Nat}
    (hreg : ∀ q, (∃ n, n < 3 * bs ∧ q = b + n) → ¬ ∃ n, n < 3 * e.g_size ∧ q = g + n)
    (hg : ∀ n, n < 3 * e.g_size → h.D (g + n) ≠ .oob)
    (hpos : ∀ i j, i ≤ e.li_ceil + e.lj_ceil → j ≤ e.lk_ceil + e.ll_ceil → ∀ c, c < 3 →
      (∃ n, n < 3 * bs ∧ bufAx b bs c (pos i j) = b + n) ∧ h.D (bufAx b bs c (pos i j)) = .val (baseF e E c i j 0)) :
    wp (forN (e.lk_ceil + e.ll_ceil + 1) fun j => forN (e.li_ceil + e.lj_ceil + 1) fun i => forN 3 fun c => do
      let x ← ld (bufAx b bs c (pos i j))
      st (gAx g e c (i*e.g2d_ijmax + j*e.g2d_klmax)) x)
      (fun _ h' => (cells2 e he g E).T h (fun _ => True) h') h := by
  have ad : ∀ c i j, gAx g e c (i*e.g2d_ijmax + j*e.g2d_klmax) = (cells2 e he g E).addr c (i, j, 0) := by
    intro c i j
    show _ = gAx g e c (slab4 e (if ibase e then i else 0) (if ibase e then 0 else i) (if kbase e then j else 0) (if kbase e then 0 else j) 0)
    rw [slab4_pos2 he, Nat.zero_add]
  have H0 : (cells2 e he g E).T h (fun _ => False) h := by
    refine Tab.init ?_ (fun k hk => hk.2.1)
    rintro q ⟨n, hn, rfl⟩
    exact hg n hn
  have e0 : ∀ x : Ix2, (cells2 e he g E).box x → x.2.2 = 0 := by
    intro x hx
    have : x.2.2 < e.nrys_roots := hx.2.2
    omega
  refine T_forN (fun j x => x.2.1 < j) H0 (fun x _ hx => by omega) ?_ (fun x hb _ => Nat.lt_succ_of_le hb.2.1)
  intro j hj h1 H1
  refine T_forN (fun i x => x.2.1 < j ∨ (x.2.1 = j ∧ x.1 < i)) H1 (fun x _ hx => hx.resolve_right (by omega)) ?_ ?_
  · intro i hi h2 H2
    have bk : (cells2 e he g E).box (i, j, 0) := ⟨by dsimp only; omega, by dsimp only; omega, by dsimp only; omega⟩
    refine T_for3 (k := (i, j, 0)) H2 bk ?_ ?_
    · intro c h3 hc H3 Q hQ
      obtain ⟨q1, q2⟩ := hpos i j (by omega) (by omega) c hc
      rw [wp_mbind, wp_ld]
      refine ⟨baseF e E c i j 0, by rw [H3.frame _ (hreg _ q1)]; exact q2, ?_⟩
      rw [ad, wp_st]
      have hal := H3.alloc _ ((cells2 e he g E).mem c _ hc bk)
      exact ⟨hal, hQ hal⟩
    · rintro ⟨x, y, z⟩ hb hx
      have hz := e0 _ hb
      dsimp only at hx hz
      by_cases hk : x = i ∧ y = j
      · exact Or.inl (by rw [hk.1, hk.2, hz])
      · right; dsimp only; omega
  · rintro ⟨x, y, z⟩ hb hx
    have h1 : x ≤ _ := hb.1
    dsimp only at hx ⊢
    omega

/-- CINTg4c1e_ovlp -/
theorem g4c1eOvlp_wp {K : Consts α} {e : EnvG} {he : Shape4 e} {d : G2 α} {g : Ptr} {fac : α}
    {E : Nat → Nat → Nat → Nat → Nat → Nat → α} (hroot : e.nrys_roots = 1)
    (hp : p = d.ai + d.aj + (d.ak + d.al))
    (hreg : ∀ q, (∃ n, n < 3 * bSize4 e ∧ q = b + n) → ¬ ∃ n, n < 3 * e.g_size ∧ q = g + n)
    (hg : ∀ n, n < 3 * e.g_size → h.D (g + n) ≠ .oob) (hb : ∀ n, n < 3 * bSize4 e → h.D (b + n) ≠ .oob)
    (hE : Hrr4 d E) (h00 : ∀ c, c < 3 → E c 0 0 0 0 0 = if c = 2 then fac / (p * K.sqrt p) else 1)
    (hup1 : ∀ c n, c < 3 → baseF e E c (n+1) 0 0 = 1/2 * (n:α) / p * baseF e E c (n-1) 0 0 -
      (rxij e d c - ((d.ai+d.aj) * d.rij c + (d.ak+d.al) * d.rkl c) / p) * baseF e E c n 0 0)
    (hup2 : ∀ c n, c < 3 → baseF e E c 0 (n+1) 0 = 1/2 * (n:α) / p * baseF e E c 0 (n-1) 0 -
      (rxkl e d c - ((d.ai+d.aj) * d.rij c + (d.ak+d.al) * d.rkl c) / p) * baseF e E c 0 n 0)
    (htr : ∀ c n m, c < 3 → baseF e E c n (m+1) 0 = baseF e E c (n+1) m 0 + (rxij e d c - rxkl e d c) * baseF e E c n m 0) :
    wp (g4c1eOvlp K e d g b fac) (fun _ h' => ∃ h1, AgreeD h h1 (fun q => ∃ n, n < 3 * bSize4 e ∧ q = b + n) ∧ h1.I = h.I ∧
      (cells4 e he g E).T h1 (full4 e) h') h := by
  have hz : ∀ c, baseF e E c 0 0 0 = E c 0 0 0 0 0 := by intro c; unfold baseF; simp
  have hb0 : bSize4 e = (e.li_ceil + e.lj_ceil + (e.lk_ceil + e.ll_ceil) + 1) *
    (max (e.li_ceil + e.lj_ceil) (e.lk_ceil + e.ll_ceil) + 1) := rfl
  -- the first three stores
  have seed : ∀ {low : Nat} {hbs : _ * (low+1) ≤ bSize4 e} {W : Nat → Nat → Nat → α}, (∀ c, W c 0 0 = baseF e E c 0 0 0) →
      ∀ {Q : Unit → Heap α → Prop} {P : Prog α Unit},
      (∀ h1, (cellsB b (bSize4 e) _ (e.li_ceil + e.lj_ceil + (e.lk_ceil + e.ll_ceil)) low rfl hbs W).T h (fun x => x = (0,0)) h1 →
        wp P Q h1) →
      wp (do
        st (bufAx b (bSize4 e) 0 0) 1
        st (bufAx b (bSize4 e) 1 0) 1
        st (bufAx b (bSize4 e) 2 0) (fac / (p * K.sqrt p))
        P) Q h := by
    intro low hbs W hW Q P hP
    let G := cellsB b (bSize4 e) _ (e.li_ceil + e.lj_ceil + (e.lk_ceil + e.ll_ceil)) low rfl hbs W
    have bx : G.box (0, 0) := ⟨Nat.zero_le _, Nat.zero_le _⟩
    have ad : ∀ c, bufAx b (bSize4 e) c 0 = G.addr c (0, 0) := by
      intro c
      show _ = bufAx b (bSize4 e) c (0 + 0 * _)
      rw [Nat.zero_mul]
    have hv : ∀ c, c < 3 → G.v c (0,0) = if c = 2 then fac / (p * K.sqrt p) else 1 := by
      intro c hc
      show W c 0 0 = _
      rw [hW, hz, h00 c hc]
    have H0 : Tab h h G.reg (fun _ : Nat × (Nat × Nat) => False) (fun q => G.addr q.1 q.2) (fun q => G.v q.1 q.2) := by
      refine Tab.init ?_ (fun k hk => hk)
      rintro q ⟨n, hn, rfl⟩
      exact hb n hn
    have sub : ∀ {m : Nat}, m < 3 → ∀ {k' : Nat × (Nat × Nat)}, k'.1 < m+1 ∧ k'.2 = (0,0) →
        k' = (m, (0,0)) ∨ ((k'.1 < m ∧ k'.2 = (0,0)) ∧ G.addr k'.1 k'.2 ≠ G.addr m (0,0)) := by
      rintro m hm ⟨c, x⟩ ⟨h1, h2⟩
      dsimp only at h1 h2 ⊢
      subst h2
      by_cases e1 : c = m
      · left; rw [e1]
      · right
        refine ⟨⟨by omega, rfl⟩, fun ea => e1 ?_⟩
        exact (G.inj _ _ _ _ (by omega) hm bx bx ea).1
    rw [wp_mbind]
    refine wp_mono (Tab.wp_st (k := (0, (0,0))) (S' := fun k => k.1 < 1 ∧ k.2 = (0,0)) H0 (G.mem 0 _ (by omega) bx)
      (by dsimp only; rw [hv 0 (by omega)]; rfl) (fun k' hk' => (sub (m := 0) (by omega) hk').imp id
        (fun hh => absurd hh.1.1 (by omega))) (ad 0)) (fun _ h1 H1 => ?_)
    rw [wp_mbind]
    refine wp_mono (Tab.wp_st (k := (1, (0,0))) (S' := fun k => k.1 < 2 ∧ k.2 = (0,0)) H1 (G.mem 1 _ (by omega) bx)
      (by dsimp only; rw [hv 1 (by omega)]; rfl) (fun k' hk' => sub (m := 1) (by omega) hk') (ad 1)) (fun _ h2 H2 => ?_)
    rw [wp_mbind]
    refine wp_mono (Tab.wp_st (k := (2, (0,0))) (S' := fun k => k.1 < 3 ∧ k.2 = (0,0)) H2 (G.mem 2 _ (by omega) bx)
      (by dsimp only; rw [hv 2 (by omega)]; rfl) (fun k' hk' => sub (m := 2) (by omega) hk') (ad 2)) (fun _ h3 H3 => ?_)
    exact hP h3 (Tab.mono H3 fun k hk => ⟨hk.1, hk.2.1⟩)
  have main : ∀ {low : Nat} {hbs : _ * (low+1) ≤ bSize4 e} {W : Nat → Nat → Nat → α} {pos : Nat → Nat → Nat} {ix : Nat → Nat → Nat × Nat},
      (∀ i j, pos i j = (ix i j).1 + (ix i j).2 * (e.li_ceil + e.lj_ceil + (e.lk_ceil + e.ll_ceil) + 1)) →
      (∀ i j, i ≤ e.li_ceil + e.lj_ceil → j ≤ e.lk_ceil + e.ll_ceil → (ix i j).2 ≤ low ∧ (ix i j).1 + (ix i j).2 ≤ e.li_ceil + e.lj_ceil + (e.lk_ceil + e.ll_ceil) ∧
        ∀ c, W c (ix i j).1 (ix i j).2 = baseF e E c i j 0) →
      ∀ h2, (cellsB b (bSize4 e) _ (e.li_ceil + e.lj_ceil + (e.lk_ceil + e.ll_ceil)) low rfl hbs W).T h (fun _ => True) h2 →
      wp (do
        forN (e.lk_ceil + e.ll_ceil + 1) fun j => forN (e.li_ceil + e.lj_ceil + 1) fun i => forN 3 fun c => do
          let x ← ld (bufAx b (bSize4 e) c (pos i j))
          st (gAx g e c (i*e.g2d_ijmax + j*e.g2d_klmax)) x
        g0Hrr e d g) (fun _ h' => ∃ h1, AgreeD h h1 (fun q => ∃ n, n < 3 * bSize4 e ∧ q = b + n) ∧ h1.I = h.I ∧
          (cells4 e he g E).T h1 (full4 e) h') h2 := by
    intro low hbs W pos ix hpos hix h2 H2
    rw [wp_mbind]
    refine wp_mono (g4c1eCopy_wp (he := he) (E := E) hroot hreg ?_ ?_) ?_
    · intro n hn
      rw [H2.frame _ (fun hq => hreg _ hq ⟨n, hn, rfl⟩)]
      exact hg n hn
    · intro i j hi hj c hc
      obtain ⟨a1, a2, a3⟩ := hix i j hi hj
      have hm := (cellsB b (bSize4 e) _ (e.li_ceil + e.lj_ceil + (e.lk_ceil + e.ll_ceil)) low rfl hbs W).mem c (ix i j) hc ⟨a2, a1⟩
      have hv := T_val H2 hc trivial (k := ix i j) ⟨a2, a1⟩
      rw [hpos]
      refine ⟨hm, ?_⟩
      rw [← a3]
      exact hv
    · intro _ h3 H3
      refine wp_mono (g0Hrr_wp hE (T_base4 H3)) ?_
      intro _ h4 H4
      exact ⟨h2, H2.frame, H2.int, H4⟩
  have pull : ∀ {P1 P2 P3 : Prog α Unit} {Q : Unit → Heap α → Prop} {h1 : Heap α},
      wp P1 (fun _ h2 => wp (do P2; P3) Q h2) h1 → wp (do (do P1; P2); P3) Q h1 := by
    intro P1 P2 P3 Q h1 hh
    rw [wp_mbind, wp_mbind]
    refine wp_mono hh (fun _ h2 h3 => ?_)
    rwa [wp_mbind] at h3
  unfold g4c1eOvlp
  dsimp only
  rw [← hp]
  by_cases hnm : e.li_ceil + e.lj_ceil ≥ e.lk_ceil + e.ll_ceil
  · simp only [if_pos hnm]
    refine seed (low := e.lk_ceil + e.ll_ceil) (hbs := by rw [hb0]; exact Nat.mul_le_mul_left _ (by omega))
      (W := fun c x y => baseF e E c x y 0) (fun _ => rfl) (fun h1 H1 => pull ?_)
    refine wp_mono (g4c1eBuf_wp (by omega) (fun c a hc => hup1 c a hc) (fun c a m hc => htr c a m hc) H1) (fun _ h2 H2 => ?_)
    refine main (ix := fun i j => (i, j)) (fun i j => rfl) ?_ h2 H2
    intro i j hi hj
    exact ⟨hj, by dsimp only; omega, fun _ => rfl⟩
  · simp only [if_neg hnm]
    refine seed (low := e.li_ceil + e.lj_ceil) (hbs := by rw [hb0]; exact Nat.mul_le_mul_left _ (by omega))
      (W := fun c x y => baseF e E c y x 0) (fun _ => rfl) (fun h1 H1 => pull ?_)
    refine wp_mono (g4c1eBuf_wp (W := fun c x y => baseF e E c y x 0) (by omega) (fun c a hc => hup2 c a hc) (fun c a m hc => ?_) H1) (fun _ h2 H2 => ?_)
    · show baseF e E c (m+1) a 0 = baseF e E c m (a+1) 0 + (rxkl e d c - rxij e d c) * baseF e E c m a 0
      rw [htr c m a hc]; ring
    refine main (ix := fun i j => (j, i)) (fun i j => Nat.add_comm _ _) ?_ h2 H2
    intro i j hi hj
    exact ⟨hi, by dsimp only; omega, fun _ => rfl⟩

end
end Verif.Lemmas
