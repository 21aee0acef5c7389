import Verif.Model.Nuc
import Verif.Lemmas.Ovlp

/-! CINTg1e_nuc solves the recursions of every root. -/
namespace Verif.Lemmas
open Verif Verif.Model Verif.Prog Verif.Props

section
variable {α : Type} [Field α] [LinearOrder α]

/-- CINTg1e_nuc fills the table with the solution of the recursions of every root -/
theorem g1eNuc_wp {R : Rys α} {K : Consts α} {e : EnvG} {d : G1 α} {S : Src α} {g : Ptr} {fac : α} {leng : Nat}
    {h : Heap α} (B : BaseOK e) (hl : 3 * e.g_size ≤ leng) (ha : ∀ q, Blk g leng q → h.D q ≠ .oob)
    {tau x : α} {crij : Nat → α} {ru : Nat → α} (htau : tau = nucMod K (d.ai + d.aj) S.zeta)
    (hcr : ∀ c, crij c = S.r c - d.rij c)
    (hx : x = (d.ai + d.aj) * tau * tau * (crij 0 * crij 0 + crij 1 * crij 1 + crij 2 * crij 2))
    (hru : ∀ r, ru r = tau * tau * R.u e.nrys_roots x r / (1 + R.u e.nrys_roots x r))
    {z : Nat → Nat → α} {E : Nat → Nat → Nat → Nat → α} (hz0 : ∀ r, z 0 r = 1) (hz1 : ∀ r, z 1 r = 1)
    (hz2 : ∀ r, r < e.nrys_roots → z 2 r = R.w e.nrys_roots x r * (2 * K.pi * S.q * fac * tau / (d.ai + d.aj)))
    (h00 : ∀ c r, c < 3 → r < e.nrys_roots → E c 0 0 r = 1)
    (hv : ∀ c i r, c < 3 → r < e.nrys_roots →
      E c (i+1) 0 r = (i:α) * (1/2/(d.ai + d.aj) - 1/2/(d.ai + d.aj) * ru r) * E c (i-1) 0 r +
      ((d.rij c - baseR e d c) + ru r * crij c) * E c i 0 r)
    (hh : ∀ c i j r, c < 3 → r < e.nrys_roots → E c i (j+1) r = E c (i+1) j r + rirj e d c * E c i j r) :
    wp (g1eNuc R K e d S g fac) (fun b h1 => b = true ∧ Tab h h1 (Blk g leng)
      (fun k => k.1 < 3 ∧ k.2.1 + k.2.2.1 ≤ e.li_ceil + e.lj_ceil ∧ k.2.2.1 ≤ baseL e ∧ k.2.2.2 < e.nrys_roots)
      (baseAddr g e) (fun k => z k.1 k.2.2.2 * E k.1 k.2.1 k.2.2.1 k.2.2.2)) h := by
  obtain rfl : crij = fun c => S.r c - d.rij c := funext hcr
  obtain rfl : ru = fun r => tau * tau * R.u e.nrys_roots x r / (1 + R.u e.nrys_roots x r) := funext hru
  dsimp only at hx hv
  let v : Nat × Nat × Nat × Nat → α := fun k => z k.1 k.2.2.2 * E k.1 k.2.1 k.2.2.1 k.2.2.2
  have mem : ∀ {c i j r : Nat}, c < 3 → i ≤ e.li_ceil + e.lj_ceil → j ≤ baseL e → r < e.nrys_roots →
      Blk g leng (baseAddr g e (c,i,j,r)) := fun h1 h2 h3 h4 => baseAddr_mem B hl ⟨h1, h2, h3, h4⟩
  unfold g1eNuc
  simp only [wp_mbind]
  rw [← htau, ← hx]
  -- weights
  let vw : Nat × Nat × Nat × Nat → α := fun k => R.w e.nrys_roots x k.2.2.2
  refine wp_forN (fun m h' => Tab h h' (Blk g leng) (fun k => k.1 = 2 ∧ k.2.1 = 0 ∧ k.2.2.1 = 0 ∧ k.2.2.2 < m)
    (baseAddr g e) vw) (Tab.init ha (fun k hk => by omega)) ?_ ?_
  · intro m hm h1 T1
    refine T1.wp_st (k := (2,0,0,m)) (mem (by omega) (by omega) (by omega) hm) rfl ?_ (gAx_base (by simp [basePlace]))
    rintro ⟨c, i, j, r⟩ ⟨q1, q2, q3, q4⟩
    dsimp only at q1 q2 q3 q4 ⊢
    subst q1 q2 q3
    by_cases hr : r = m
    · left; rw [hr]
    · right
      refine ⟨⟨rfl, rfl, rfl, by omega⟩, fun hh => hr ?_⟩
      have := baseAddr_inj B (k := (2,0,0,r)) (k' := (2,0,0,m)) ⟨by simp, by simp, by simp, by dsimp only; omega⟩
        ⟨by simp, by simp, by simp, hm⟩ hh
      exact congrArg (·.2.2.2) this
  intro h1 T1
  -- first elements: before root m the final values, from root m on the weights
  let v1 : Nat → Nat × Nat × Nat × Nat → α := fun m k => if k.2.2.2 < m then v k else vw k
  refine wp_forN (fun m h' => Tab h h' (Blk g leng) (fun k => k.1 < 3 ∧ k.2.1 = 0 ∧ k.2.2.1 = 0 ∧ k.2.2.2 < e.nrys_roots ∧
      (k.2.2.2 < m ∨ k.1 = 2)) (baseAddr g e) (v1 m)) (T1.congr ?_) ?_ ?_
  · rintro ⟨c, i, j, r⟩ ⟨q1, q2, q3, q4, q5⟩
    dsimp only at q1 q2 q3 q4 q5 ⊢
    have : c = 2 := by omega
    subst this
    refine ⟨⟨rfl, q2, q3, q4⟩, ?_⟩
    show (if r < 0 then _ else _) = _
    rw [if_neg (by omega)]
  · intro m hm h2 T2
    have loc : ∀ {c c' r r' : Nat}, c < 3 → c' < 3 → r < e.nrys_roots → r' < e.nrys_roots →
        baseAddr g e (c,0,0,r) = baseAddr g e (c',0,0,r') → c = c' ∧ r = r' := by
      intro c c' r r' h1 h2 h3 h4 h5
      have := baseAddr_inj B (k := (c,0,0,r)) (k' := (c',0,0,r')) ⟨h1, by simp, by simp, h3⟩ ⟨h2, by simp, by simp, h4⟩ h5
      exact ⟨congrArg (·.1) this, congrArg (·.2.2.2) this⟩
    let P : Nat → Nat × Nat × Nat × Nat → Prop := fun t k => k.1 < 3 ∧ k.2.1 = 0 ∧ k.2.2.1 = 0 ∧ k.2.2.2 < e.nrys_roots ∧
      (k.2.2.2 < m ∨ k.1 = 2 ∨ (k.2.2.2 = m ∧ k.1 < t))
    let w : Nat → Nat × Nat × Nat × Nat → α := fun t k =>
      if k.2.2.2 < m ∨ (k.2.2.2 = m ∧ k.1 < t) then v k else vw k
    have step : ∀ {h' : Heap α} {c : Nat} {x : α}, c < 3 → x = v (c,0,0,m) → Tab h h' (Blk g leng) (P c) (baseAddr g e) (w c) →
        wp (st (gAx g e c m) x) (fun _ h3 => Tab h h3 (Blk g leng) (P (c+1)) (baseAddr g e) (w (c+1))) h' := by
      intro h' c x hc hx T
      rw [gAx_base (i := 0) (j := 0) (r := m) (by simp [basePlace]), wp_st]
      have hb : Blk g leng (baseAddr g e (c,0,0,m)) := mem hc (by omega) (by omega) hm
      refine ⟨T.alloc _ hb, ?_⟩
      have T' : Tab h h' (Blk g leng) (fun k => P c k ∧ k ≠ (c,0,0,m)) (baseAddr g e) (w (c+1)) := by
        refine T.congr ?_
        rintro ⟨c', i, j, r⟩ ⟨hk, hne⟩
        refine ⟨hk, ?_⟩
        obtain ⟨q1, q2, q3, q4, q5⟩ := hk
        dsimp only at q1 q2 q3 q4 q5
        show (if r < m ∨ (r = m ∧ c' < c+1) then _ else _) = if r < m ∨ (r = m ∧ c' < c) then _ else _
        have : r = m → c' ≠ c := fun h1 h2 => hne (by rw [h1, h2, q2, q3])
        congr 1
        refine propext ⟨fun hh => ?_, fun hh => ?_⟩ <;> omega
      have hx2 : x = w (c+1) (c,0,0,m) := by
        rw [hx]
        show v _ = if m < m ∨ (m = m ∧ c < c+1) then _ else _
        rw [if_pos (Or.inr ⟨rfl, by omega⟩)]
      rw [hx2]
      refine T'.set hb ?_
      rintro ⟨c', i, j, r⟩ hk
      have hk' := hk
      obtain ⟨q1, q2, q3, q4, q5⟩ := hk
      dsimp only at q1 q2 q3 q4 q5 ⊢
      subst q2 q3
      by_cases he : c' = c ∧ r = m
      · left; rw [he.1, he.2]
      · right
        refine ⟨⟨⟨q1, rfl, rfl, q4, ?_⟩, fun hh => he ?_⟩, fun hh => he (loc q1 hc q4 hm hh)⟩
        · dsimp only; omega
        · exact ⟨congrArg (·.1) hh, congrArg (·.2.2.2) hh⟩
    have hvm : ∀ c, c < 3 → v (c,0,0,m) = z c m := by
      intro c hc
      show z c m * E c 0 0 m = _
      rw [h00 c m hc hm, mul_one]
    simp only [wp_mbind]
    refine wp_mono (step (c := 0) (by omega) (by rw [hvm 0 (by omega), hz0]) (T2.congr ?_)) ?_
    · rintro ⟨c, i, j, r⟩ ⟨q1, q2, q3, q4, q5⟩
      dsimp only at q1 q2 q3 q4 q5 ⊢
      refine ⟨⟨q1, q2, q3, q4, by omega⟩, ?_⟩
      show (if r < m ∨ (r = m ∧ c < 0) then _ else _) = if r < m then _ else _
      congr 1
      refine propext ⟨fun hh => ?_, fun hh => ?_⟩ <;> omega
    intro _ h3 T3
    refine wp_mono (step (c := 1) (by omega) (by rw [hvm 1 (by omega), hz1]) T3) ?_
    intro _ h4 T4
    rw [wp_ld]
    refine ⟨vw (2,0,0,m), ?_, ?_⟩
    · rw [gAx_base (i := 0) (j := 0) (r := m) (by simp [basePlace])]
      have := T4.val (2,0,0,m) ⟨by simp, rfl, rfl, hm, Or.inr (Or.inl rfl)⟩
      rw [this]
      show Cell.val (if m < m ∨ (m = m ∧ 2 < 1+1) then _ else _) = _
      rw [if_neg (by omega)]
    refine wp_mono (step (c := 2) (by omega) ?_ T4) ?_
    · rw [hvm 2 (by omega), hz2 m hm]
    intro _ h5 T5
    refine T5.congr ?_
    rintro ⟨c, i, j, r⟩ ⟨q1, q2, q3, q4, q5⟩
    dsimp only at q1 q2 q3 q4 q5 ⊢
    refine ⟨⟨q1, q2, q3, q4, by dsimp only; omega⟩, ?_⟩
    show (if r < m+1 then _ else _) = if r < m ∨ (r = m ∧ c < 2+1) then _ else _
    congr 1
    refine propext ⟨fun hh => ?_, fun hh => ?_⟩ <;> omega
  intro h2 T2
  have T2' : Tab h h2 (Blk g leng) (fun k => k.1 < 3 ∧ k.2.1 = 0 ∧ k.2.2.1 = 0 ∧ k.2.2.2 < e.nrys_roots) (baseAddr g e) v := by
    refine T2.congr ?_
    rintro ⟨c, i, j, r⟩ ⟨q1, q2, q3, q4⟩
    dsimp only at q1 q2 q3 q4 ⊢
    refine ⟨⟨q1, q2, q3, q4, Or.inl q4⟩, ?_⟩
    show _ = if r < e.nrys_roots then _ else _
    rw [if_pos q4]
  clear T2
  by_cases hn : e.li_ceil + e.lj_ceil = 0
  · rw [if_pos hn]
    simp only [wp_pure]
    refine ⟨True.intro, T2'.mono ?_⟩
    rintro ⟨c, i, j, r⟩ ⟨q1, q2, q3, q4⟩
    dsimp only at q1 q2 q3 q4 ⊢
    exact ⟨q1, by omega, by omega, q4⟩
  rw [if_neg hn]
  simp only [wp_mbind]
  -- vertical recursion
  refine wp_forN (fun m h' => Tab h h' (Blk g leng) (fun k => k.1 < 3 ∧ k.2.1 ≤ e.li_ceil + e.lj_ceil ∧ k.2.2.1 = 0 ∧
      k.2.2.2 < e.nrys_roots ∧ (k.2.1 = 0 ∨ k.2.2.2 < m)) (baseAddr g e) v) (T2'.mono ?_) ?_ ?_
  · rintro ⟨c, i, j, r⟩ ⟨q1, q2, q3, q4, q5⟩
    dsimp only at q1 q2 q3 q4 q5 ⊢
    exact ⟨q1, by omega, q3, q4⟩
  · intro m hm h3 T3
    rw [wp_mbind]
    refine wp_mono (tab_step3 B hl (i := 1) (j := 0) (r := m) (S' := fun k => k.1 < 3 ∧ k.2.1 ≤ e.li_ceil + e.lj_ceil ∧
      k.2.2.1 = 0 ∧ k.2.2.2 < e.nrys_roots ∧ (k.2.1 = 0 ∨ k.2.2.2 < m ∨ (k.2.2.2 = m ∧ k.2.1 ≤ 1))) (by omega) (by omega) hm ?_ ?_ ?_ T3) ?_
    · rintro ⟨c, i, j, r⟩ ⟨q1, q2, q3, q4, q5⟩
      dsimp only at q1 q2 q3 q4 q5
      exact ⟨q1, q2, by dsimp only; omega, q4⟩
    · rintro ⟨c, i, j, r⟩ ⟨q1, q2, q3, q4, q5⟩
      dsimp only at q1 q2 q3 q4 q5 ⊢
      by_cases he : i = 1 ∧ r = m
      · right; exact ⟨q1, by rw [he.1, q3, he.2]⟩
      · left; exact ⟨q1, q2, q3, q4, by omega⟩
    · intro c hc h4 T4
      simp only [wp_mbind, wp_ld, wp_st]
      rw [gAx_base (i := 0) (j := 0) (r := m) (n := m) (by simp [basePlace]),
        gAx_base (i := 1) (j := 0) (r := m) (by simp [basePlace])]
      refine ⟨v (c,0,0,m), ?_, ?_, ?_⟩
      · exact T4.val _ ⟨⟨hc, by simp, rfl, hm, Or.inl rfl⟩, by simp⟩
      · exact T4.alloc _ (mem hc (by omega) (by omega) hm)
      · congr 1
        show _ * (z c m * E c 0 0 m) = z c m * E c 1 0 m
        rw [hv c 0 m hc hm]
        simp only [Nat.cast_zero, zero_mul, zero_add]
        ring
    intro _ h4 T4
    refine wp_forN (fun t h' => Tab h h' (Blk g leng) (fun k => k.1 < 3 ∧ k.2.1 ≤ e.li_ceil + e.lj_ceil ∧
      k.2.2.1 = 0 ∧ k.2.2.2 < e.nrys_roots ∧ (k.2.1 = 0 ∨ k.2.2.2 < m ∨ (k.2.2.2 = m ∧ k.2.1 ≤ t+1))) (baseAddr g e) v)
      (T4.mono fun k hk => hk) ?_ ?_
    · intro t ht h5 T5
      refine tab_step3 B hl (i := t+2) (j := 0) (r := m) (by omega) (by omega) hm ?_ ?_ ?_ T5
      · rintro ⟨c, i, j, r⟩ ⟨q1, q2, q3, q4, q5⟩
        dsimp only at q1 q2 q3 q4 q5
        exact ⟨q1, q2, by dsimp only; omega, q4⟩
      · rintro ⟨c, i, j, r⟩ ⟨q1, q2, q3, q4, q5⟩
        dsimp only at q1 q2 q3 q4 q5 ⊢
        by_cases he : i = t+2 ∧ r = m
        · right; exact ⟨q1, by rw [he.1, q3, he.2]⟩
        · left; exact ⟨q1, q2, q3, q4, by omega⟩
      · intro c hc h6 T6
        simp only [wp_mbind, wp_ld, wp_st]
        rw [Nat.add_sub_cancel, gAx_base (i := t) (j := 0) (r := m) (n := m + t * baseDi e) (by unfold basePlace; ring),
          gAx_base (i := t+1) (j := 0) (r := m) (n := m + (t+1) * baseDi e) (by unfold basePlace; ring),
          gAx_base (i := t+2) (j := 0) (r := m) (n := m + (t+1+1) * baseDi e) (by unfold basePlace; ring)]
        refine ⟨v (c,t,0,m), ?_, v (c,t+1,0,m), ?_, ?_, ?_⟩
        · exact T6.val _ ⟨⟨hc, by dsimp only; omega, rfl, hm, by dsimp only; omega⟩, by simp⟩
        · exact T6.val _ ⟨⟨hc, by dsimp only; omega, rfl, hm, by dsimp only; omega⟩, by simp⟩
        · exact T6.alloc _ (mem hc (by omega) (by omega) hm)
        · congr 1
          show _ * (z c m * E c t 0 m) + _ * (z c m * E c (t+1) 0 m) = z c m * E c (t+2) 0 m
          rw [hv c (t+1) m hc hm, Nat.add_sub_cancel]
          ring
    · intro h5 T5
      refine T5.mono ?_
      rintro ⟨c, i, j, r⟩ ⟨q1, q2, q3, q4, q5⟩
      dsimp only at q1 q2 q3 q4 q5 ⊢
      exact ⟨q1, q2, q3, q4, by omega⟩
  intro h3 T3
  -- horizontal recursion
  have hbl : baseL e ≤ e.li_ceil + e.lj_ceil := by unfold baseL; split <;> omega
  refine wp_forN (fun m h' => Tab h h' (Blk g leng) (fun k => k.1 < 3 ∧
      k.2.1 + k.2.2.1 ≤ e.li_ceil + e.lj_ceil ∧ k.2.2.1 ≤ m ∧ k.2.2.2 < e.nrys_roots) (baseAddr g e) v)
      (T3.mono ?_) ?_ ?_
  · rintro ⟨c, i, j, r⟩ ⟨q1, q2, q3, q4⟩
    dsimp only at q1 q2 q3 q4 ⊢
    exact ⟨q1, by omega, by omega, q4, by omega⟩
  · intro m hm h6 T6
    refine wp_forN (fun t h' => Tab h h' (Blk g leng) (fun k => k.1 < 3 ∧
      k.2.1 + k.2.2.1 ≤ e.li_ceil + e.lj_ceil ∧ (k.2.2.1 ≤ m ∨ (k.2.2.1 = m+1 ∧ k.2.1 < t)) ∧ k.2.2.2 < e.nrys_roots)
      (baseAddr g e) v) (T6.mono ?_) ?_ ?_
    · rintro ⟨c, i, j, r⟩ ⟨q1, q2, q3, q4⟩
      dsimp only at q1 q2 q3 q4 ⊢
      exact ⟨q1, by omega, by omega, q4⟩
    · intro t ht h7 T7
      refine wp_forN (fun s h' => Tab h h' (Blk g leng) (fun k => k.1 < 3 ∧
        k.2.1 + k.2.2.1 ≤ e.li_ceil + e.lj_ceil ∧ (k.2.2.1 ≤ m ∨ (k.2.2.1 = m+1 ∧ (k.2.1 < t ∨ (k.2.1 = t ∧ k.2.2.2 < s)))) ∧
        k.2.2.2 < e.nrys_roots) (baseAddr g e) v) (T7.mono ?_) ?_ ?_
      · rintro ⟨c, i, j, r⟩ ⟨q1, q2, q3, q4⟩
        dsimp only at q1 q2 q3 q4 ⊢
        exact ⟨q1, by omega, by omega, q4⟩
      · intro s hs h8 T8
        refine tab_step3 B hl (i := t) (j := m+1) (r := s) (by omega) (by omega) hs ?_ ?_ ?_ T8
        · rintro ⟨c, i, j, r⟩ ⟨q1, q2, q3, q4⟩
          dsimp only at q1 q2 q3 q4
          exact ⟨q1, by dsimp only; omega, by dsimp only; omega, q4⟩
        · rintro ⟨c, i, j, r⟩ ⟨q1, q2, q3, q4⟩
          dsimp only at q1 q2 q3 q4 ⊢
          by_cases hij : i = t ∧ j = m+1 ∧ r = s
          · right; exact ⟨q1, by rw [hij.1, hij.2.1, hij.2.2]⟩
          · left; exact ⟨q1, by omega, by omega, q4⟩
        · intro c hc h9 T9
          simp only [wp_mbind, wp_ld, wp_st]
          have e0 : (m+1)*baseDj e - baseDj e = m * baseDj e := by rw [Nat.add_mul, Nat.one_mul, Nat.add_sub_cancel]
          rw [e0]
          rw [gAx_base (i := t+1) (j := m) (r := s) (n := m * baseDj e + baseDi e + (s + t * baseDi e)) (by unfold basePlace; ring),
            gAx_base (i := t) (j := m) (r := s) (n := m * baseDj e + (s + t * baseDi e)) (by unfold basePlace; ring),
            gAx_base (i := t) (j := m+1) (r := s) (n := (m+1) * baseDj e + (s + t * baseDi e)) (by unfold basePlace; ring)]
          refine ⟨v (c,t+1,m,s), ?_, v (c,t,m,s), ?_, ?_, ?_⟩
          · exact T9.val _ ⟨⟨hc, by dsimp only; omega, by dsimp only; omega, hs⟩, by simp⟩
          · exact T9.val _ ⟨⟨hc, by dsimp only; omega, by dsimp only; omega, hs⟩, by simp⟩
          · exact T9.alloc _ (mem hc (by omega) (by omega) hs)
          · congr 1
            show (z c s * E c (t+1) m s) + _ * (z c s * E c t m s) = z c s * E c t (m+1) s
            rw [hh c t m s hc hs]
            ring
      · intro h8 T8
        refine T8.mono ?_
        rintro ⟨c, i, j, r⟩ ⟨q1, q2, q3, q4⟩
        dsimp only at q1 q2 q3 q4 ⊢
        exact ⟨q1, q2, by omega, q4⟩
    · intro h7 T7
      refine T7.mono ?_
      rintro ⟨c, i, j, r⟩ ⟨q1, q2, q3, q4⟩
      dsimp only at q1 q2 q3 q4 ⊢
      exact ⟨q1, q2, by omega, q4⟩
  intro h6 T6
  simp only [wp_pure]
  exact ⟨True.intro, T6⟩
end

end Verif.Lemmas
