import Verif.Model.G1e
import Verif.Lemmas.Tab
import Verif.Lemmas.Gauss
import Verif.Props.Index
import Mathlib.Analysis.SpecialFunctions.Sqrt
import Mathlib.Tactic.Linarith

namespace Verif.Lemmas
open Verif Verif.Model Verif.Prog Verif.Props

/-- places of the recursion: `i` powers in the base direction, `j` in the other -/
def basePlace (e : EnvG) (i j r : Nat) : Nat := i * baseDi e + j * baseDj e + r

/-- the places used by the recursions lie in the slab and do not overlap -/
structure BaseOK (e : EnvG) : Prop where
  range : ∀ i j r, i ≤ e.li_ceil + e.lj_ceil → j ≤ baseL e → r < e.nrys_roots →
    basePlace e i j r < e.g_size
  inj : ∀ i j r i' j' r', i ≤ e.li_ceil + e.lj_ceil → j ≤ baseL e → r < e.nrys_roots →
    i' ≤ e.li_ceil + e.lj_ceil → j' ≤ baseL e → r' < e.nrys_roots →
    basePlace e i j r = basePlace e i' j' r' → i = i' ∧ j = j' ∧ r = r'
  pos : 0 < e.nrys_roots

theorem baseOK_int1e (li lj : Nat) (ng : Inc) : BaseOK (initInt1e li lj ng) := by
  let e := initInt1e li lj ng
  have hsi : e.g_stride_i = e.nrys_roots := rfl
  have hsj : e.g_stride_j = e.nrys_roots * dimA e.li_ceil e.lj_ceil := rfl
  have hgs : e.g_size = e.nrys_roots * dimA e.li_ceil e.lj_ceil * dimB e.li_ceil e.lj_ceil := rfl
  have hpos : 0 < e.nrys_roots := by
    show 0 < if ng.rys > 0 then ng.rys else (li + ng.i + (lj + ng.j))/2 + 1
    split <;> omega
  show BaseOK e
  by_cases hb : ibase e
  · have hA : dimA e.li_ceil e.lj_ceil = e.li_ceil + e.lj_ceil + 1 := by
      exact if_pos hb
    have hB : dimB e.li_ceil e.lj_ceil = e.lj_ceil + 1 := by exact if_pos hb
    have hp : ∀ i j r, basePlace e i j r =
        e.nrys_roots*i + e.nrys_roots*(e.li_ceil + e.lj_ceil + 1)*j + r := by
      intro i j r
      unfold basePlace baseDi baseDj
      rw [if_pos hb, if_pos hb, hsi, hsj, hA]; ring
    have hl : baseL e = e.lj_ceil := if_pos hb
    refine ⟨?_, ?_, hpos⟩
    · intro i j r h1 h2 h3
      rw [hp, hgs, hA, hB]
      exact (digits3 (by omega) (by omega) h3).1
    · intro i j r i' j' r' h1 h2 h3 h4 h5 h6 h
      rw [hp, hp] at h
      exact (digits3 (A := e.li_ceil + e.lj_ceil + 1) (B := e.lj_ceil + 1) (by omega) (by omega) h3).2
        i' j' r' (by omega) (by omega) h6 h
  · have hA : dimA e.li_ceil e.lj_ceil = e.li_ceil + 1 := by
      exact if_neg hb
    have hB : dimB e.li_ceil e.lj_ceil = e.li_ceil + e.lj_ceil + 1 := by exact if_neg hb
    have hp : ∀ i j r, basePlace e i j r =
        e.nrys_roots*j + e.nrys_roots*(e.li_ceil + 1)*i + r := by
      intro i j r
      unfold basePlace baseDi baseDj
      rw [if_neg hb, if_neg hb, hsi, hsj, hA]; ring
    have hl : baseL e = e.li_ceil := if_neg hb
    refine ⟨?_, ?_, hpos⟩
    · intro i j r h1 h2 h3
      rw [hp, hgs, hA, hB]
      exact (digits3 (by omega) (by omega) h3).1
    · intro i j r i' j' r' h1 h2 h3 h4 h5 h6 h
      rw [hp, hp] at h
      have := (digits3 (A := e.li_ceil + 1) (B := e.li_ceil + e.lj_ceil + 1) (by omega) (by omega) h3).2
        j' i' r' (by omega) (by omega) h6 h
      exact ⟨this.2.1, this.1, this.2.2⟩

/-- cell of direction `c`, powers `i`, `j`, root `r` -/
def baseAddr (g : Ptr) (e : EnvG) (k : Nat × Nat × Nat × Nat) : Ptr :=
  gAx g e k.1 (basePlace e k.2.1 k.2.2.1 k.2.2.2)

/-- region of the recursion -/
def inBase (e : EnvG) (k : Nat × Nat × Nat × Nat) : Prop :=
  k.1 < 3 ∧ k.2.1 ≤ e.li_ceil + e.lj_ceil ∧ k.2.2.1 ≤ baseL e ∧ k.2.2.2 < e.nrys_roots

theorem baseAddr_inj {g : Ptr} {e : EnvG} (B : BaseOK e) {k k' : Nat × Nat × Nat × Nat}
    (hk : inBase e k) (hk' : inBase e k') (h : baseAddr g e k = baseAddr g e k') : k = k' := by
  obtain ⟨c, i, j, r⟩ := k
  obtain ⟨c', i', j', r'⟩ := k'
  obtain ⟨h1, h2, h3, h4⟩ := hk
  obtain ⟨g1, g2, g3, g4⟩ := hk'
  dsimp only at h1 h2 h3 h4 g1 g2 g3 g4
  unfold baseAddr gAx at h
  rw [Ptr.add_right_inj] at h
  dsimp only at h
  obtain ⟨q1, q2⟩ := radix_inj (B.range i j r h2 h3 h4) (B.range i' j' r' g2 g3 g4) h
  obtain ⟨q3, q4, q5⟩ := B.inj i j r i' j' r' h2 h3 h4 g2 g3 g4 q2
  subst q1 q3 q4 q5
  rfl

theorem baseAddr_mem {g : Ptr} {e : EnvG} (B : BaseOK e) {leng : Nat} (hl : 3 * e.g_size ≤ leng)
    {k : Nat × Nat × Nat × Nat} (hk : inBase e k) : Blk g leng (baseAddr g e k) := by
  refine ⟨_, ?_, rfl⟩
  have := radix_lt hk.1 (B.range _ _ _ hk.2.1 hk.2.2.1 hk.2.2.2)
  omega

section
variable {α : Type}

/-- one step of the recursion over the three directions -/
theorem tab_step3 {h h' : Heap α} {g : Ptr} {e : EnvG} (B : BaseOK e) {leng : Nat}
    (hl : 3 * e.g_size ≤ leng) {S S' : Nat × Nat × Nat × Nat → Prop} {v : Nat × Nat × Nat × Nat → α}
    {i j r : Nat} (hi : i ≤ e.li_ceil + e.lj_ceil) (hj : j ≤ baseL e) (hr : r < e.nrys_roots)
    (hin : ∀ k, S k → inBase e k)
    (hS : ∀ k, S' k → S k ∨ (k.1 < 3 ∧ k.2 = (i, j, r)))
    {f : Nat → Prog α Unit}
    (hf : ∀ c, c < 3 → ∀ h2, Tab h h2 (Blk g leng) (fun k => S k ∧ k.2 ≠ (i, j, r)) (baseAddr g e) v →
      wp (f c) (fun _ h3 => h3 = h2.setD (baseAddr g e (c, i, j, r)) (v (c, i, j, r))) h2)
    (T : Tab h h' (Blk g leng) S (baseAddr g e) v) :
    wp (forN 3 f) (fun _ h2 => Tab h h2 (Blk g leng) S' (baseAddr g e) v) h' := by
  refine wp_forN (fun c h2 => Tab h h2 (Blk g leng)
    (fun k => (S k ∧ k.2 ≠ (i, j, r)) ∨ (k.1 < c ∧ k.2 = (i, j, r))) (baseAddr g e) v)
    (T.mono fun k hk => hk.elim (·.1) (fun x => absurd x.1 (by omega))) ?_ ?_
  · intro c hc h2 T2
    refine wp_mono (hf c hc h2 (T2.mono fun k hk => Or.inl hk)) ?_
    rintro _ _ rfl
    have hkin : inBase e (c, i, j, r) := ⟨hc, hi, hj, hr⟩
    refine T2.set (baseAddr_mem B hl hkin) ?_
    rintro ⟨c', k2⟩ hk'
    by_cases he : (c', k2) = (c, i, j, r)
    · exact Or.inl he
    · right
      have hin' : inBase e (c', k2) := by
        rcases hk' with hk' | ⟨h1, h2⟩
        · exact hin _ hk'.1
        · dsimp only at h1 h2; rw [h2]; exact ⟨show c' < 3 by omega, hi, hj, hr⟩
      refine ⟨?_, fun h => he (baseAddr_inj B hin' hkin h)⟩
      rcases hk' with hk' | ⟨h1, h2⟩
      · exact Or.inl hk'
      · refine Or.inr ⟨?_, h2⟩
        dsimp only at h1 h2 ⊢
        rcases Nat.lt_succ_iff_lt_or_eq.1 h1 with h1 | h1
        · exact h1
        · subst h1 h2; exact absurd rfl he
  · intro h2 T2
    refine T2.mono fun k hk => ?_
    by_cases he : k.2 = (i, j, r)
    · right
      refine ⟨?_, he⟩
      rcases hS k hk with h1 | h1
      · exact (hin k h1).1
      · exact h1.1
    · left
      rcases hS k hk with h1 | h1
      · exact ⟨h1, he⟩
      · exact absurd h1.2 he

variable [Field α]

theorem gAx_base {g : Ptr} {e : EnvG} {c n i j r : Nat} (h : n = basePlace e i j r) :
    gAx g e c n = baseAddr g e (c, i, j, r) := by rw [h]; rfl

/-- CINTg1e_ovlp fills the table with the solution of the recursions -/
theorem g1eOvlp_wp {K : Consts α} {e : EnvG} {d : G1 α} {g : Ptr} {fac : α} {leng : Nat} {h : Heap α}
    (B : BaseOK e) (hl : 3 * e.g_size ≤ leng) (ha : ∀ q, Blk g leng q → h.D q ≠ .oob)
    {z : Nat → α} {E : Nat → Nat → Nat → α} (hz0 : z 0 = 1) (hz1 : z 1 = 1)
    (hz2 : z 2 = fac * K.sqrtpi * K.pi / ((d.ai + d.aj) * K.sqrt (d.ai + d.aj)))
    (h00 : ∀ c, c < 3 → E c 0 0 = 1)
    (hv : ∀ c i, c < 3 → E c (i+1) 0 = (i:α) * (1/2/(d.ai + d.aj)) * E c (i-1) 0 +
      (d.rij c - baseR e d c) * E c i 0)
    (hh : ∀ c i j, c < 3 → E c i (j+1) = E c (i+1) j + rirj e d c * E c i j) :
    wp (g1eOvlp K e d g fac) (fun r h1 => r = true ∧ Tab h h1 (Blk g leng)
      (fun k => k.1 < 3 ∧ k.2.1 + k.2.2.1 ≤ e.li_ceil + e.lj_ceil ∧ k.2.2.1 ≤ baseL e ∧ k.2.2.2 = 0)
      (baseAddr g e) (fun k => z k.1 * E k.1 k.2.1 k.2.2.1)) h := by
  have hp0 := B.pos
  let v : Nat × Nat × Nat × Nat → α := fun k => z k.1 * E k.1 k.2.1 k.2.2.1
  have mem : ∀ {c i j : Nat}, c < 3 → i ≤ e.li_ceil + e.lj_ceil → j ≤ baseL e →
      Blk g leng (baseAddr g e (c,i,j,0)) := fun h1 h2 h3 => baseAddr_mem B hl ⟨h1, h2, h3, hp0⟩
  have st0 : ∀ {h' : Heap α} {c : Nat} {x : α}, c < 3 → x = z c →
      Tab h h' (Blk g leng) (fun k => k.1 < c ∧ k.2 = (0,0,0)) (baseAddr g e) v →
      wp (st (gAx g e c 0) x) (fun _ h2 => Tab h h2 (Blk g leng)
        (fun k => k.1 < c+1 ∧ k.2 = (0,0,0)) (baseAddr g e) v) h' := by
    intro h' c x hc hx T
    refine T.wp_st (k := (c,0,0,0)) (mem hc (by omega) (by omega)) ?_ ?_ ?_
    · show x = z c * E c 0 0
      rw [h00 c hc, mul_one, hx]
    · rintro ⟨c', k2⟩ ⟨h1, h2⟩
      dsimp only at h1 h2 ⊢
      subst h2
      by_cases he : c' = c
      · left; rw [he]
      · right
        refine ⟨⟨by omega, rfl⟩, fun hh => he ?_⟩
        have := baseAddr_inj B (k := (c',0,0,0)) (k' := (c,0,0,0)) ⟨by dsimp only; omega, by simp, by simp, hp0⟩
          ⟨hc, by simp, by simp, hp0⟩ hh
        exact congrArg (·.1) this
    · exact gAx_base (by simp [basePlace])
  unfold g1eOvlp
  simp only [wp_mbind]
  refine wp_mono (st0 (by omega) hz0.symm (Tab.init ha (fun k hk => by omega))) ?_
  intro _ h1 T1
  refine wp_mono (st0 (by omega) hz1.symm T1) ?_
  intro _ h2 T2
  refine wp_mono (st0 (by omega) hz2.symm T2) ?_
  intro _ h3 T3
  by_cases hn : e.li_ceil + e.lj_ceil = 0
  · rw [if_pos hn]
    simp only [wp_pure]
    refine ⟨True.intro, T3.mono ?_⟩
    rintro ⟨c, i, j, r⟩ ⟨q1, q2, q3, q4⟩
    dsimp only at q1 q2 q3 q4 ⊢
    refine ⟨by omega, ?_⟩
    have a1 : i = 0 := by omega
    have a2 : j = 0 := by omega
    rw [a1, a2, q4]
  rw [if_neg hn]
  simp only [wp_mbind]
  -- first step of the vertical recursion
  refine wp_mono (tab_step3 B hl (i := 1) (j := 0) (r := 0) (S' := fun k => k.1 < 3 ∧ k.2.1 ≤ 1 ∧
      k.2.2.1 = 0 ∧ k.2.2.2 = 0) (by omega) (by omega) hp0 ?_ ?_ ?_ T3) ?_
  · rintro ⟨c, k2⟩ ⟨q1, q2⟩
    dsimp only at q1 q2
    subst q2
    exact ⟨q1, by simp, by simp, hp0⟩
  · rintro ⟨c, i, j, r⟩ ⟨q1, q2, q3, q4⟩
    dsimp only at q1 q2 q3 q4 ⊢
    rcases Nat.lt_or_ge i 1 with hi | hi
    · left; exact ⟨q1, by rw [q3, q4, show i = 0 by omega]⟩
    · right; exact ⟨q1, by rw [q3, q4, show i = 1 by omega]⟩
  · intro c hc h4 T4
    simp only [wp_mbind, wp_ld, wp_st]
    refine ⟨v (c,0,0,0), ?_, ?_, ?_⟩
    · rw [gAx_base (i := 0) (j := 0) (r := 0) (by simp [basePlace])]
      exact T4.val _ ⟨⟨hc, rfl⟩, by simp⟩
    · rw [gAx_base (i := 1) (j := 0) (r := 0) (by simp [basePlace])]
      exact T4.alloc _ (mem hc (by omega) (by omega))
    · rw [gAx_base (i := 1) (j := 0) (r := 0) (by simp [basePlace])]
      congr 1
      show _ * (z c * E c 0 0) = z c * E c 1 0
      rw [hv c 0 hc]
      simp only [Nat.cast_zero, zero_mul, zero_add]
      ring
  intro _ h4 T4
  -- vertical recursion
  refine wp_forN (fun m h' => Tab h h' (Blk g leng) (fun k => k.1 < 3 ∧ k.2.1 ≤ m+1 ∧
      k.2.2.1 = 0 ∧ k.2.2.2 = 0) (baseAddr g e) v) (T4.mono fun k hk => hk) ?_ ?_
  · intro m hm h5 T5
    refine tab_step3 B hl (i := m+2) (j := 0) (r := 0) (by omega) (by omega) hp0 ?_ ?_ ?_ T5
    · rintro ⟨c, i, j, r⟩ ⟨q1, q2, q3, q4⟩
      dsimp only at q1 q2 q3 q4
      subst q3 q4
      exact ⟨q1, by dsimp only; omega, by simp, hp0⟩
    · rintro ⟨c, i, j, r⟩ ⟨q1, q2, q3, q4⟩
      dsimp only at q1 q2 q3 q4 ⊢
      rcases Nat.lt_or_ge i (m+2) with hi | hi
      · left; exact ⟨q1, by omega, q3, q4⟩
      · right; exact ⟨q1, by rw [q3, q4, show i = m+2 by omega]⟩
    · intro c hc h6 T6
      simp only [wp_mbind, wp_ld, wp_st]
      rw [gAx_base (i := m) (j := 0) (r := 0) (by simp [basePlace]),
        gAx_base (i := m+1) (j := 0) (r := 0) (by simp [basePlace]),
        gAx_base (i := m+2) (j := 0) (r := 0) (by simp [basePlace])]
      refine ⟨v (c,m,0,0), ?_, v (c,m+1,0,0), ?_, ?_, ?_⟩
      · exact T6.val _ ⟨⟨hc, by dsimp only; omega, rfl, rfl⟩, by simp⟩
      · exact T6.val _ ⟨⟨hc, by dsimp only; omega, rfl, rfl⟩, by simp⟩
      · exact T6.alloc _ (mem hc (by omega) (by omega))
      · congr 1
        show _ * (z c * E c m 0) + _ * (z c * E c (m+1) 0) = z c * E c (m+2) 0
        rw [hv c (m+1) hc, Nat.add_sub_cancel]
        ring
  intro h5 T5
  -- horizontal recursion
  refine wp_forN (fun m h' => Tab h h' (Blk g leng) (fun k => k.1 < 3 ∧
      k.2.1 + k.2.2.1 ≤ e.li_ceil + e.lj_ceil ∧ k.2.2.1 ≤ m ∧ k.2.2.2 = 0) (baseAddr g e) v)
      (T5.mono ?_) ?_ ?_
  · rintro ⟨c, i, j, r⟩ ⟨q1, q2, q3, q4⟩
    dsimp only at q1 q2 q3 q4 ⊢
    exact ⟨q1, by omega, by omega, q4⟩
  · intro m hm h6 T6
    have hm' : m < baseL e := hm
    have hbl : baseL e ≤ e.li_ceil + e.lj_ceil := by unfold baseL; split <;> omega
    refine wp_forN (fun t h' => Tab h h' (Blk g leng) (fun k => k.1 < 3 ∧
      k.2.1 + k.2.2.1 ≤ e.li_ceil + e.lj_ceil ∧ (k.2.2.1 ≤ m ∨ (k.2.2.1 = m+1 ∧ k.2.1 < t)) ∧ k.2.2.2 = 0)
      (baseAddr g e) v) (T6.mono ?_) ?_ ?_
    · rintro ⟨c, i, j, r⟩ ⟨q1, q2, q3, q4⟩
      dsimp only at q1 q2 q3 q4 ⊢
      exact ⟨q1, by omega, by omega, q4⟩
    · intro t ht h7 T7
      refine tab_step3 B hl (i := t) (j := m+1) (r := 0) (by omega) (by omega) hp0 ?_ ?_ ?_ T7
      · rintro ⟨c, i, j, r⟩ ⟨q1, q2, q3, q4⟩
        dsimp only at q1 q2 q3 q4
        subst q4
        exact ⟨q1, by dsimp only; omega, by dsimp only; omega, hp0⟩
      · rintro ⟨c, i, j, r⟩ ⟨q1, q2, q3, q4⟩
        dsimp only at q1 q2 q3 q4 ⊢
        by_cases hij : i = t ∧ j = m+1
        · right; exact ⟨q1, by rw [hij.1, hij.2, q4]⟩
        · left; exact ⟨q1, by omega, by omega, q4⟩
      · intro c hc h8 T8
        simp only [wp_mbind, wp_ld, wp_st]
        rw [gAx_base (i := t+1) (j := m) (r := 0) (n := baseDj e * (m+1) + t * baseDi e + baseDi e - baseDj e),
          gAx_base (i := t) (j := m) (r := 0) (n := baseDj e * (m+1) + t * baseDi e - baseDj e),
          gAx_base (i := t) (j := m+1) (r := 0) (n := baseDj e * (m+1) + t * baseDi e)]
        · refine ⟨v (c,t+1,m,0), ?_, v (c,t,m,0), ?_, ?_, ?_⟩
          · exact T8.val _ ⟨⟨hc, by dsimp only; omega, by dsimp only; omega, rfl⟩, by simp⟩
          · exact T8.val _ ⟨⟨hc, by dsimp only; omega, by dsimp only; omega, rfl⟩, by simp⟩
          · exact T8.alloc _ (mem hc (by omega) (by omega))
          · congr 1
            show (z c * E c (t+1) m) + _ * (z c * E c t m) = z c * E c t (m+1)
            rw [hh c t m hc]
            ring
        · unfold basePlace; ring
        · unfold basePlace
          rw [Nat.mul_add, Nat.mul_comm (baseDj e) m, Nat.mul_one]; omega
        · unfold basePlace
          rw [Nat.mul_add, Nat.mul_comm (baseDj e) m, Nat.mul_one, Nat.add_mul]; omega
    · intro h7 T7
      refine T7.mono ?_
      rintro ⟨c, i, j, r⟩ ⟨q1, q2, q3, q4⟩
      dsimp only at q1 q2 q3 q4 ⊢
      exact ⟨q1, q2, by omega, q4⟩
  intro h6 T6
  simp only [wp_pure]
  exact ⟨True.intro, T6⟩
end

/-- the intermediates with powers `a ≤ A`, `b ≤ B` of the two functions hold `v c a b` -/
def TabAB {α : Type} (h : Heap α) (g : Ptr) (e : EnvG) (A B : Nat) (v : Nat → Nat → Nat → α) : Prop :=
  ∀ c a b, c < 3 → a ≤ A → b ≤ B → h.D (gAx g e c (slab2 e a b 0)) = .val (v c a b)

theorem tabAB_of_base {α : Type} {h h1 : Heap α} {g : Ptr} {e : EnvG} {leng : Nat}
    {w : Nat → Nat → Nat → α} {v : Nat → Nat → Nat → α}
    (T : Tab h h1 (Blk g leng)
      (fun k => k.1 < 3 ∧ k.2.1 + k.2.2.1 ≤ e.li_ceil + e.lj_ceil ∧ k.2.2.1 ≤ baseL e ∧ k.2.2.2 = 0)
      (baseAddr g e) (fun k => w k.1 k.2.1 k.2.2.1))
    (hv : ∀ c a b, c < 3 → v c a b = if ibase e then w c a b else w c b a) :
    TabAB h1 g e e.li_ceil e.lj_ceil v := by
  intro c a b hc ha hb
  rw [hv c a b hc]
  by_cases hi : ibase e
  · rw [if_pos hi]
    have hl : baseL e = e.lj_ceil := if_pos hi
    have := T.val (c, a, b, 0) ⟨hc, by dsimp only; omega, by dsimp only; omega, rfl⟩
    rw [← this]
    congr 2
    unfold slab2 basePlace baseDi baseDj
    rw [if_pos hi, if_pos hi]
    dsimp only
    ring
  · rw [if_neg hi]
    have hl : baseL e = e.li_ceil := if_neg hi
    have := T.val (c, b, a, 0) ⟨hc, by dsimp only; omega, by dsimp only; omega, rfl⟩
    rw [← this]
    congr 2
    unfold slab2 basePlace baseDi baseDj
    rw [if_neg hi, if_neg hi]
    dsimp only
    ring

end Verif.Lemmas
