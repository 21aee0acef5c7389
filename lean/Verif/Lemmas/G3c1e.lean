import Verif.Model.Int3c1e
import Verif.Lemmas.Nuc

/-! The recursions of the one-electron three-centre integrals. -/
namespace Verif.Lemmas
open Verif Verif.Model Verif.Prog Verif.Props

section
variable {α κ : Type}

/-- where the keys of a recursion are stored -/
structure Places (e : EnvG) (ok : κ → Prop) (pl : κ → Nat) : Prop where
  range : ∀ k, ok k → pl k < e.g_size
  inj : ∀ k k', ok k → ok k' → pl k = pl k' → k = k'

def keyAddr (g : Ptr) (e : EnvG) (pl : κ → Nat) (k : Nat × κ) : Ptr := gAx g e k.1 (pl k.2)

theorem keyAddr_inj {g : Ptr} {e : EnvG} {ok : κ → Prop} {pl : κ → Nat} (B : Places e ok pl) {k k' : Nat × κ}
    (hk : ok k.2) (hk' : ok k'.2) (h : keyAddr g e pl k = keyAddr g e pl k') : k = k' := by
  obtain ⟨c, i⟩ := k
  obtain ⟨c', i'⟩ := k'
  unfold keyAddr gAx at h
  rw [Ptr.add_right_inj] at h
  obtain ⟨q1, q2⟩ := radix_inj (B.range i hk) (B.range i' hk') h
  have := B.inj i i' hk hk' q2
  subst q1 this
  rfl

theorem keyAddr_mem {g : Ptr} {e : EnvG} {ok : κ → Prop} {pl : κ → Nat} (B : Places e ok pl) {leng : Nat}
    (hl : 3 * e.g_size ≤ leng) {k : Nat × κ} (hc : k.1 < 3) (hk : ok k.2) : Blk g leng (keyAddr g e pl k) := by
  refine ⟨_, ?_, rfl⟩
  have := radix_lt hc (B.range _ hk)
  omega

/-- one step of a recursion over the three directions -/
theorem tab_stepK {h h' : Heap α} {g : Ptr} {e : EnvG} {ok : κ → Prop} {pl : κ → Nat} (B : Places e ok pl) {leng : Nat}
    (hl : 3 * e.g_size ≤ leng) {S S' : Nat × κ → Prop} {v : Nat × κ → α} {k0 : κ} (h0 : ok k0)
    (hin : ∀ k, S k → k.1 < 3 ∧ ok k.2)
    (hS : ∀ k, S' k → S k ∨ (k.1 < 3 ∧ k.2 = k0))
    {f : Nat → Prog α Unit}
    (hf : ∀ c, c < 3 → ∀ h2, Tab h h2 (Blk g leng) (fun k => S k ∧ k.2 ≠ k0) (keyAddr g e pl) v →
      wp (f c) (fun _ h3 => h3 = h2.setD (keyAddr g e pl (c, k0)) (v (c, k0))) h2)
    (T : Tab h h' (Blk g leng) S (keyAddr g e pl) v) :
    wp (forN 3 f) (fun _ h2 => Tab h h2 (Blk g leng) S' (keyAddr g e pl) v) h' := by
  refine wp_forN (fun c h2 => Tab h h2 (Blk g leng)
    (fun k => (S k ∧ k.2 ≠ k0) ∨ (k.1 < c ∧ k.2 = k0)) (keyAddr g e pl) v)
    (T.mono fun k hk => hk.elim (·.1) (fun x => absurd x.1 (by omega))) ?_ ?_
  · intro c hc h2 T2
    refine wp_mono (hf c hc h2 (T2.mono fun k hk => Or.inl hk)) ?_
    rintro _ _ rfl
    refine T2.set (k := (c, k0)) (keyAddr_mem B hl hc h0) ?_
    rintro ⟨c', k2⟩ hk'
    by_cases he : (c', k2) = (c, k0)
    · exact Or.inl he
    · right
      have hin' : ok k2 := by
        rcases hk' with hk' | ⟨h1, h2⟩
        · exact (hin _ hk'.1).2
        · dsimp only at h1 h2; rw [h2]; exact h0
      refine ⟨?_, fun h => he (keyAddr_inj B hin' h0 h)⟩
      rcases hk' with hk' | ⟨h1, h2⟩
      · exact Or.inl hk'
      · refine Or.inr ⟨?_, h2⟩
        dsimp only at h1 h2 ⊢
        rcases Nat.lt_succ_iff_lt_or_eq.1 h1 with h1 | h1
        · exact h1
        · subst h1 h2; exact absurd rfl he
  · intro h2 T2
    refine T2.mono fun k hk => ?_
    by_cases he : k.2 = k0
    · right
      refine ⟨?_, he⟩
      rcases hS k hk with h1 | h1
      · exact (hin k h1).1
      · exact h1.1
    · left
      rcases hS k hk with h1 | h1
      · exact ⟨h1, he⟩
      · exact absurd h1.2 he

/-- the place of powers `i`, `j`, `k` -/
def slab3 (e : EnvG) (i j k : Nat) : Nat := k * e.g_stride_k + j * e.g_stride_j + i

/-- shape of `envs` of the one-electron three-centre integrals -/
structure Shape3 (e : EnvG) : Prop where
  dj : e.g_stride_j = e.li_ceil + 1
  dk : e.g_stride_k = (e.li_ceil + 1) * (e.lj_ceil + e.lk_ceil + 1)
  size1 : (e.li_ceil + 1) * (e.lj_ceil + e.lk_ceil + 1) * (e.lk_ceil + 1) ≤ e.g_size
  size2 : (e.li_ceil + 1) * (e.li_ceil + e.lj_ceil + e.lk_ceil + 1) ≤ e.g_size

theorem shape3_int3c1e (li lj lk : Nat) (ng : Inc) : Shape3 (initInt3c1e li lj lk ng) := by
  refine ⟨rfl, rfl, le_max_left _ _, ?_⟩
  refine le_trans (le_of_eq ?_) (le_max_right _ _)
  show _ * (li + ng.i + (lj + ng.j) + (lk + ng.k) + 1) = _ * (li + ng.i + (lj + ng.j + (lk + ng.k) + 1))
  congr 1
  ring

/-- first two recursions: powers `i ≤ li` and `j ≤ li + lj + lk` -/
def okA (e : EnvG) (k : Nat × Nat) : Prop := k.1 ≤ e.li_ceil ∧ k.2 ≤ e.li_ceil + e.lj_ceil + e.lk_ceil
def plA (e : EnvG) (k : Nat × Nat) : Nat := k.1 + k.2 * (e.li_ceil + 1)

theorem placesA {e : EnvG} (H : Shape3 e) : Places e (okA e) (plA e) := by
  refine ⟨?_, ?_⟩
  · rintro ⟨i, j⟩ ⟨h1, h2⟩
    dsimp only at h1 h2
    have := radix_lt (n := e.li_ceil + e.lj_ceil + e.lk_ceil + 1) (j := j) (m := e.li_ceil + 1) (i := i) (by omega) (by omega)
    have h3 := H.size2
    rw [Nat.mul_comm] at h3
    unfold plA
    dsimp only
    omega
  · rintro ⟨i, j⟩ ⟨i', j'⟩ ⟨h1, h2⟩ ⟨h3, h4⟩ h
    dsimp only at h1 h2 h3 h4
    unfold plA at h
    dsimp only at h
    obtain ⟨q1, q2⟩ := radix_inj (m := e.li_ceil + 1) (i := i) (i' := i') (j := j) (j' := j') (by omega) (by omega) (by omega)
    rw [q1, q2]

/-- last recursion: `i ≤ li`, `j ≤ lj + lk`, `k ≤ lk` -/
def okB (e : EnvG) (k : Nat × Nat × Nat) : Prop := k.1 ≤ e.li_ceil ∧ k.2.1 ≤ e.lj_ceil + e.lk_ceil ∧ k.2.2 ≤ e.lk_ceil
def plB (e : EnvG) (k : Nat × Nat × Nat) : Nat := slab3 e k.1 k.2.1 k.2.2

theorem placesB {e : EnvG} (H : Shape3 e) : Places e (okB e) (plB e) := by
  have hp : ∀ i j k, slab3 e i j k = (k * (e.lj_ceil + e.lk_ceil + 1) + j) * (e.li_ceil + 1) + i := by
    intro i j k
    unfold slab3
    rw [H.dj, H.dk]; ring
  refine ⟨?_, ?_⟩
  · rintro ⟨i, j, k⟩ ⟨h1, h2, h3⟩
    dsimp only at h1 h2 h3
    show slab3 e i j k < _
    rw [hp]
    have a1 := radix_lt (n := e.lk_ceil + 1) (j := k) (m := e.lj_ceil + e.lk_ceil + 1) (i := j) (by omega) (by omega)
    have a2 := radix_lt (n := (e.lk_ceil + 1) * (e.lj_ceil + e.lk_ceil + 1)) (m := e.li_ceil + 1) (i := i) a1 (by omega)
    have := H.size1
    refine lt_of_lt_of_le a2 (le_trans (le_of_eq ?_) this)
    ring
  · rintro ⟨i, j, k⟩ ⟨i', j', k'⟩ ⟨h1, h2, h3⟩ ⟨g1, g2, g3⟩ h
    dsimp only at h1 h2 h3 g1 g2 g3
    have h : slab3 e i j k = slab3 e i' j' k' := h
    rw [hp, hp] at h
    obtain ⟨q1, q2⟩ := radix_inj (i := i) (i' := i') (by omega) (by omega) h
    obtain ⟨q3, q4⟩ := radix_inj (i := j) (i' := j') (by omega) (by omega) q1
    rw [q2, q3, q4]

variable [Field α]

/-- the recursions fill the table with their solution -/
theorem g3c1eRec_wp {e : EnvG} {d : G2 α} {g : Ptr} {gz0 : α} {rjr0 : Nat → α} {aijk1 : α} {leng : Nat} {h : Heap α}
    (H : Shape3 e) (hl : 3 * e.g_size ≤ leng) (ha : ∀ q, Blk g leng q → h.D q ≠ .oob)
    {E : Nat → Nat → Nat → Nat → α}
    (h00 : ∀ c, c < 3 → E c 0 0 0 = 1)
    (hv : ∀ c j, c < 3 → E c 0 (j+1) 0 = aijk1 * (j:α) * E c 0 (j-1) 0 - rjr0 c * E c 0 j 0)
    (hi : ∀ c i j, c < 3 → E c (i+1) j 0 = E c i (j+1) 0 - (d.ri c - d.rj c) * E c i j 0)
    (hk : ∀ c i j k, c < 3 → E c i j (k+1) = E c i (j+1) k + (d.rj c - d.rk c) * E c i j k) :
    wp (g3c1eRec e d g gz0 rjr0 aijk1) (fun _ h1 => Tab h h1 (Blk g leng)
      (fun k => k.1 < 3 ∧ k.2.1 ≤ e.li_ceil ∧ k.2.2.1 + k.2.2.2 ≤ e.lj_ceil + e.lk_ceil ∧ k.2.2.2 ≤ e.lk_ceil)
      (keyAddr g e (plB e)) (fun k => (if k.1 = 2 then gz0 else 1) * E k.1 k.2.1 k.2.2.1 k.2.2.2)) h := by
  have PA := placesA H
  have PB := placesB H
  let z : Nat → α := fun c => if c = 2 then gz0 else 1
  let v : Nat × Nat × Nat → α := fun k => z k.1 * E k.1 k.2.1 k.2.2 0
  let vB : Nat × Nat × Nat × Nat → α := fun k => z k.1 * E k.1 k.2.1 k.2.2.1 k.2.2.2
  have memA : ∀ {c i j : Nat}, c < 3 → i ≤ e.li_ceil → j ≤ e.li_ceil + e.lj_ceil + e.lk_ceil →
      Blk g leng (keyAddr g e (plA e) (c,i,j)) := fun h1 h2 h3 => keyAddr_mem PA hl h1 ⟨h2, h3⟩
  have adA : ∀ {c n i j : Nat}, n = i + j * (e.li_ceil + 1) → gAx g e c n = keyAddr g e (plA e) (c,i,j) := by
    intro c n i j hn; rw [hn]; rfl
  have st0 : ∀ {h' : Heap α} {c : Nat} {x : α}, c < 3 → x = z c →
      Tab h h' (Blk g leng) (fun k => k.1 < c ∧ k.2 = (0,0)) (keyAddr g e (plA e)) v →
      wp (st (gAx g e c 0) x) (fun _ h2 => Tab h h2 (Blk g leng)
        (fun k => k.1 < c+1 ∧ k.2 = (0,0)) (keyAddr g e (plA e)) v) h' := by
    intro h' c x hc hx T
    refine T.wp_st (k := (c,0,0)) (memA hc (by omega) (by omega)) ?_ ?_ ?_
    · show x = z c * E c 0 0 0
      rw [h00 c hc, mul_one, hx]
    · rintro ⟨c', k2⟩ ⟨h1, h2⟩
      dsimp only at h1 h2 ⊢
      subst h2
      by_cases he : c' = c
      · left; rw [he]
      · right
        refine ⟨⟨by omega, rfl⟩, fun hh => he ?_⟩
        have := keyAddr_inj PA (k := (c',0,0)) (k' := (c,0,0)) ⟨by simp, by simp⟩ ⟨by simp, by simp⟩ hh
        exact congrArg (·.1) this
    · exact adA (by simp)
  unfold g3c1eRec
  simp only [wp_mbind]
  refine wp_mono (st0 (by omega) (show (1:α) = if (0:Nat) = 2 then gz0 else 1 by simp) (Tab.init ha (fun k hk => by omega))) ?_
  intro _ h1 T1
  refine wp_mono (st0 (by omega) (show (1:α) = if (1:Nat) = 2 then gz0 else 1 by simp) T1) ?_
  intro _ h2 T2
  refine wp_mono (st0 (by omega) (show gz0 = if (2:Nat) = 2 then gz0 else 1 by simp) T2) ?_
  intro _ h3 T3
  by_cases hn : e.li_ceil + e.lj_ceil + e.lk_ceil = 0
  · rw [if_pos hn]
    simp only [wp_pure]
    refine ⟨?_, T3.alloc, T3.frame, T3.int⟩
    rintro ⟨c, i, j, k⟩ ⟨q1, q2, q3, q4⟩
    dsimp only at q1 q2 q3 q4 ⊢
    obtain rfl : i = 0 := by omega
    obtain rfl : j = 0 := by omega
    obtain rfl : k = 0 := by omega
    have := T3.val (c, 0, 0) ⟨by dsimp only; omega, rfl⟩
    rw [show keyAddr g e (plB e) (c,0,0,0) = keyAddr g e (plA e) (c,0,0) by
      unfold keyAddr plA plB slab3; simp]
    exact this
  rw [if_neg hn]
  simp only [wp_mbind]
  -- first step of the vertical recursion
  refine wp_mono (tab_stepK PA hl (k0 := (0,1)) (S' := fun k => k.1 < 3 ∧ k.2.1 = 0 ∧ k.2.2 ≤ 1) ⟨by simp, by dsimp only; omega⟩
    ?_ ?_ ?_ T3) ?_
  · rintro ⟨c, k2⟩ ⟨q1, q2⟩
    dsimp only at q1 q2
    subst q2
    exact ⟨q1, by simp [okA]⟩
  · rintro ⟨c, i, j⟩ ⟨q1, q2, q3⟩
    dsimp only at q1 q2 q3 ⊢
    rcases Nat.lt_or_ge j 1 with hj | hj
    · left; exact ⟨q1, by rw [q2, show j = 0 by omega]⟩
    · right; exact ⟨q1, by rw [q2, show j = 1 by omega]⟩
  · intro c hc h4 T4
    simp only [wp_mbind, wp_ld, wp_st]
    refine ⟨v (c,0,0), ?_, ?_, ?_⟩
    · rw [adA (i := 0) (j := 0) (by simp)]
      exact T4.val _ ⟨⟨hc, rfl⟩, by simp⟩
    · rw [adA (i := 0) (j := 1) (by simp)]
      exact T4.alloc _ (memA hc (by omega) (by omega))
    · rw [adA (i := 0) (j := 1) (by simp)]
      congr 1
      show _ * (z c * E c 0 0 0) = z c * E c 0 1 0
      rw [hv c 0 hc]
      simp only [Nat.cast_zero, mul_zero, zero_mul, zero_sub]
      ring
  intro _ h4 T4
  -- vertical recursion
  refine wp_forN (fun m h' => Tab h h' (Blk g leng) (fun k => k.1 < 3 ∧ k.2.1 = 0 ∧ k.2.2 ≤ m+1)
      (keyAddr g e (plA e)) v) (T4.mono fun k hk => hk) ?_ ?_
  · intro m hm h5 T5
    refine tab_stepK PA hl (k0 := (0,m+2)) ⟨by simp, by dsimp only; omega⟩ ?_ ?_ ?_ T5
    · rintro ⟨c, i, j⟩ ⟨q1, q2, q3⟩
      dsimp only at q1 q2 q3
      exact ⟨q1, by dsimp only [okA]; omega⟩
    · rintro ⟨c, i, j⟩ ⟨q1, q2, q3⟩
      dsimp only at q1 q2 q3 ⊢
      rcases Nat.lt_or_ge j (m+2) with hj | hj
      · left; exact ⟨q1, q2, by omega⟩
      · right; exact ⟨q1, by rw [q2, show j = m+2 by omega]⟩
    · intro c hc h6 T6
      simp only [wp_mbind, wp_ld, wp_st]
      rw [adA (i := 0) (j := m) (by simp), adA (i := 0) (j := m+1) (by simp), adA (i := 0) (j := m+2) (by simp)]
      refine ⟨v (c,0,m), ?_, v (c,0,m+1), ?_, ?_, ?_⟩
      · exact T6.val _ ⟨⟨hc, rfl, by dsimp only; omega⟩, by simp⟩
      · exact T6.val _ ⟨⟨hc, rfl, by dsimp only; omega⟩, by simp⟩
      · exact T6.alloc _ (memA hc (by omega) (by omega))
      · congr 1
        show _ * (z c * E c 0 m 0) - _ * (z c * E c 0 (m+1) 0) = z c * E c 0 (m+2) 0
        rw [hv c (m+1) hc, Nat.add_sub_cancel]
        ring
  intro h5 T5
  -- second recursion
  refine wp_forN (fun m h' => Tab h h' (Blk g leng) (fun k => k.1 < 3 ∧ k.2.1 ≤ m ∧
      k.2.1 + k.2.2 ≤ e.li_ceil + e.lj_ceil + e.lk_ceil) (keyAddr g e (plA e)) v) (T5.mono ?_) ?_ ?_
  · rintro ⟨c, i, j⟩ ⟨q1, q2, q3⟩
    dsimp only at q1 q2 q3 ⊢
    exact ⟨q1, by omega, by omega⟩
  · intro m hm h6 T6
    refine wp_forN (fun t h' => Tab h h' (Blk g leng) (fun k => k.1 < 3 ∧ (k.2.1 ≤ m ∨ (k.2.1 = m+1 ∧ k.2.2 < t)) ∧
      k.2.1 + k.2.2 ≤ e.li_ceil + e.lj_ceil + e.lk_ceil) (keyAddr g e (plA e)) v) (T6.mono ?_) ?_ ?_
    · rintro ⟨c, i, j⟩ ⟨q1, q2, q3⟩
      dsimp only at q1 q2 q3 ⊢
      exact ⟨q1, by omega, q3⟩
    · intro t ht h7 T7
      refine tab_stepK PA hl (k0 := (m+1,t)) ⟨by dsimp only; omega, by dsimp only; omega⟩ ?_ ?_ ?_ T7
      · rintro ⟨c, i, j⟩ ⟨q1, q2, q3⟩
        dsimp only at q1 q2 q3
        exact ⟨q1, by dsimp only [okA]; omega⟩
      · rintro ⟨c, i, j⟩ ⟨q1, q2, q3⟩
        dsimp only at q1 q2 q3 ⊢
        by_cases hij : i = m+1 ∧ j = t
        · right; exact ⟨q1, by rw [hij.1, hij.2]⟩
        · left; exact ⟨q1, by omega, q3⟩
      · intro c hc h8 T8
        simp only [wp_mbind, wp_ld, wp_st]
        rw [adA (i := m) (j := t+1) (by simp), adA (i := m) (j := t) (by simp), adA (i := m+1) (j := t) rfl]
        refine ⟨v (c,m,t+1), ?_, v (c,m,t), ?_, ?_, ?_⟩
        · exact T8.val _ ⟨⟨hc, by dsimp only; omega, by dsimp only; omega⟩, by simp⟩
        · exact T8.val _ ⟨⟨hc, by dsimp only; omega, by dsimp only; omega⟩, by simp⟩
        · exact T8.alloc _ (memA hc (by omega) (by omega))
        · congr 1
          show (z c * E c m (t+1) 0) - _ * (z c * E c m t 0) = z c * E c (m+1) t 0
          rw [hi c m t hc]
          ring
    · intro h7 T7
      refine T7.mono ?_
      rintro ⟨c, i, j⟩ ⟨q1, q2, q3⟩
      dsimp only at q1 q2 q3 ⊢
      exact ⟨q1, by omega, q3⟩
  intro h6 T6
  -- third recursion
  have T6' : Tab h h6 (Blk g leng) (fun k => k.1 < 3 ∧ k.2.1 ≤ e.li_ceil ∧ k.2.2.1 + k.2.2.2 ≤ e.lj_ceil + e.lk_ceil ∧
      k.2.2.2 ≤ 0) (keyAddr g e (plB e)) vB := by
    refine ⟨?_, T6.alloc, T6.frame, T6.int⟩
    rintro ⟨c, i, j, k⟩ ⟨q1, q2, q3, q4⟩
    dsimp only at q1 q2 q3 q4 ⊢
    obtain rfl : k = 0 := by omega
    have := T6.val (c, i, j) ⟨q1, q2, by dsimp only; omega⟩
    rw [show keyAddr g e (plB e) (c,i,j,0) = keyAddr g e (plA e) (c,i,j) by
      unfold keyAddr plA plB slab3; dsimp only; rw [H.dj]; congr 1; ring]
    exact this
  have memB : ∀ {c i j k : Nat}, c < 3 → i ≤ e.li_ceil → j ≤ e.lj_ceil + e.lk_ceil → k ≤ e.lk_ceil →
      Blk g leng (keyAddr g e (plB e) (c,i,j,k)) := fun h1 h2 h3 h4 => keyAddr_mem PB hl h1 ⟨h2, h3, h4⟩
  have adB : ∀ {c n i j k : Nat}, n = slab3 e i j k → gAx g e c n = keyAddr g e (plB e) (c,i,j,k) := by
    intro c n i j k hn; rw [hn]; rfl
  refine wp_forN (fun m h' => Tab h h' (Blk g leng) (fun k => k.1 < 3 ∧ k.2.1 ≤ e.li_ceil ∧
      k.2.2.1 + k.2.2.2 ≤ e.lj_ceil + e.lk_ceil ∧ k.2.2.2 ≤ m) (keyAddr g e (plB e)) vB) T6' ?_ (fun _ T => T)
  intro m hm h7 T7
  refine wp_forN (fun t h' => Tab h h' (Blk g leng) (fun k => k.1 < 3 ∧ k.2.1 ≤ e.li_ceil ∧
      k.2.2.1 + k.2.2.2 ≤ e.lj_ceil + e.lk_ceil ∧ (k.2.2.2 ≤ m ∨ (k.2.2.2 = m+1 ∧ k.2.2.1 < t))) (keyAddr g e (plB e)) vB)
      (T7.mono ?_) ?_ ?_
  · rintro ⟨c, i, j, k⟩ ⟨q1, q2, q3, q4⟩
    dsimp only at q1 q2 q3 q4 ⊢
    exact ⟨q1, q2, q3, by omega⟩
  · intro t ht h8 T8
    refine wp_forN (fun y h' => Tab h h' (Blk g leng) (fun k => k.1 < 3 ∧ k.2.1 ≤ e.li_ceil ∧
      k.2.2.1 + k.2.2.2 ≤ e.lj_ceil + e.lk_ceil ∧ (k.2.2.2 ≤ m ∨ (k.2.2.2 = m+1 ∧ (k.2.2.1 < t ∨ (k.2.2.1 = t ∧ k.2.1 < y)))))
      (keyAddr g e (plB e)) vB) (T8.mono ?_) ?_ ?_
    · rintro ⟨c, i, j, k⟩ ⟨q1, q2, q3, q4⟩
      dsimp only at q1 q2 q3 q4 ⊢
      exact ⟨q1, q2, q3, by omega⟩
    · intro y hy h9 T9
      refine tab_stepK PB hl (k0 := (y,t,m+1)) ⟨by dsimp only; omega, by dsimp only; omega, by dsimp only; omega⟩ ?_ ?_ ?_ T9
      · rintro ⟨c, i, j, k⟩ ⟨q1, q2, q3, q4⟩
        dsimp only at q1 q2 q3 q4
        exact ⟨q1, by dsimp only [okB]; omega⟩
      · rintro ⟨c, i, j, k⟩ ⟨q1, q2, q3, q4⟩
        dsimp only at q1 q2 q3 q4 ⊢
        by_cases hij : i = y ∧ j = t ∧ k = m+1
        · right; exact ⟨q1, by rw [hij.1, hij.2.1, hij.2.2]⟩
        · left; exact ⟨q1, q2, q3, by omega⟩
      · intro c hc h10 T10
        simp only [wp_mbind, wp_ld, wp_st]
        rw [adB (i := y) (j := t+1) (k := m) (n := (m+1) * e.g_stride_k + t * e.g_stride_j + y + e.g_stride_j - e.g_stride_k),
          adB (i := y) (j := t) (k := m) (n := (m+1) * e.g_stride_k + t * e.g_stride_j + y - e.g_stride_k),
          adB (i := y) (j := t) (k := m+1) (n := (m+1) * e.g_stride_k + t * e.g_stride_j + y) rfl]
        · refine ⟨vB (c,y,t+1,m), ?_, vB (c,y,t,m), ?_, ?_, ?_⟩
          · exact T10.val _ ⟨⟨hc, by dsimp only; omega, by dsimp only; omega, by dsimp only; omega⟩, by simp⟩
          · exact T10.val _ ⟨⟨hc, by dsimp only; omega, by dsimp only; omega, by dsimp only; omega⟩, by simp⟩
          · exact T10.alloc _ (memB hc (by omega) (by omega) (by omega))
          · congr 1
            show (z c * E c y (t+1) m) + _ * (z c * E c y t m) = z c * E c y t (m+1)
            rw [hk c y t m hc]
            ring
        · unfold slab3
          rw [Nat.add_mul, Nat.one_mul]; omega
        · unfold slab3
          rw [Nat.add_mul, Nat.one_mul, Nat.add_mul, Nat.one_mul]; omega
    · intro h9 T9
      refine T9.mono ?_
      rintro ⟨c, i, j, k⟩ ⟨q1, q2, q3, q4⟩
      dsimp only at q1 q2 q3 q4 ⊢
      exact ⟨q1, q2, q3, by omega⟩
  · intro h8 T8
    refine T8.mono ?_
    rintro ⟨c, i, j, k⟩ ⟨q1, q2, q3, q4⟩
    dsimp only at q1 q2 q3 q4 ⊢
    exact ⟨q1, q2, q3, by omega⟩
end
end Verif.Lemmas
