import Verif.Model.G2e
import Verif.Lemmas.Tab
import Verif.Props.Index
import Mathlib.Tactic.Ring
import Mathlib.Tactic.LinearCombination

/-! The two-electron recursions fill the array of intermediates with any values that satisfy the recursion relations. -/
namespace Verif.Lemmas
open Verif Verif.Model Verif.Prog Verif.Props

section
variable {α κ : Type}

/-- an array of cells, three for each index -/
structure Cells (α κ : Type) where
  addr : Nat → κ → Ptr
  box : κ → Prop
  v : Nat → κ → α
  reg : Ptr → Prop
  inj : ∀ c c' k k', c < 3 → c' < 3 → box k → box k' → addr c k = addr c' k' → c = c' ∧ k = k'
  mem : ∀ c k, c < 3 → box k → reg (addr c k)

/-- the cells of `S` hold their values -/
def Cells.T (G : Cells α κ) (h0 : Heap α) (S : κ → Prop) (h : Heap α) : Prop :=
  Tab h0 h G.reg (fun p : Nat × κ => p.1 < 3 ∧ S p.2 ∧ G.box p.2) (fun p => G.addr p.1 p.2) (fun p => G.v p.1 p.2)

variable {G : Cells α κ} {h0 h : Heap α} {S S' : κ → Prop}

theorem T_mono (H : G.T h0 S h) (hS : ∀ k, G.box k → S' k → S k) : G.T h0 S' h :=
  Tab.mono H fun p hp => ⟨hp.1, hS p.2 hp.2.2 hp.2.1, hp.2.2⟩

theorem T_val (H : G.T h0 S h) {c : Nat} {k : κ} (hc : c < 3) (hk : S k) (hb : G.box k) :
    h.D (G.addr c k) = .val (G.v c k) := H.val (c, k) ⟨hc, hk, hb⟩

theorem T_ld3 (H : G.T h0 S h) {k : κ} (hk : S k) (hb : G.box k) {p : Nat → Ptr} (hp : ∀ c, p c = G.addr c k)
    {Q : (Nat → α) → Heap α → Prop} (hQ : ∀ s : Nat → α, (∀ c, c < 3 → s c = G.v c k) → Q s h) :
    wp (ld3 p) Q h := by
  unfold ld3
  rw [wp_mbind, wp_ld]
  refine ⟨_, by rw [hp]; exact T_val H (by omega) hk hb, ?_⟩
  rw [wp_mbind, wp_ld]
  refine ⟨_, by rw [hp]; exact T_val H (by omega) hk hb, ?_⟩
  rw [wp_mbind, wp_ld]
  refine ⟨_, by rw [hp]; exact T_val H (by omega) hk hb, ?_⟩
  rw [wp_pure]
  refine hQ _ fun c hc => ?_
  split
  · rename_i e; subst e; rfl
  split
  · rename_i e; subst e; rfl
  · have : c = 2 := by omega
    subst this; rfl

/-- three stores, possibly after loads for each of them -/
theorem T_for3 (H : G.T h0 S h) {k : κ} (hb : G.box k) {f : Nat → Prog α Unit}
    (hf : ∀ c h', c < 3 → G.T h0 S h' → ∀ Q : Unit → Heap α → Prop,
      (h'.D (G.addr c k) ≠ .oob → Q () (h'.setD (G.addr c k) (G.v c k))) → wp (f c) Q h')
    (hS : ∀ k', G.box k' → S' k' → k' = k ∨ S k') :
    wp (forN 3 f) (fun _ h' => G.T h0 S' h') h := by
  refine wp_forN (fun n h' => Tab h0 h' G.reg
    (fun p : Nat × κ => p.1 < 3 ∧ G.box p.2 ∧ (S p.2 ∨ (p.1 < n ∧ p.2 = k))) (fun p => G.addr p.1 p.2)
    (fun p => G.v p.1 p.2)) ?_ ?_ ?_
  · refine Tab.mono H fun p hp => ⟨hp.1, ?_, hp.2.1⟩
    exact hp.2.2.resolve_right (fun e => by omega)
  · intro c hc h' Hc
    have Hs : G.T h0 S h' := Tab.mono Hc fun p hp => ⟨hp.1, hp.2.2, Or.inl hp.2.1⟩
    refine hf c h' hc Hs _ fun _ => ?_
    refine Tab.set (k := (c, k)) Hc (G.mem c k hc hb) ?_
    rintro ⟨c', k'⟩ ⟨h1, h2, h3⟩
    dsimp only at h1 h2 h3
    by_cases e : (c', k') = (c, k)
    · exact Or.inl e
    · refine Or.inr ⟨⟨h1, h2, ?_⟩, fun ea => e ?_⟩
      · rcases h3 with h3 | ⟨h3, h4⟩
        · exact Or.inl h3
        · refine Or.inr ⟨?_, h4⟩
          have : c' ≠ c := fun e' => e (by rw [e', h4])
          show c' < c
          omega
      · obtain ⟨a, b⟩ := G.inj c' c k' k h1 hc h2 hb ea
        rw [a, b]
  · intro h' Hc
    refine Tab.mono Hc fun p hp => ⟨hp.1, hp.2.2, ?_⟩
    rcases hS p.2 hp.2.2 hp.2.1 with e | e
    · exact Or.inr ⟨hp.1, e⟩
    · exact Or.inl e

theorem T_st3 (H : G.T h0 S h) {k : κ} (hb : G.box k) {p : Nat → Ptr} (hp : ∀ c, p c = G.addr c k) {x : Nat → α}
    (hx : ∀ c, c < 3 → x c = G.v c k) (hS : ∀ k', G.box k' → S' k' → k' = k ∨ S k') :
    wp (st3 p x) (fun _ h' => G.T h0 S' h') h := by
  unfold st3
  refine T_for3 H hb (fun c h' hc Hc Q hQ => ?_) hS
  rw [wp_st, hp, hx c hc]
  have : h'.D (G.addr c k) ≠ .oob := Hc.alloc _ (G.mem c k hc hb)
  exact ⟨this, hQ this⟩

theorem T_forN {n : Nat} {f : Nat → Prog α Unit} (J : Nat → κ → Prop) (H : G.T h0 S h)
    (hJ0 : ∀ k, G.box k → J 0 k → S k)
    (hf : ∀ i, i < n → ∀ h', G.T h0 (J i) h' → wp (f i) (fun _ h'' => G.T h0 (J (i+1)) h'') h')
    (hJn : ∀ k, G.box k → S' k → J n k) :
    wp (forN n f) (fun _ h' => G.T h0 S' h') h :=
  wp_forN (fun i h' => G.T h0 (J i) h') (T_mono H hJ0) hf (fun _ h' => T_mono h' hJn)

end

/-! ### Two-dimensional recursion -/

section
variable {α : Type} [Field α]

/-- values that satisfy the vertical recursion relations -/
structure Rec2 (bc : Rys2eT α) (nr nmax mmax : Nat) (F : Nat → Nat → Nat → Nat → α) : Prop where
  up : ∀ c n m r, c < 3 → r < nr → n < nmax → m ≤ mmax →
    F c (n+1) m r = bc.c00 c r * F c n m r + (n:α) * bc.b10 r * F c (n-1) m r + (m:α) * bc.b00 r * F c n (m-1) r
  right : ∀ c n m r, c < 3 → r < nr → n ≤ nmax → m < mmax →
    F c n (m+1) r = bc.c0p c r * F c n m r + (m:α) * bc.b01 r * F c n (m-1) r + (n:α) * bc.b00 r * F c (n-1) m r

abbrev Ix2 := Nat × Nat × Nat

section
variable {κ : Type} {G : Cells α κ} {h0 h : Heap α} {S S' : κ → Prop}

theorem vrr1_wp {nmax : Nat} {c : Nat → α} {b : α} {p : Nat → Nat → Ptr} {k : Nat → κ} (H : G.T h0 S h)
    (hn : 0 < nmax) (hb : ∀ n, n ≤ nmax → G.box (k n)) (hp : ∀ n ax, n ≤ nmax → p ax n = G.addr ax (k n)) (h0k : S (k 0))
    (e1 : ∀ ax, ax < 3 → G.v ax (k 1) = c ax * G.v ax (k 0))
    (e2 : ∀ n ax, ax < 3 → 0 < n → n < nmax →
      G.v ax (k (n+1)) = c ax * G.v ax (k n) + (n:α) * b * G.v ax (k (n-1)))
    (hS : ∀ k', G.box k' → S' k' → S k' ∨ ∃ n, 0 < n ∧ n ≤ nmax ∧ k' = k n) :
    wp (vrr1 nmax c b p) (fun _ h' => G.T h0 S' h') h := by
  unfold vrr1
  rw [wp_mbind]
  refine T_ld3 H h0k (hb 0 (by omega)) (fun ax => hp 0 ax (by omega)) fun s0 hs0 => ?_
  dsimp only
  rw [wp_mbind]
  refine wp_mono (T_st3 (S' := fun k' => S k' ∨ ∃ n, 0 < n ∧ n ≤ 1 ∧ k' = k n) H (hb 1 (by omega))
    (fun ax => hp 1 ax (by omega)) (fun ax hax => by rw [hs0 ax hax, e1 ax hax]) ?_) ?_
  · rintro k' _ (h1 | ⟨n, h1, h2, h3⟩)
    · exact Or.inr h1
    · have : n = 1 := by omega
      subst this; exact Or.inl h3
  intro _ h1 H1
  rw [wp_mbind]
  refine wp_forS (fun i s h' => G.T h0 (fun k' => S k' ∨ ∃ n, 0 < n ∧ n ≤ i+1 ∧ k' = k n) h' ∧
    (∀ ax, ax < 3 → s.1 ax = G.v ax (k i)) ∧ (∀ ax, ax < 3 → s.2 ax = G.v ax (k (i+1)))) ?_ ?_ ?_
  · exact ⟨H1, hs0, fun ax hax => by show c ax * s0 ax = _; rw [hs0 ax hax, e1 ax hax]⟩
  · rintro i hi s h' ⟨Hi, a, b'⟩
    have hval : ∀ ax, ax < 3 → c ax * s.2 ax + ((i+1 : Nat):α) * b * s.1 ax = G.v ax (k (i+1+1)) := by
      intro ax hax
      rw [e2 (i+1) ax hax (by omega) (by omega), a ax hax, b' ax hax]
      simp
    rw [wp_mbind]
    refine wp_mono (T_st3 (S' := fun k' => S k' ∨ ∃ n, 0 < n ∧ n ≤ i+1+1 ∧ k' = k n) Hi (hb (i+1+1) (by omega))
      (fun ax => hp (i+1+1) ax (by omega)) hval ?_) ?_
    · rintro k' _ (h1 | ⟨n, h1, h2, h3⟩)
      · exact Or.inr (Or.inl h1)
      · by_cases e : n = i+1+1
        · subst e; exact Or.inl h3
        · exact Or.inr (Or.inr ⟨n, h1, by omega, h3⟩)
    · intro _ h2 H2
      rw [wp_pure]
      exact ⟨H2, b', hval⟩
  · rintro s h' ⟨Hi, _, _⟩
    rw [wp_pure]
    refine T_mono Hi fun k' hk' h' => ?_
    rcases hS k' hk' h' with h1 | ⟨n, h1, h2, h3⟩
    · exact Or.inl h1
    · exact Or.inr ⟨n, h1, by omega, h3⟩

theorem vrr2_wp {mmax : Nat} {c : Nat → α} {b01 b00 : α} {p q : Nat → Nat → Ptr} {k k0 : Nat → κ} (H : G.T h0 S h)
    (hn : 0 < mmax) (hb : ∀ m, m ≤ mmax → G.box (k m)) (hb0 : ∀ m, m ≤ mmax → G.box (k0 m))
    (hp : ∀ m ax, m ≤ mmax → p ax m = G.addr ax (k m)) (hq : ∀ m ax, m ≤ mmax → q ax m = G.addr ax (k0 m))
    (h0k : S (k 0)) (h0k0 : ∀ m, m ≤ mmax → S (k0 m))
    (e1 : ∀ ax, ax < 3 → G.v ax (k 1) = c ax * G.v ax (k 0) + b00 * G.v ax (k0 0))
    (e2 : ∀ m ax, ax < 3 → 0 < m → m < mmax →
      G.v ax (k (m+1)) = c ax * G.v ax (k m) + (m:α) * b01 * G.v ax (k (m-1)) + b00 * G.v ax (k0 m))
    (hS : ∀ k', G.box k' → S' k' → S k' ∨ ∃ m, 0 < m ∧ m ≤ mmax ∧ k' = k m) :
    wp (vrr2 mmax c b01 b00 p q) (fun _ h' => G.T h0 S' h') h := by
  unfold vrr2
  rw [wp_mbind]
  refine T_ld3 H h0k (hb 0 (by omega)) (fun ax => hp 0 ax (by omega)) fun s0 hs0 => ?_
  rw [wp_mbind]
  refine T_ld3 H (h0k0 0 (by omega)) (hb0 0 (by omega)) (fun ax => hq 0 ax (by omega)) fun y hy => ?_
  dsimp only
  rw [wp_mbind]
  refine wp_mono (T_st3 (S' := fun k' => S k' ∨ ∃ n, 0 < n ∧ n ≤ 1 ∧ k' = k n) H (hb 1 (by omega))
    (fun ax => hp 1 ax (by omega)) (fun ax hax => by rw [hs0 ax hax, hy ax hax, e1 ax hax]) ?_) ?_
  · rintro k' _ (h1 | ⟨n, h1, h2, h3⟩)
    · exact Or.inr h1
    · have : n = 1 := by omega
      subst this; exact Or.inl h3
  intro _ h1 H1
  rw [wp_mbind]
  refine wp_forS (fun i s h' => G.T h0 (fun k' => S k' ∨ ∃ n, 0 < n ∧ n ≤ i+1 ∧ k' = k n) h' ∧
    (∀ ax, ax < 3 → s.1 ax = G.v ax (k i)) ∧ (∀ ax, ax < 3 → s.2 ax = G.v ax (k (i+1)))) ?_ ?_ ?_
  · exact ⟨H1, hs0, fun ax hax => by show c ax * s0 ax + b00 * y ax = _; rw [hs0 ax hax, hy ax hax, e1 ax hax]⟩
  · rintro i hi s h' ⟨Hi, a, b'⟩
    rw [wp_mbind]
    refine T_ld3 Hi (Or.inl (h0k0 (i+1) (by omega))) (hb0 (i+1) (by omega)) (fun ax => hq (i+1) ax (by omega)) fun y hy => ?_
    have hval : ∀ ax, ax < 3 → c ax * s.2 ax + ((i+1 : Nat):α) * b01 * s.1 ax + b00 * y ax = G.v ax (k (i+1+1)) := by
      intro ax hax
      rw [e2 (i+1) ax hax (by omega) (by omega), a ax hax, b' ax hax, hy ax hax]
      simp
    rw [wp_mbind]
    refine wp_mono (T_st3 (S' := fun k' => S k' ∨ ∃ n, 0 < n ∧ n ≤ i+1+1 ∧ k' = k n) Hi (hb (i+1+1) (by omega))
      (fun ax => hp (i+1+1) ax (by omega)) hval ?_) ?_
    · rintro k' _ (h1 | ⟨n, h1, h2, h3⟩)
      · exact Or.inr (Or.inl h1)
      · by_cases e : n = i+1+1
        · subst e; exact Or.inl h3
        · exact Or.inr (Or.inr ⟨n, h1, by omega, h3⟩)
    · intro _ h2 H2
      rw [wp_pure]
      exact ⟨H2, b', hval⟩
  · rintro s h' ⟨Hi, _, _⟩
    rw [wp_pure]
    refine T_mono Hi fun k' hk' h' => ?_
    rcases hS k' hk' h' with h1 | ⟨n, h1, h2, h3⟩
    · exact Or.inl h1
    · exact Or.inr ⟨n, h1, by omega, h3⟩

theorem vrr3_wp {nmax m : Nat} {c : Nat → α} {b10 b00 : α} {p q : Nat → Nat → Ptr} {k k0 : Nat → κ} (H : G.T h0 S h)
    (hb : ∀ n, n ≤ nmax → G.box (k n)) (hb0 : ∀ n, n ≤ nmax → G.box (k0 n))
    (hp : ∀ n ax, n ≤ nmax → p ax n = G.addr ax (k n)) (hq : ∀ n ax, n ≤ nmax → q ax n = G.addr ax (k0 n))
    (h0k : S (k 0)) (h1k : 0 < nmax → S (k 1)) (h0k0 : ∀ n, n ≤ nmax → S (k0 n))
    (e2 : ∀ n ax, ax < 3 → 0 < n → n < nmax →
      G.v ax (k (n+1)) = c ax * G.v ax (k n) + (n:α) * b10 * G.v ax (k (n-1)) + (m:α) * b00 * G.v ax (k0 n))
    (hS : ∀ k', G.box k' → S' k' → S k' ∨ ∃ n, 1 < n ∧ n ≤ nmax ∧ k' = k n) :
    wp (vrr3 nmax m c b10 b00 p q) (fun _ h' => G.T h0 S' h') h := by
  unfold vrr3
  rw [wp_mbind]
  refine T_ld3 H h0k (hb 0 (by omega)) (fun ax => hp 0 ax (by omega)) fun s0 hs0 => ?_
  rw [wp_mbind]
  by_cases hz : nmax = 0
  · subst hz
    unfold ldS1
    rw [if_pos rfl, wp_pure, wp_mbind]
    refine wp_forS (fun _ _ h' => G.T h0 S h') H (by intro i hi; omega) ?_
    intro _ h' H
    rw [wp_pure]
    refine T_mono H fun k' hk' h' => ?_
    rcases hS k' hk' h' with h1 | ⟨n, h1, h2, h3⟩
    · exact h1
    · omega
  unfold ldS1
  rw [if_neg hz]
  refine T_ld3 H (h1k (by omega)) (hb 1 (by omega)) (fun ax => hp 1 ax (by omega)) fun s1 hs1 => ?_
  rw [wp_mbind]
  refine wp_forS (fun i s h' => G.T h0 (fun k' => S k' ∨ ∃ n, 1 < n ∧ n ≤ i+1 ∧ k' = k n) h' ∧
    (∀ ax, ax < 3 → s.1 ax = G.v ax (k i)) ∧ (∀ ax, ax < 3 → s.2 ax = G.v ax (k (i+1)))) ?_ ?_ ?_
  · exact ⟨T_mono H fun k' _ h' => h'.resolve_right (by rintro ⟨n, a, b, _⟩; omega), hs0, hs1⟩
  · rintro i hi s h' ⟨Hi, a, b'⟩
    rw [wp_mbind]
    refine T_ld3 Hi (Or.inl (h0k0 (i+1) (by omega))) (hb0 (i+1) (by omega)) (fun ax => hq (i+1) ax (by omega)) fun y hy => ?_
    have hval : ∀ ax, ax < 3 → c ax * s.2 ax + ((i+1 : Nat):α) * b10 * s.1 ax + (m:α) * b00 * y ax = G.v ax (k (i+1+1)) := by
      intro ax hax
      rw [e2 (i+1) ax hax (by omega) (by omega), a ax hax, b' ax hax, hy ax hax]
      simp
    rw [wp_mbind]
    refine wp_mono (T_st3 (S' := fun k' => S k' ∨ ∃ n, 1 < n ∧ n ≤ i+1+1 ∧ k' = k n) Hi (hb (i+1+1) (by omega))
      (fun ax => hp (i+1+1) ax (by omega)) hval ?_) ?_
    · rintro k' _ (h1 | ⟨n, h1, h2, h3⟩)
      · exact Or.inr (Or.inl h1)
      · by_cases e : n = i+1+1
        · subst e; exact Or.inl h3
        · exact Or.inr (Or.inr ⟨n, h1, by omega, h3⟩)
    · intro _ h2 H2
      rw [wp_pure]
      exact ⟨H2, b', hval⟩
  · rintro s h' ⟨Hi, _, _⟩
    rw [wp_pure]
    refine T_mono Hi fun k' hk' h' => ?_
    rcases hS k' hk' h' with h1 | ⟨n, h1, h2, h3⟩
    · exact Or.inl h1
    · exact Or.inr ⟨n, h1, by omega, h3⟩
end


section
variable {G : Cells α Ix2} {h0 h : Heap α}

/-- CINTg0_2e_2d fills the array with the values determined by the recursion relations -/
theorem g0_2e_2d_wp {e : EnvG} {bc : Rys2eT α} {g : Ptr} {F : Nat → Nat → Nat → Nat → α}
    (haddr : ∀ c n m r, G.addr c (n,m,r) = gAx g e c (r + n*e.g2d_ijmax + m*e.g2d_klmax))
    (hbox : ∀ n m r, G.box (n,m,r) ↔ n ≤ e.li_ceil + e.lj_ceil ∧ m ≤ e.lk_ceil + e.ll_ceil ∧ r < e.nrys_roots)
    (hv : ∀ c n m r, G.v c (n,m,r) = F c n m r)
    (hF : Rec2 bc e.nrys_roots (e.li_ceil + e.lj_ceil) (e.lk_ceil + e.ll_ceil) F)
    (h1 : ∀ c r, c < 2 → r < e.nrys_roots → F c 0 0 r = 1)
    (H : Tab h0 h G.reg (fun p : Nat × Ix2 => p.1 = 2 ∧ (p.2.1 = 0 ∧ p.2.2.1 = 0) ∧ G.box p.2)
      (fun p => G.addr p.1 p.2) (fun p => G.v p.1 p.2)) :
    wp (g0_2e_2d e bc g) (fun _ h' => G.T h0 (fun _ => True) h') h := by
  unfold g0_2e_2d
  rw [wp_mbind]
  have hz : ∀ c r, gAx g e c r = G.addr c (0,0,r) := fun c r => by rw [haddr]; simp
  refine wp_forN (fun i h' => Tab h0 h' G.reg
    (fun p : Nat × Ix2 => (p.1 = 2 ∨ (p.1 < 2 ∧ p.2.2.2 < i)) ∧ (p.2.1 = 0 ∧ p.2.2.1 = 0) ∧ G.box p.2)
      (fun p => G.addr p.1 p.2) (fun p => G.v p.1 p.2)) ?_ ?_ ?_
  · exact Tab.mono H fun p hp => ⟨hp.1.resolve_right (by omega), hp.2⟩
  · intro i hi h' Hi
    have hb : G.box (0,0,i) := (hbox _ _ _).2 ⟨by omega, by omega, hi⟩
    rw [wp_mbind, hz, wp_st]
    refine ⟨Hi.alloc _ (G.mem 0 _ (by omega) hb), ?_⟩
    rw [hz, wp_st]
    have H2 : Tab h0 (h'.setD (G.addr 0 (0,0,i)) 1) G.reg
        (fun p : Nat × Ix2 => (p.1 = 2 ∨ (p.1 = 0 ∧ p.2.2.2 = i) ∨ (p.1 < 2 ∧ p.2.2.2 < i)) ∧ (p.2.1 = 0 ∧ p.2.2.1 = 0) ∧ G.box p.2)
        (fun p => G.addr p.1 p.2) (fun p => G.v p.1 p.2) := by
      have e1 : (1:α) = G.v 0 (0,0,i) := by rw [hv, h1 0 i (by omega) hi]
      rw [e1]
      refine Tab.set (k := (0,0,0,i)) Hi (G.mem 0 _ (by omega) hb) ?_
      rintro ⟨c, n, m, r⟩ ⟨a, ⟨b1, b2⟩, b3⟩
      dsimp only at a b1 b2 b3
      subst b1; subst b2
      by_cases e : c = 0 ∧ r = i
      · obtain ⟨rfl, rfl⟩ := e
        exact Or.inl rfl
      · refine Or.inr ⟨⟨?_, ⟨rfl, rfl⟩, b3⟩, fun ea => e ?_⟩
        · dsimp only
          omega
        · obtain ⟨x, y⟩ := G.inj _ _ _ _ (by omega) (by omega) b3 hb ea
          exact ⟨x, by simpa using y⟩
    refine ⟨H2.alloc _ (G.mem 1 _ (by omega) hb), ?_⟩
    have e1 : (1:α) = G.v 1 (0,0,i) := by rw [hv, h1 1 i (by omega) hi]
    rw [e1]
    rw [← e1]
    nth_rewrite 2 [e1]
    refine Tab.set (k := (1,0,0,i)) H2 (G.mem 1 _ (by omega) hb) ?_
    rintro ⟨c, n, m, r⟩ ⟨a, ⟨b1, b2⟩, b3⟩
    dsimp only at a b1 b2 b3
    subst b1; subst b2
    by_cases e : c = 1 ∧ r = i
    · obtain ⟨rfl, rfl⟩ := e
      exact Or.inl rfl
    · refine Or.inr ⟨⟨?_, ⟨rfl, rfl⟩, b3⟩, fun ea => e ?_⟩
      · dsimp only
        omega
      · obtain ⟨x, y⟩ := G.inj _ _ _ _ (by omega) (by omega) b3 hb ea
        exact ⟨x, by simpa using y⟩
  intro h2 H2
  have H3 : G.T h0 (fun k => k.1 = 0 ∧ k.2.1 = 0) h2 := by
    refine Tab.mono H2 ?_
    rintro ⟨c, n, m, r⟩ ⟨a, b, b3⟩
    have := ((hbox _ _ _).1 b3).2.2
    refine ⟨?_, b, b3⟩
    dsimp only at *
    omega
  refine T_forN (fun i k => (k.1 = 0 ∧ k.2.1 = 0) ∨ k.2.2 < i) H3 (fun k _ h => h.resolve_right (by omega)) ?_
    (fun k hk _ => Or.inr ((hbox k.1 k.2.1 k.2.2).1 hk).2.2)
  clear h2 H2 H3
  intro i hi h' Hi
  have hbx : ∀ {n m}, n ≤ e.li_ceil + e.lj_ceil → m ≤ e.lk_ceil + e.ll_ceil → G.box (n,m,i) :=
    fun hn hm => (hbox _ _ _).2 ⟨hn, hm, hi⟩
  -- along n for m = 0
  dsimp only
  rw [wp_mbind]
  refine wp_mono (Q := fun _ h' => G.T h0 (fun k => ((k.1 = 0 ∧ k.2.1 = 0) ∨ k.2.2 < i) ∨ (k.2.2 = i ∧ k.2.1 = 0)) h') ?_ ?_
  · by_cases hn : e.li_ceil + e.lj_ceil > 0
    · unfold onlyIf
      rw [if_pos hn]
      refine vrr1_wp (k := fun n => (n,0,i)) Hi hn (fun n hn => hbx hn (by omega))
        (fun n ax _ => by rw [haddr]; simp) (Or.inl ⟨rfl, rfl⟩) ?_ ?_ ?_
      · intro ax hax
        have := hF.up ax 0 0 i hax hi (by omega) (by omega)
        rw [hv, hv]; simpa using this
      · intro n ax hax h1 h2
        have := hF.up ax n 0 i hax hi (by omega) (by omega)
        rw [hv, hv, hv]; simpa using this
      · rintro ⟨n, m, r⟩ hb (h1 | ⟨h1, h2⟩)
        · exact Or.inl h1
        · dsimp only at h1 h2
          subst h1; subst h2
          by_cases e : n = 0
          · exact Or.inl (Or.inl ⟨e, rfl⟩)
          · exact Or.inr ⟨n, by omega, ((hbox _ _ _).1 hb).1, rfl⟩
    · unfold onlyIf
      rw [if_neg hn, wp_pure]
      refine T_mono Hi ?_
      rintro ⟨n, m, r⟩ hb (h1 | ⟨h1, h2⟩)
      · exact h1
      · have := ((hbox _ _ _).1 hb).1
        exact Or.inl ⟨by show n = 0; omega, h2⟩
  intro _ h1' H1
  clear Hi
  -- along m for n = 0
  rw [wp_mbind]
  refine wp_mono (Q := fun _ h' => G.T h0 (fun k => ((k.1 = 0 ∧ k.2.1 = 0) ∨ k.2.2 < i) ∨
    (k.2.2 = i ∧ (k.2.1 = 0 ∨ k.1 = 0))) h') ?_ ?_
  · by_cases hn : e.lk_ceil + e.ll_ceil > 0
    · unfold onlyIf
      rw [if_pos hn]
      refine vrr1_wp (k := fun m => (0,m,i)) H1 hn (fun n hn => hbx (by omega) hn)
        (fun n ax _ => by rw [haddr]; simp) (Or.inl (Or.inl ⟨rfl, rfl⟩)) ?_ ?_ ?_
      · intro ax hax
        have := hF.right ax 0 0 i hax hi (by omega) (by omega)
        rw [hv, hv]; simpa using this
      · intro n ax hax h1 h2
        have := hF.right ax 0 n i hax hi (by omega) (by omega)
        rw [hv, hv, hv]; simpa using this
      · rintro ⟨n, m, r⟩ hb (h1 | ⟨h1, h2 | h2⟩)
        · exact Or.inl (Or.inl h1)
        · exact Or.inl (Or.inr ⟨h1, h2⟩)
        · dsimp only at h1 h2
          subst h1; subst h2
          by_cases e : m = 0
          · exact Or.inl (Or.inl (Or.inl ⟨rfl, e⟩))
          · exact Or.inr ⟨m, by omega, ((hbox _ _ _).1 hb).2.1, rfl⟩
    · unfold onlyIf
      rw [if_neg hn, wp_pure]
      refine T_mono H1 ?_
      rintro ⟨n, m, r⟩ hb (h1 | ⟨h1, h2⟩)
      · exact Or.inl h1
      · have := ((hbox _ _ _).1 hb).2.1
        exact Or.inr ⟨h1, by show m = 0; omega⟩
  intro _ h2' H2
  clear H1
  -- along m for n = 1
  rw [wp_mbind]
  refine wp_mono (Q := fun _ h' => G.T h0 (fun k => ((k.1 = 0 ∧ k.2.1 = 0) ∨ k.2.2 < i) ∨
    (k.2.2 = i ∧ (k.2.1 = 0 ∨ k.1 ≤ 1))) h') ?_ ?_
  · by_cases hn : e.lk_ceil + e.ll_ceil > 0 ∧ e.li_ceil + e.lj_ceil > 0
    · unfold onlyIf
      rw [if_pos hn]
      refine vrr2_wp (k := fun m => (1,m,i)) (k0 := fun m => (0,m,i)) H2 hn.1 (fun n h => hbx (by omega) h)
        (fun n h => hbx (by omega) h)
        (fun n ax _ => by rw [haddr]; simp) (fun n ax _ => by rw [haddr]; simp) (Or.inr ⟨rfl, Or.inl rfl⟩)
        (fun m _ => Or.inr ⟨rfl, Or.inr rfl⟩) ?_ ?_ ?_
      · intro ax hax
        have := hF.right ax 1 0 i hax hi (by omega) (by omega)
        rw [hv, hv, hv]; simpa using this
      · intro n ax hax h1 h2
        have := hF.right ax 1 n i hax hi (by omega) (by omega)
        rw [hv, hv, hv, hv]; simpa using this
      · rintro ⟨n, m, r⟩ hb (h1 | ⟨h1, h2 | h2⟩)
        · exact Or.inl (Or.inl h1)
        · exact Or.inl (Or.inr ⟨h1, Or.inl h2⟩)
        · dsimp only at h1 h2
          subst h1
          by_cases e : n = 0
          · exact Or.inl (Or.inr ⟨rfl, Or.inr e⟩)
          have : n = 1 := by omega
          subst this
          by_cases e : m = 0
          · exact Or.inl (Or.inr ⟨rfl, Or.inl e⟩)
          · exact Or.inr ⟨m, by omega, ((hbox _ _ _).1 hb).2.1, rfl⟩
    · unfold onlyIf
      rw [if_neg hn, wp_pure]
      refine T_mono H2 ?_
      rintro ⟨n, m, r⟩ hb (h1 | ⟨h1, h2⟩)
      · exact Or.inl h1
      · have h3 := ((hbox _ _ _).1 hb).2.1
        have h4 := ((hbox _ _ _).1 hb).1
        refine Or.inr ⟨h1, ?_⟩
        dsimp only at *
        omega
  intro _ h3' H3
  clear H2
  -- along n for m ≥ 1
  refine T_forN (fun j k => ((k.1 = 0 ∧ k.2.1 = 0) ∨ k.2.2 < i) ∨ (k.2.2 = i ∧ (k.2.1 ≤ j ∨ k.1 ≤ 1))) H3 ?_ ?_ ?_
  · rintro ⟨n, m, r⟩ _ (h1 | ⟨h1, h2⟩)
    · exact Or.inl h1
    · refine Or.inr ⟨h1, ?_⟩
      dsimp only at *
      omega
  · intro j hj h' Hj
    refine vrr3_wp (k := fun n => (n,j+1,i)) (k0 := fun n => (n,j,i)) Hj (fun n h => hbx h (by omega))
      (fun n h => hbx h (by omega)) ?_ ?_ (Or.inr ⟨rfl, Or.inr (by simp)⟩)
      (fun _ => Or.inr ⟨rfl, Or.inr (by simp)⟩) (fun _ _ => Or.inr ⟨rfl, Or.inl (by simp)⟩) ?_ ?_
    · intro n ax _
      rw [haddr]
      congr 1
      ring
    · intro n ax _
      rw [haddr]
      congr 1
      have := Nat.succ_mul j e.g2d_klmax
      have h2 : (j+1)*e.g2d_klmax = j.succ*e.g2d_klmax := rfl
      omega
    · intro n ax hax h1 h2
      have := hF.up ax n (j+1) i hax hi (by omega) (by omega)
      rw [hv, hv, hv, hv]; simpa using this
    · rintro ⟨n, m, r⟩ hb (h1 | ⟨h1, h2⟩)
      · exact Or.inl (Or.inl h1)
      · dsimp only at h1 h2
        subst h1
        by_cases e : m ≤ j ∨ n ≤ 1
        · exact Or.inl (Or.inr ⟨rfl, e⟩)
        · have : m = j+1 := by omega
          subst this
          exact Or.inr ⟨n, by omega, ((hbox _ _ _).1 hb).1, rfl⟩
  · rintro ⟨n, m, r⟩ hb h1
    have h3 := ((hbox _ _ _).1 hb).2.1
    dsimp only at *
    by_cases e : r = i
    · exact Or.inr ⟨e, Or.inl h3⟩
    · rcases h1 with h1 | h1
      · exact Or.inl (Or.inl h1)
      · exact Or.inl (Or.inr (by omega))
end

end
end Verif.Lemmas
