import Verif.Model.Grids
import Verif.Lemmas.NucTab
import Mathlib.Tactic.IntervalCases

/-! CINTg0_1e_grids solves the recursions of every root and every point of a block. -/
namespace Verif.Lemmas
open Verif Verif.Model Verif.Prog Verif.Props

/-- the environment with one "root" for every pair of root and place in a block -/
def flatE (e : EnvG) : EnvG := { e with nrys_roots := 104 * e.nrys_roots }

/-- the places of a pair slab -/
theorem baseOK_of {e : EnvG} (hsi : e.g_stride_i = e.nrys_roots)
    (hsj : e.g_stride_j = e.nrys_roots * dimA e.li_ceil e.lj_ceil)
    (hgs : e.g_size = e.nrys_roots * dimA e.li_ceil e.lj_ceil * dimB e.li_ceil e.lj_ceil)
    (hpos : 0 < e.nrys_roots) : BaseOK e := by
  by_cases hb : ibase e
  · have hA : dimA e.li_ceil e.lj_ceil = e.li_ceil + e.lj_ceil + 1 := by
      exact if_pos hb
    have hB : dimB e.li_ceil e.lj_ceil = e.lj_ceil + 1 := by exact if_pos hb
    have hp : ∀ i j r, basePlace e i j r =
        e.nrys_roots*i + e.nrys_roots*(e.li_ceil + e.lj_ceil + 1)*j + r := by
      intro i j r
      unfold basePlace baseDi baseDj
      rw [if_pos hb, if_pos hb, hsi, hsj, hA]; ring
    have hl : baseL e = e.lj_ceil := if_pos hb
    refine ⟨?_, ?_, hpos⟩
    · intro i j r h1 h2 h3
      rw [hp, hgs, hA, hB]
      exact (digits3 (by omega) (by omega) h3).1
    · intro i j r i' j' r' h1 h2 h3 h4 h5 h6 h
      rw [hp, hp] at h
      exact (digits3 (A := e.li_ceil + e.lj_ceil + 1) (B := e.lj_ceil + 1) (by omega) (by omega) h3).2
        i' j' r' (by omega) (by omega) h6 h
  · have hA : dimA e.li_ceil e.lj_ceil = e.li_ceil + 1 := by
      exact if_neg hb
    have hB : dimB e.li_ceil e.lj_ceil = e.li_ceil + e.lj_ceil + 1 := by exact if_neg hb
    have hp : ∀ i j r, basePlace e i j r =
        e.nrys_roots*j + e.nrys_roots*(e.li_ceil + 1)*i + r := by
      intro i j r
      unfold basePlace baseDi baseDj
      rw [if_neg hb, if_neg hb, hsi, hsj, hA]; ring
    have hl : baseL e = e.li_ceil := if_neg hb
    refine ⟨?_, ?_, hpos⟩
    · intro i j r h1 h2 h3
      rw [hp, hgs, hA, hB]
      exact (digits3 (by omega) (by omega) h3).1
    · intro i j r i' j' r' h1 h2 h3 h4 h5 h6 h
      rw [hp, hp] at h
      have := (digits3 (A := e.li_ceil + 1) (B := e.li_ceil + e.lj_ceil + 1) (by omega) (by omega) h3).2
        j' i' r' (by omega) (by omega) h6 h
      exact ⟨this.2.1, this.1, this.2.2⟩

theorem srRoots_pos {sr : Bool} {n : Nat} (h : 0 < n) : 0 < srRoots sr n := by
  unfold srRoots; split <;> omega

theorem baseOK_grids (li lj : Nat) (ng : Inc) (sr : Bool) : BaseOK (flatE (initGrids li lj ng sr)) := by
  refine baseOK_of rfl rfl rfl ?_
  show 0 < 104 * srRoots sr _
  have := srRoots_pos (sr := sr) (baseOK_int1e li lj ng).pos
  omega

/-- cells of the kernel: direction 0, 1, 2: intermediates; 3: `u`; 4: `rijrg`; 5: `t2`, `rirgx`, `rirgy`, `rirgz` -/
def gridAddr (g : Ptr) (S : GridAux) (e : EnvG) (k : Nat × Nat × Nat × Nat) : Ptr :=
  if k.1 < 3 then baseAddr g (flatE e) k else if k.1 = 3 then S.u + k.2.2.2
  else if k.1 = 4 then S.rijrg + (k.2.2.2 + 104*k.2.2.1) else S.t2 + (104*k.2.2.1 + k.2.2.2)

/-- the cells in use while the recursion of root `n` runs -/
def KIn (e : EnvG) (n c i j r : Nat) : Prop :=
  (c < 3 ∧ i ≤ e.li_ceil + e.lj_ceil ∧ j ≤ baseL e ∧ r < 104*e.nrys_roots) ∨
  (c = 3 ∧ i = 0 ∧ j = 0 ∧ r < 104*e.nrys_roots) ∨ (c = 4 ∧ i = 0 ∧ j < 3 ∧ r < 104) ∨
  (c = 5 ∧ i = n ∧ j < 4 ∧ r < 104)

/-- the arrays follow each other -/
structure AuxOK (S : GridAux) (nroots : Nat) : Prop where
  rg : S.rijrg = S.u + 104*nroots
  t2 : S.t2 = S.u + (104*nroots + 312)

def GScr (g : Ptr) (leng : Nat) (S : GridAux) (nroots : Nat) (q : Ptr) : Prop :=
  Blk g leng q ∨ Blk S.u (104*nroots + 728) q

section
variable {g : Ptr} {S : GridAux} {e : EnvG} {leng : Nat} {n c i j r c' i' j' r' : Nat}

theorem gridAddr_mem (B : BaseOK (flatE e)) (hl : 3 * e.g_size ≤ leng) (hS : AuxOK S e.nrys_roots)
    (hk : KIn e n c i j r) : GScr g leng S e.nrys_roots (gridAddr g S e (c,i,j,r)) := by
  unfold gridAddr
  rcases hk with hk | hk | hk | hk
  · rw [if_pos hk.1]
    exact Or.inl (baseAddr_mem B hl hk)
  · obtain ⟨rfl, _, _, h4⟩ := hk
    exact Or.inr ⟨r, by omega, rfl⟩
  · obtain ⟨rfl, _, h3, h4⟩ := hk
    refine Or.inr ⟨104*e.nrys_roots + (r + 104*j), by omega, ?_⟩
    show S.rijrg + (r + 104*j) = _
    rw [hS.rg, Ptr.add_assoc]
  · obtain ⟨rfl, _, h3, h4⟩ := hk
    refine Or.inr ⟨104*e.nrys_roots + 312 + (104*j + r), by omega, ?_⟩
    show S.t2 + (104*j + r) = _
    rw [hS.t2, Ptr.add_assoc]

theorem gridAddr_inj (B : BaseOK (flatE e)) (hl : 3 * e.g_size ≤ leng) (hS : AuxOK S e.nrys_roots)
    (hd : ∀ q, Blk g leng q → ¬ Blk S.u (104*e.nrys_roots + 728) q)
    (hk : KIn e n c i j r) (hk' : KIn e n c' i' j' r')
    (h : gridAddr g S e (c,i,j,r) = gridAddr g S e (c',i',j',r')) : c = c' ∧ i = i' ∧ j = j' ∧ r = r' := by
  -- position of the cells behind the intermediates
  have pos : ∀ {c i j r : Nat}, KIn e n c i j r → 3 ≤ c → ∃ p, gridAddr g S e (c,i,j,r) = S.u + p ∧ p < 104*e.nrys_roots + 728 ∧
      ((c = 3 ∧ p = r ∧ r < 104*e.nrys_roots ∧ i = 0 ∧ j = 0) ∨ (c = 4 ∧ p = 104*e.nrys_roots + r + 104*j ∧ j < 3 ∧ r < 104 ∧ i = 0) ∨
        (c = 5 ∧ p = 104*e.nrys_roots + 312 + 104*j + r ∧ r < 104 ∧ i = n)) := by
    intro c i j r hk hc
    rcases hk with hk | hk | hk | hk
    · omega
    · obtain ⟨rfl, rfl, rfl, h4⟩ := hk
      exact ⟨r, rfl, by omega, Or.inl ⟨rfl, rfl, h4, rfl, rfl⟩⟩
    · obtain ⟨rfl, rfl, h3, h4⟩ := hk
      refine ⟨104*e.nrys_roots + (r + 104*j), ?_, by omega, Or.inr (Or.inl ⟨rfl, by omega, h3, h4, rfl⟩)⟩
      show S.rijrg + (r + 104*j) = _
      rw [hS.rg, Ptr.add_assoc]
    · obtain ⟨rfl, rfl, h3, h4⟩ := hk
      refine ⟨104*e.nrys_roots + 312 + (104*j + r), ?_, by omega, Or.inr (Or.inr ⟨rfl, by omega, h4, rfl⟩)⟩
      show S.t2 + (104*j + r) = _
      rw [hS.t2, Ptr.add_assoc]
  have low : ∀ {c i j r : Nat}, KIn e n c i j r → c < 3 → inBase (flatE e) (c,i,j,r) ∧
      gridAddr g S e (c,i,j,r) = baseAddr g (flatE e) (c,i,j,r) := by
    intro c i j r hk hc
    rcases hk with hk | hk | hk | hk
    · exact ⟨hk, if_pos hc⟩
    all_goals omega
  by_cases hc : c < 3
  · obtain ⟨b1, a1⟩ := low hk hc
    by_cases hc' : c' < 3
    · obtain ⟨b2, a2⟩ := low hk' hc'
      rw [a1, a2] at h
      have := baseAddr_inj B b1 b2 h
      injection this with q1 q2
      injection q2 with q2 q3
      injection q3 with q3 q4
      exact ⟨q1, q2, q3, q4⟩
    · obtain ⟨p, a2, hp, _⟩ := pos hk' (by omega)
      exact absurd ⟨p, hp, by rw [← a1, h, a2]⟩ (hd _ (baseAddr_mem B hl b1))
  · obtain ⟨p, a1, hp, h1⟩ := pos hk (by omega)
    by_cases hc' : c' < 3
    · obtain ⟨b2, a2⟩ := low hk' hc'
      exact absurd ⟨p, hp, by rw [← a2, ← h, a1]⟩ (hd _ (baseAddr_mem B hl b2))
    · obtain ⟨p', a2, hp', h2⟩ := pos hk' (by omega)
      rw [a1, a2, Ptr.add_right_inj] at h
      omega

end

section
variable {α : Type}

def unc (S : Nat → Nat → Nat → Nat → Prop) (k : Nat × Nat × Nat × Nat) : Prop := S k.1 k.2.1 k.2.2.1 k.2.2.2

/-- a store of the kernel -/
theorem gst {h h' : Heap α} {g : Ptr} {A : GridAux} {e : EnvG} {leng : Nat} (B : BaseOK (flatE e))
    (hl : 3 * e.g_size ≤ leng) (hA : AuxOK A e.nrys_roots)
    (hd : ∀ q, Blk g leng q → ¬ Blk A.u (104*e.nrys_roots + 728) q)
    {S S' : Nat → Nat → Nat → Nat → Prop} {v : Nat × Nat × Nat × Nat → α} (n : Nat) {c i j r : Nat}
    (T : Tab h h' (GScr g leng A e.nrys_roots) (unc S) (gridAddr g A e) v)
    (hk : KIn e n c i j r)
    (hS : ∀ c' i' j' r', S' c' i' j' r' → (c' = c ∧ i' = i ∧ j' = j ∧ r' = r) ∨ (S c' i' j' r' ∧ KIn e n c' i' j' r'))
    {x : α} (hx : x = v (c,i,j,r)) {p : Ptr} (hp : p = gridAddr g A e (c,i,j,r)) :
    wp (st p x) (fun _ h2 => Tab h h2 (GScr g leng A e.nrys_roots) (unc S') (gridAddr g A e) v) h' := by
  refine T.wp_st (gridAddr_mem B hl hA hk) hx ?_ hp
  rintro ⟨c', i', j', r'⟩ hk'
  by_cases he : c' = c ∧ i' = i ∧ j' = j ∧ r' = r
  · obtain ⟨rfl, rfl, rfl, rfl⟩ := he
    exact Or.inl rfl
  · rcases hS c' i' j' r' hk' with h1 | ⟨h1, h2⟩
    · exact absurd h1 he
    · exact Or.inr ⟨h1, fun h3 => he (gridAddr_inj B hl hA hd h2 hk h3)⟩

theorem gld {h h' : Heap α} {g : Ptr} {A : GridAux} {e : EnvG} {Gs : Ptr → Prop}
    {S : Nat → Nat → Nat → Nat → Prop} {v : Nat × Nat × Nat × Nat → α} {c i j r : Nat}
    (T : Tab h h' Gs (unc S) (gridAddr g A e) v) (hk : S c i j r) {p : Ptr} (hp : p = gridAddr g A e (c,i,j,r)) :
    h'.D p = .val (v (c,i,j,r)) := by rw [hp]; exact T.val (c,i,j,r) hk

theorem gaddr {g : Ptr} {A : GridAux} {e : EnvG} {c i j r n : Nat} (hc : c < 3) (h : n = basePlace e i j r) :
    gAx g e c n = gridAddr g A e (c,i,j,r) := by
  unfold gridAddr
  rw [if_pos hc]
  exact gAx_base (e := flatE e) h

/-- discharges the side conditions on sets of cells -/
local macro "cells" : tactic => `(tactic| (
  rintro c' i' j' r' hh
  try unfold KIn
  beta_reduce at hh ⊢
  omega))

/-- the same, direction by direction -/
local macro "cellsC" : tactic => `(tactic| (
  rintro c' i' j' r' hh
  try unfold KIn
  beta_reduce at hh ⊢
  have hc : c' < 6 := by omega
  interval_cases c' <;>
    simp (config := { decide := true }) only [false_and, true_and, and_true, false_or, or_false, and_false] at hh ⊢ <;> omega))

variable [Field α] [LinearOrder α]

/-- the content of the cells -/
def gridV (e : EnvG) (d : G1 α) (grid : Nat → Nat → α) (U : Nat → α) (z : Nat → Nat → α) (E : Nat → Nat → Nat → Nat → α)
    (k : Nat × Nat × Nat × Nat) : α :=
  if k.1 < 3 then z k.1 k.2.2.2 * E k.1 k.2.1 k.2.2.1 k.2.2.2
  else if k.1 = 3 then U k.2.2.2
  else if k.1 = 4 then grid k.2.2.2 k.2.2.1 - d.rij k.2.2.1
  else if k.2.2.1 = 0 then 1/2/(d.ai + d.aj) * (1 - U (k.2.2.2 + 104*k.2.1))
  else d.rij (k.2.2.1-1) - baseR e d (k.2.2.1-1) + U (k.2.2.2 + 104*k.2.1) * (grid k.2.2.2 (k.2.2.1-1) - d.rij (k.2.2.1-1))

section
variable {e : EnvG} {d : G1 α} {grid : Nat → Nat → α} {U : Nat → α} {z : Nat → Nat → α} {E : Nat → Nat → Nat → Nat → α}
omit [LinearOrder α]

theorem gridV3 {c i j r : Nat} (hc : c < 3) : gridV e d grid U z E (c,i,j,r) = z c r * E c i j r := if_pos hc
theorem gridVU (i j r : Nat) : gridV e d grid U z E (3,i,j,r) = U r := rfl
theorem gridVR (i j r : Nat) : gridV e d grid U z E (4,i,j,r) = grid r j - d.rij j := rfl
theorem gridVT (n r : Nat) : gridV e d grid U z E (5,n,0,r) = 1/2/(d.ai + d.aj) * (1 - U (r + 104*n)) := rfl
theorem gridVX (n c r : Nat) : gridV e d grid U z E (5,n,c+1,r) =
    d.rij c - baseR e d c + U (r + 104*n) * (grid r c - d.rij c) := rfl
end

section
variable {g : Ptr} {S : GridAux} {e : EnvG}
theorem gridAU (i j r : Nat) : gridAddr g S e (3,i,j,r) = S.u + r := rfl
theorem gridAR (i j r : Nat) : gridAddr g S e (4,i,j,r) = S.rijrg + (r + 104*j) := rfl
theorem gridAT (i r : Nat) : gridAddr g S e (5,i,0,r) = S.t2 + r := by
  show S.t2 + (104*0 + r) = _
  rw [Nat.mul_zero, Nat.zero_add]
theorem gridAX (i c r : Nat) : gridAddr g S e (5,i,c+1,r) = S.t2 + 104*(c+1) + r := by
  show S.t2 + (104*(c+1) + r) = _
  rw [Ptr.add_assoc]
end

theorem tmono {h h' : Heap α} {Gs : Ptr → Prop} {Q Q' : Nat → Nat → Nat → Nat → Prop} {ad : Nat × Nat × Nat × Nat → Ptr}
    {v : Nat × Nat × Nat × Nat → α} (T : Tab h h' Gs (unc Q) ad v) (hq : ∀ c i j r, Q' c i j r → Q c i j r) :
    Tab h h' Gs (unc Q') ad v := T.mono fun k hk => hq _ _ _ _ hk

section
variable {R : Rys2 α} {K : Consts α} {e : EnvG} {d : G1 α} {A : GridArgs α} {grid : Nat → Nat → α} {b : Nat}
    {g : Ptr} {S : GridAux} {fac : α} {leng : Nat} {h : Heap α}
    {U : Nat → α} {z : Nat → Nat → α} {E : Nat → Nat → Nat → Nat → α}

theorem g0GridsInit_wp (B : BaseOK (flatE e)) (hl : 3 * e.g_size ≤ leng)
    (hS : AuxOK S e.nrys_roots) (hd : ∀ q, Blk g leng q → ¬ Blk S.u (104*e.nrys_roots + 728) q) (hb : b ≤ 104)
    (ha : ∀ q, GScr g leng S e.nrys_roots q → h.D q ≠ .oob)
    (hU : ∀ i ig, i < e.nrys_roots → ig < b → U (ig + 104*i) = (gridUW R K e.rys_order e.nrys_roots A (d.ai + d.aj) fac
      ((grid ig 0 - d.rij 0) * (grid ig 0 - d.rij 0) + (grid ig 1 - d.rij 1) * (grid ig 1 - d.rij 1) +
        (grid ig 2 - d.rij 2) * (grid ig 2 - d.rij 2)) i).1)
    (hz0 : ∀ r, z 0 r = 1) (hz1 : ∀ r, z 1 r = 1)
    (hz2 : ∀ i ig, i < e.nrys_roots → ig < b → z 2 (ig + 104*i) = (gridUW R K e.rys_order e.nrys_roots A (d.ai + d.aj) fac
      ((grid ig 0 - d.rij 0) * (grid ig 0 - d.rij 0) + (grid ig 1 - d.rij 1) * (grid ig 1 - d.rij 1) +
        (grid ig 2 - d.rij 2) * (grid ig 2 - d.rij 2)) i).2)
    (h00 : ∀ c r, c < 3 → E c 0 0 r = 1) :
    wp (g0GridsInit R K e d A grid b g S fac) (fun _ h' => Tab h h' (GScr g leng S e.nrys_roots)
      (unc fun c i j r => (c < 4 ∧ i = 0 ∧ j = 0 ∧ r%104 < b ∧ r/104 < e.nrys_roots) ∨ (c = 4 ∧ i = 0 ∧ j < 3 ∧ r < b))
      (gridAddr g S e) (gridV e d grid U z E)) h := by
  let TB := fun (h' : Heap α) (Q : Nat → Nat → Nat → Nat → Prop) => Tab h h' (GScr g leng S e.nrys_roots) (unc Q) (gridAddr g S e) (gridV e d grid U z E)
  have v0 : ∀ c r, c < 3 → gridV e d grid U z E (c,0,0,r) = z c r := fun c r hc => by rw [gridV3 hc, h00 c r hc, mul_one]
  unfold g0GridsInit
  simp only [wp_mbind]
  -- ones
  refine wp_forN (fun t h' => TB h' (fun c i j r => c < 2 ∧ i = 0 ∧ j = 0 ∧ r%104 < b ∧ r/104 < t)) (Tab.init ha (fun k hk => ?_)) ?_ ?_
  · have := hk.2.2.2.2; omega
  · intro t ht h1 T1
    refine wp_forN (fun s h' => TB h' (fun c i j r => c < 2 ∧ i = 0 ∧ j = 0 ∧ r%104 < b ∧ (r/104 < t ∨ (r/104 = t ∧ r%104 < s))))
      (tmono T1 (by cells)) ?_ (fun h2 T2 => tmono T2 (by cells))
    intro s hs h2 T2
    rw [wp_mbind]
    refine wp_mono (gst B hl hS hd 0 (c := 0) (i := 0) (j := 0) (r := s + 104*t) (S' := fun c i j r => (c < 2 ∧ i = 0 ∧ j = 0 ∧ r%104 < b ∧ (r/104 < t ∨ (r/104 = t ∧ r%104 < s))) ∨ (c = 0 ∧ i = 0 ∧ j = 0 ∧ r = s + 104*t))
      T2 (by unfold KIn; omega) (by cells) (by rw [v0 0 _ (by omega), hz0]) (gaddr (by omega) (by simp [basePlace]))) ?_
    intro _ h3 T3
    exact gst B hl hS hd 0 (c := 1) (i := 0) (j := 0) (r := s + 104*t) T3 (by unfold KIn; omega) (by cells)
      (by rw [v0 1 _ (by omega), hz1]) (gaddr (by omega) (by simp [basePlace]))
  intro h1 T1
  -- distances
  refine wp_forN (fun t h' => TB h' (fun c i j r => (c < 2 ∧ i = 0 ∧ j = 0 ∧ r%104 < b ∧ r/104 < e.nrys_roots) ∨ (c = 4 ∧ i = 0 ∧ j < 3 ∧ r < t)))
    (tmono T1 (by cells)) ?_ ?_
  · intro t ht h2 T2
    refine wp_forN (fun s h' => TB h' (fun c i j r => (c < 2 ∧ i = 0 ∧ j = 0 ∧ r%104 < b ∧ r/104 < e.nrys_roots) ∨
      (c = 4 ∧ i = 0 ∧ j < 3 ∧ (r < t ∨ (r = t ∧ j < s))))) (tmono T2 (by cells)) ?_ (fun h2 T2 => tmono T2 (by cells))
    intro s hs h3 T3
    exact gst B hl hS hd 0 (c := 4) (i := 0) (j := s) (r := t) T3 (by unfold KIn; omega) (by cells) (gridVR 0 s t).symm (gridAR 0 s t).symm
  intro h2 T2
  -- roots and weights
  refine wp_forN (fun t h' => TB h' (fun c i j r => (c < 2 ∧ i = 0 ∧ j = 0 ∧ r%104 < b ∧ r/104 < e.nrys_roots) ∨ (c = 4 ∧ i = 0 ∧ j < 3 ∧ r < b) ∨
    (2 ≤ c ∧ c < 4 ∧ i = 0 ∧ j = 0 ∧ r/104 < e.nrys_roots ∧ r%104 < t))) (tmono T2 (by cellsC)) ?_ (fun h3 T3 => tmono T3 (by cellsC))
  intro t ht h3 T3
  simp only [wp_mbind, wp_ld]
  refine ⟨_, gld T3 (c := 4) (i := 0) (j := 0) (r := t) (by beta_reduce; omega) (gridAR 0 0 t).symm,
    _, gld T3 (c := 4) (i := 0) (j := 1) (r := t) (by beta_reduce; omega) (gridAR 0 1 t).symm,
    _, gld T3 (c := 4) (i := 0) (j := 2) (r := t) (by beta_reduce; omega) (gridAR 0 2 t).symm, ?_⟩
  rw [gridVR, gridVR, gridVR]
  refine wp_forN (fun s h' => TB h' (fun c i j r => (c < 2 ∧ i = 0 ∧ j = 0 ∧ r%104 < b ∧ r/104 < e.nrys_roots) ∨ (c = 4 ∧ i = 0 ∧ j < 3 ∧ r < b) ∨
    (2 ≤ c ∧ c < 4 ∧ i = 0 ∧ j = 0 ∧ r/104 < e.nrys_roots ∧ (r%104 < t ∨ (r%104 = t ∧ r/104 < s))))) (tmono T3 (by cellsC)) ?_
    (fun h2 T2 => tmono T2 (by cellsC))
  intro s hs h4 T4
  rw [wp_mbind]
  refine wp_mono (gst B hl hS hd 0 (c := 3) (i := 0) (j := 0) (r := t + 104*s) (S' := fun c i j r => (c < 2 ∧ i = 0 ∧ j = 0 ∧ r%104 < b ∧ r/104 < e.nrys_roots) ∨ (c = 4 ∧ i = 0 ∧ j < 3 ∧ r < b) ∨
    (2 ≤ c ∧ c < 4 ∧ i = 0 ∧ j = 0 ∧ r/104 < e.nrys_roots ∧ (r%104 < t ∨ (r%104 = t ∧ r/104 < s))) ∨ (c = 3 ∧ i = 0 ∧ j = 0 ∧ r = t + 104*s))
    T4 (by unfold KIn; omega) (by cellsC) (by rw [gridVU, hU s t hs ht]) (gridAU 0 0 _).symm) ?_
  intro _ h5 T5
  exact gst B hl hS hd 0 (c := 2) (i := 0) (j := 0) (r := t + 104*s) T5 (by unfold KIn; omega) (by cellsC)
    (by rw [v0 2 _ (by omega), hz2 s t hs ht]) (gaddr (by omega) (by simp [basePlace]))
/-- one root of the vertical recursion -/
theorem g0GridsVrr_wp {h4 : Heap α} {t : Nat} (B : BaseOK (flatE e)) (hl : 3 * e.g_size ≤ leng)
    (hS : AuxOK S e.nrys_roots) (hd : ∀ q, Blk g leng q → ¬ Blk S.u (104*e.nrys_roots + 728) q) (hb : b ≤ 104)
    (hn : e.li_ceil + e.lj_ceil ≠ 0) (ht : t < e.nrys_roots)
    (hv : ∀ c i r, c < 3 → E c (i+1) 0 r = (i:α) * (1/2/(d.ai + d.aj) * (1 - U r)) * E c (i-1) 0 r +
      ((d.rij c - baseR e d c) + U r * (grid (r%104) c - d.rij c)) * E c i 0 r)
    (T4 : Tab h h4 (GScr g leng S e.nrys_roots) (unc fun c i j r => (c = 3 ∧ i = 0 ∧ j = 0 ∧ r%104 < b ∧ r/104 < e.nrys_roots) ∨ (c = 4 ∧ i = 0 ∧ j < 3 ∧ r < b) ∨ (c < 3 ∧ j = 0 ∧ r%104 < b ∧ r/104 < e.nrys_roots ∧ i ≤ e.li_ceil + e.lj_ceil ∧ (i = 0 ∨ r/104 < t)))
      (gridAddr g S e) (gridV e d grid U z E)) :
    wp (g0GridsVrr e d b g S t) (fun _ h' => Tab h h' (GScr g leng S e.nrys_roots) (unc fun c i j r => (c = 3 ∧ i = 0 ∧ j = 0 ∧ r%104 < b ∧ r/104 < e.nrys_roots) ∨ (c = 4 ∧ i = 0 ∧ j < 3 ∧ r < b) ∨ (c < 3 ∧ j = 0 ∧ r%104 < b ∧ r/104 < e.nrys_roots ∧ i ≤ e.li_ceil + e.lj_ceil ∧ (i = 0 ∨ r/104 < t+1)))
      (gridAddr g S e) (gridV e d grid U z E)) h4 := by
  let TB := fun (h' : Heap α) (Q : Nat → Nat → Nat → Nat → Prop) => Tab h h' (GScr g leng S e.nrys_roots) (unc Q) (gridAddr g S e) (gridV e d grid U z E)
  unfold g0GridsVrr
  simp only [wp_mbind]
  -- first step
  refine wp_forN (fun s h' => TB h' (fun c i j r => (c = 3 ∧ i = 0 ∧ j = 0 ∧ r%104 < b ∧ r/104 < e.nrys_roots) ∨ (c = 4 ∧ i = 0 ∧ j < 3 ∧ r < b) ∨ (c = 5 ∧ i = t ∧ j < 4 ∧ 0 < j ∧ r < s) ∨ (c < 3 ∧ j = 0 ∧ r%104 < b ∧ r/104 < e.nrys_roots ∧ i ≤ e.li_ceil + e.lj_ceil ∧ (i = 0 ∨ r/104 < t ∨ (i = 1 ∧ r/104 = t ∧ r%104 < s)))))
    (tmono T4 (by cellsC)) ?_ ?_
  · intro s hs h5 T5
    rw [wp_mbind]
    refine wp_forN (fun m h' => TB h' (fun c i j r => (c = 3 ∧ i = 0 ∧ j = 0 ∧ r%104 < b ∧ r/104 < e.nrys_roots) ∨ (c = 4 ∧ i = 0 ∧ j < 3 ∧ r < b) ∨ (c = 5 ∧ i = t ∧ j < 4 ∧ 0 < j ∧ (r < s ∨ (r = s ∧ j ≤ m))) ∨ (c < 3 ∧ j = 0 ∧ r%104 < b ∧ r/104 < e.nrys_roots ∧ i ≤ e.li_ceil + e.lj_ceil ∧ (i = 0 ∨ r/104 < t ∨ (i = 1 ∧ r/104 = t ∧ r%104 < s)))))
      (tmono T5 (by cellsC)) ?_ ?_
    · intro m hm h6 T6
      simp only [wp_mbind, wp_ld]
      refine ⟨_, gld T6 (c := 3) (i := 0) (j := 0) (r := s + 104*t) (by beta_reduce; omega) (gridAU 0 0 _).symm,
        _, gld T6 (c := 4) (i := 0) (j := m) (r := s) (by beta_reduce; omega) (gridAR 0 m s).symm, ?_⟩
      rw [gridVU, gridVR]
      exact gst B hl hS hd t (c := 5) (i := t) (j := m+1) (r := s) T6 (by unfold KIn; omega) (by cellsC) (gridVX t m s).symm (gridAX t m s).symm
    intro h6 T6
    refine wp_forN (fun m h' => TB h' (fun c i j r => (c = 3 ∧ i = 0 ∧ j = 0 ∧ r%104 < b ∧ r/104 < e.nrys_roots) ∨ (c = 4 ∧ i = 0 ∧ j < 3 ∧ r < b) ∨ (c = 5 ∧ i = t ∧ j < 4 ∧ 0 < j ∧ r < s+1) ∨ (c < 3 ∧ j = 0 ∧ r%104 < b ∧ r/104 < e.nrys_roots ∧ i ≤ e.li_ceil + e.lj_ceil ∧ (i = 0 ∨ r/104 < t ∨ (i = 1 ∧ r/104 = t ∧ (r%104 < s ∨ (r%104 = s ∧ c < m)))))))
      (tmono T6 (by cellsC)) ?_ (fun h7 T7 => tmono T7 (by cellsC))
    intro m hm h7 T7
    simp only [wp_mbind, wp_ld]
    refine ⟨_, gld T7 (c := 5) (i := t) (j := m+1) (r := s) (by beta_reduce; omega) (gridAX t m s).symm,
      _, gld T7 (c := m) (i := 0) (j := 0) (r := s + 104*t) (by beta_reduce; omega) (gaddr hm (by simp only [basePlace]; ring)), ?_⟩
    refine gst B hl hS hd t (c := m) (i := 1) (j := 0) (r := s + 104*t) T7 (by unfold KIn; omega) (by cellsC) ?_
      (gaddr hm (by unfold basePlace; ring))
    rw [gridVX, gridV3 hm, gridV3 hm, hv m 0 _ hm, show (s + 104*t) % 104 = s by omega]
    simp only [Nat.cast_zero, zero_mul, zero_add]
    ring
  intro h5 T5
  -- t2
  refine wp_forN (fun s h' => TB h' (fun c i j r => (c = 3 ∧ i = 0 ∧ j = 0 ∧ r%104 < b ∧ r/104 < e.nrys_roots) ∨ (c = 4 ∧ i = 0 ∧ j < 3 ∧ r < b) ∨ (c = 5 ∧ i = t ∧ j < 4 ∧ r < b ∧ (0 < j ∨ r < s)) ∨ (c < 3 ∧ j = 0 ∧ r%104 < b ∧ r/104 < e.nrys_roots ∧ i ≤ e.li_ceil + e.lj_ceil ∧ (i = 0 ∨ r/104 < t ∨ (i = 1 ∧ r/104 = t)))))
    (tmono T5 (by cellsC)) ?_ ?_
  · intro s hs h6 T6
    simp only [wp_mbind, wp_ld]
    refine ⟨_, gld T6 (c := 3) (i := 0) (j := 0) (r := s + 104*t) (by beta_reduce; omega) (gridAU 0 0 _).symm, ?_⟩
    rw [gridVU]
    exact gst B hl hS hd t (c := 5) (i := t) (j := 0) (r := s) T6 (by unfold KIn; omega) (by cellsC) (gridVT t s).symm (gridAT t s).symm
  intro h6 T6
  -- further steps
  refine wp_forN (fun m h' => TB h' (fun c i j r => (c = 3 ∧ i = 0 ∧ j = 0 ∧ r%104 < b ∧ r/104 < e.nrys_roots) ∨ (c = 4 ∧ i = 0 ∧ j < 3 ∧ r < b) ∨ (c = 5 ∧ i = t ∧ j < 4 ∧ r < b) ∨ (c < 3 ∧ j = 0 ∧ r%104 < b ∧ r/104 < e.nrys_roots ∧ i ≤ e.li_ceil + e.lj_ceil ∧ (i = 0 ∨ r/104 < t ∨ (i ≤ m+1 ∧ r/104 = t)))))
    (tmono T6 (by cellsC)) ?_ (fun h7 T7 => tmono T7 (by cellsC))
  intro m hm h7 T7
  refine wp_forN (fun s h' => TB h' (fun c i j r => (c = 3 ∧ i = 0 ∧ j = 0 ∧ r%104 < b ∧ r/104 < e.nrys_roots) ∨ (c = 4 ∧ i = 0 ∧ j < 3 ∧ r < b) ∨ (c = 5 ∧ i = t ∧ j < 4 ∧ r < b) ∨ (c < 3 ∧ j = 0 ∧ r%104 < b ∧ r/104 < e.nrys_roots ∧ i ≤ e.li_ceil + e.lj_ceil ∧ (i = 0 ∨ r/104 < t ∨ (r/104 = t ∧ (i ≤ m+1 ∨ (i = m+2 ∧ r%104 < s)))))))
    (tmono T7 (by cellsC)) ?_ (fun h7 T7 => tmono T7 (by cellsC))
  intro s hs h8 T8
  refine wp_forN (fun w h' => TB h' (fun c i j r => (c = 3 ∧ i = 0 ∧ j = 0 ∧ r%104 < b ∧ r/104 < e.nrys_roots) ∨ (c = 4 ∧ i = 0 ∧ j < 3 ∧ r < b) ∨ (c = 5 ∧ i = t ∧ j < 4 ∧ r < b) ∨ (c < 3 ∧ j = 0 ∧ r%104 < b ∧ r/104 < e.nrys_roots ∧ i ≤ e.li_ceil + e.lj_ceil ∧ (i = 0 ∨ r/104 < t ∨ (r/104 = t ∧ (i ≤ m+1 ∨ (i = m+2 ∧ (r%104 < s ∨ (r%104 = s ∧ c < w)))))))))
    (tmono T8 (by cellsC)) ?_ (fun h7 T7 => tmono T7 (by cellsC))
  intro w hw h9 T9
  simp only [wp_mbind, wp_ld]
  have e0 : (m+1)*baseDi e = m * baseDi e + baseDi e := by rw [Nat.add_mul, Nat.one_mul]
  have e1 : 104*t + (m+1)*baseDi e - baseDi e + s = basePlace e m 0 (s + 104*t) := by
    unfold basePlace
    omega
  refine ⟨_, gld T9 (c := 5) (i := t) (j := 0) (r := s) (by beta_reduce; omega) (gridAT t s).symm,
    _, gld T9 (c := w) (i := m) (j := 0) (r := s + 104*t) (by beta_reduce; omega) (gaddr hw e1),
    _, gld T9 (c := 5) (i := t) (j := w+1) (r := s) (by beta_reduce; omega) (gridAX t w s).symm,
    _, gld T9 (c := w) (i := m+1) (j := 0) (r := s + 104*t) (by beta_reduce; omega) (gaddr hw (by unfold basePlace; ring)), ?_⟩
  refine gst B hl hS hd t (c := w) (i := m+2) (j := 0) (r := s + 104*t) T9 (by unfold KIn; omega) (by cellsC) ?_ (gaddr hw (by unfold basePlace; ring))
  rw [gridVT, gridVX, gridV3 hw, gridV3 hw, gridV3 hw, hv w (m+1) _ hw, show (s + 104*t) % 104 = s by omega, Nat.add_sub_cancel]
  ring

/-- the horizontal recursion -/
theorem g0GridsHrr_wp {h4 : Heap α} (B : BaseOK (flatE e)) (hl : 3 * e.g_size ≤ leng)
    (hS : AuxOK S e.nrys_roots) (hd : ∀ q, Blk g leng q → ¬ Blk S.u (104*e.nrys_roots + 728) q) (hb : b ≤ 104)
    (hh : ∀ c i j r, c < 3 → E c i (j+1) r = E c (i+1) j r + rirj e d c * E c i j r)
    (T4 : Tab h h4 (GScr g leng S e.nrys_roots)
      (unc fun c i j r => c < 3 ∧ i + j ≤ e.li_ceil + e.lj_ceil ∧ j ≤ 0 ∧ r/104 < e.nrys_roots ∧ r%104 < b)
      (gridAddr g S e) (gridV e d grid U z E)) :
    wp (g0GridsHrr e d b g) (fun _ h' => Tab h h' (GScr g leng S e.nrys_roots)
      (unc fun c i j r => c < 3 ∧ i + j ≤ e.li_ceil + e.lj_ceil ∧ j ≤ baseL e ∧ r/104 < e.nrys_roots ∧ r%104 < b)
      (gridAddr g S e) (gridV e d grid U z E)) h4 := by
  let TB := fun (h' : Heap α) (Q : Nat → Nat → Nat → Nat → Prop) => Tab h h' (GScr g leng S e.nrys_roots) (unc Q) (gridAddr g S e) (gridV e d grid U z E)
  have hbl : baseL e ≤ e.li_ceil + e.lj_ceil := by unfold baseL; split <;> omega
  unfold g0GridsHrr
  refine wp_forN (fun m h' => TB h' (fun c i j r => c < 3 ∧ i + j ≤ e.li_ceil + e.lj_ceil ∧ j ≤ m ∧ r/104 < e.nrys_roots ∧ r%104 < b))
    T4 ?_ (fun h5 T5 => T5)
  intro m hm h5 T5
  refine wp_forN (fun t h' => TB h' (fun c i j r => c < 3 ∧ i + j ≤ e.li_ceil + e.lj_ceil ∧ r/104 < e.nrys_roots ∧ r%104 < b ∧
    (j ≤ m ∨ (j = m+1 ∧ i < t)))) (tmono T5 (by cells)) ?_ (fun h7 T7 => tmono T7 (by cells))
  intro t ht h6 T6
  refine wp_forN (fun n h' => TB h' (fun c i j r => c < 3 ∧ i + j ≤ e.li_ceil + e.lj_ceil ∧ r/104 < e.nrys_roots ∧ r%104 < b ∧
    (j ≤ m ∨ (j = m+1 ∧ (i < t ∨ (i = t ∧ r/104 < n)))))) (tmono T6 (by cells)) ?_ (fun h7 T7 => tmono T7 (by cells))
  intro n hn' h7 T7
  refine wp_forN (fun s h' => TB h' (fun c i j r => c < 3 ∧ i + j ≤ e.li_ceil + e.lj_ceil ∧ r/104 < e.nrys_roots ∧ r%104 < b ∧
    (j ≤ m ∨ (j = m+1 ∧ (i < t ∨ (i = t ∧ (r/104 < n ∨ (r/104 = n ∧ r%104 < s)))))))) (tmono T7 (by cells)) ?_ (fun h7 T7 => tmono T7 (by cells))
  intro s hs h8 T8
  refine wp_forN (fun w h' => TB h' (fun c i j r => c < 3 ∧ i + j ≤ e.li_ceil + e.lj_ceil ∧ r/104 < e.nrys_roots ∧ r%104 < b ∧
    (j ≤ m ∨ (j = m+1 ∧ (i < t ∨ (i = t ∧ (r/104 < n ∨ (r/104 = n ∧ (r%104 < s ∨ (r%104 = s ∧ c < w)))))))))) (tmono T8 (by cells)) ?_
    (fun h7 T7 => tmono T7 (by cells))
  intro w hw h9 T9
  simp only [wp_mbind, wp_ld]
  have e1 : (m+1)*baseDj e = m*baseDj e + baseDj e := by rw [Nat.add_mul, Nat.one_mul]
  have e2 : (m+1)*baseDj e + t*baseDi e - baseDj e + (s + 104*n) = basePlace e t m (s + 104*n) := by
    unfold basePlace; omega
  have e3 : (m+1)*baseDj e + t*baseDi e - baseDj e + baseDi e + (s + 104*n) = basePlace e (t+1) m (s + 104*n) := by
    unfold basePlace
    rw [Nat.add_mul t 1, Nat.one_mul]; omega
  refine ⟨_, gld T9 (c := w) (i := t+1) (j := m) (r := s + 104*n) (by beta_reduce; omega) (gaddr hw e3),
    _, gld T9 (c := w) (i := t) (j := m) (r := s + 104*n) (by beta_reduce; omega) (gaddr hw e2), ?_⟩
  refine gst B hl hS hd 0 (c := w) (i := t) (j := m+1) (r := s + 104*n) T9 (by unfold KIn; omega) (by cells) ?_ (gaddr hw (by unfold basePlace; ring))
  rw [gridV3 hw, gridV3 hw, gridV3 hw, hh w t m _ hw]
  ring

/-- CINTg0_1e_grids fills the table with the solution of the recursions of every root and point -/
theorem g0Grids_wp (B : BaseOK (flatE e)) (hl : 3 * e.g_size ≤ leng)
    (hS : AuxOK S e.nrys_roots) (hd : ∀ q, Blk g leng q → ¬ Blk S.u (104*e.nrys_roots + 728) q) (hb : b ≤ 104)
    (ha : ∀ q, GScr g leng S e.nrys_roots q → h.D q ≠ .oob)
    (hU : ∀ i ig, i < e.nrys_roots → ig < b → U (ig + 104*i) = (gridUW R K e.rys_order e.nrys_roots A (d.ai + d.aj) fac
      ((grid ig 0 - d.rij 0) * (grid ig 0 - d.rij 0) + (grid ig 1 - d.rij 1) * (grid ig 1 - d.rij 1) +
        (grid ig 2 - d.rij 2) * (grid ig 2 - d.rij 2)) i).1)
    (hz0 : ∀ r, z 0 r = 1) (hz1 : ∀ r, z 1 r = 1)
    (hz2 : ∀ i ig, i < e.nrys_roots → ig < b → z 2 (ig + 104*i) = (gridUW R K e.rys_order e.nrys_roots A (d.ai + d.aj) fac
      ((grid ig 0 - d.rij 0) * (grid ig 0 - d.rij 0) + (grid ig 1 - d.rij 1) * (grid ig 1 - d.rij 1) +
        (grid ig 2 - d.rij 2) * (grid ig 2 - d.rij 2)) i).2)
    (h00 : ∀ c r, c < 3 → E c 0 0 r = 1)
    (hv : ∀ c i r, c < 3 → E c (i+1) 0 r = (i:α) * (1/2/(d.ai + d.aj) * (1 - U r)) * E c (i-1) 0 r +
      ((d.rij c - baseR e d c) + U r * (grid (r%104) c - d.rij c)) * E c i 0 r)
    (hh : ∀ c i j r, c < 3 → E c i (j+1) r = E c (i+1) j r + rirj e d c * E c i j r) :
    wp (g0Grids R K e d A grid b g S fac) (fun x h1 => x = true ∧ (∀ q, GScr g leng S e.nrys_roots q → h1.D q ≠ .oob) ∧
      AgreeD h h1 (GScr g leng S e.nrys_roots) ∧ h1.I = h.I ∧
      ∀ c i j n ig, c < 3 → i + j ≤ e.li_ceil + e.lj_ceil → j ≤ baseL e → n < e.nrys_roots → ig < b →
        h1.D (gAx g e c (basePlace e i j (ig + 104*n))) = .val (z c (ig + 104*n) * E c i j (ig + 104*n))) h := by
  let TB := fun (h' : Heap α) (Q : Nat → Nat → Nat → Nat → Prop) => Tab h h' (GScr g leng S e.nrys_roots) (unc Q) (gridAddr g S e) (gridV e d grid U z E)
  have fin : ∀ {h' : Heap α}, TB h' (fun c i j r => c < 3 ∧ i + j ≤ e.li_ceil + e.lj_ceil ∧ j ≤ baseL e ∧ r/104 < e.nrys_roots ∧ r%104 < b) →
      (∀ q, GScr g leng S e.nrys_roots q → h'.D q ≠ .oob) ∧
      AgreeD h h' (GScr g leng S e.nrys_roots) ∧ h'.I = h.I ∧
      ∀ c i j n ig, c < 3 → i + j ≤ e.li_ceil + e.lj_ceil → j ≤ baseL e → n < e.nrys_roots → ig < b →
        h'.D (gAx g e c (basePlace e i j (ig + 104*n))) = .val (z c (ig + 104*n) * E c i j (ig + 104*n)) := by
    intro h' T
    refine ⟨T.alloc, T.frame, T.int, fun c i j n ig hc hi hj hn hg => ?_⟩
    rw [gld T (c := c) (i := i) (j := j) (r := ig + 104*n) (by beta_reduce; omega) (gaddr hc rfl), gridV3 hc]
  unfold g0Grids
  rw [wp_mbind]
  refine wp_mono (g0GridsInit_wp B hl hS hd hb ha hU hz0 hz1 hz2 h00) ?_
  intro _ h3 T3
  by_cases hn : e.li_ceil + e.lj_ceil = 0
  · rw [if_pos hn]
    simp only [wp_pure]
    exact ⟨True.intro, fin (tmono T3 (by cells))⟩
  rw [if_neg hn]
  simp only [wp_mbind]
  refine wp_forN (fun t h' => TB h' (fun c i j r => (c = 3 ∧ i = 0 ∧ j = 0 ∧ r%104 < b ∧ r/104 < e.nrys_roots) ∨ (c = 4 ∧ i = 0 ∧ j < 3 ∧ r < b) ∨ (c < 3 ∧ j = 0 ∧ r%104 < b ∧ r/104 < e.nrys_roots ∧ i ≤ e.li_ceil + e.lj_ceil ∧ (i = 0 ∨ r/104 < t))))
    (tmono T3 (by cellsC)) (fun t ht h4 T4 => g0GridsVrr_wp B hl hS hd hb hn ht hv T4) ?_
  intro h4 T4
  refine wp_mono (g0GridsHrr_wp B hl hS hd hb hh (tmono T4 (by cells))) ?_
  intro _ h5 T5
  simp only [wp_pure]
  exact ⟨True.intro, fin T5⟩
end

end
end Verif.Lemmas
