import Verif.Model.Oper
import Verif.Core.Fill
import Verif.Core.Assign
import Mathlib.Data.Fin.VecNotation
import Mathlib.Data.Fintype.Basic
import Mathlib.Tactic.FinCases
import Mathlib.Tactic.Ring

/-! What the operators on intermediates store. -/
namespace Verif.Lemmas
open Verif Verif.Model Verif.Prog

variable {α : Type} [Field α]

/-- place of the intermediate with powers `m 0`, `m 1`, `m 2`, `m 3` of the functions i, j, k, l and root `r` -/
def slabM (e : EnvG) (m : Fin 4 → Nat) (r : Nat) : Nat :=
  e.g_stride_i * m 0 + e.g_stride_j * m 1 + e.g_stride_k * m 2 + e.g_stride_l * m 3 + r

def strideM (e : EnvG) : Fin 4 → Nat := ![e.g_stride_i, e.g_stride_j, e.g_stride_k, e.g_stride_l]

/-- powers up to `lim` and `R` roots have distinct places in the slab -/
structure SlabM (e : EnvG) (lim : Fin 4 → Nat) (R : Nat) : Prop where
  range : ∀ m r, (∀ t, m t ≤ lim t) → r < R → slabM e m r < e.g_size
  inj : ∀ m r m' r', (∀ t, m t ≤ lim t) → r < R → (∀ t, m' t ≤ lim t) → r' < R →
    slabM e m r = slabM e m' r' → m = m' ∧ r = r'

def bump (m : Fin 4 → Nat) (t : Fin 4) : Fin 4 → Nat := Function.update m t (m t + 1)
def drop (m : Fin 4 → Nat) (t : Fin 4) : Fin 4 → Nat := Function.update m t (m t - 1)

theorem slabM_bump (e : EnvG) (m : Fin 4 → Nat) (t : Fin 4) (r : Nat) :
    slabM e (bump m t) r = slabM e m r + strideM e t := by
  unfold slabM bump strideM
  fin_cases t <;> simp [Nat.mul_add] <;> omega

theorem slabM_drop (e : EnvG) (m : Fin 4 → Nat) (t : Fin 4) (r : Nat) (h : 0 < m t) :
    slabM e (drop m t) r = slabM e m r - strideM e t := by
  have : m = bump (drop m t) t := by
    unfold bump drop
    simp only [Function.update_self, Function.update_idem]
    rw [show m t - 1 + 1 = m t by omega, Function.update_eq_self]
  conv_rhs => rw [this, slabM_bump]
  omega

/-- a table of intermediates with powers up to `lim` -/
def TabM (h : Heap α) (g : Ptr) (e : EnvG) (lim : Fin 4 → Nat) (R : Nat) (v : Nat → (Fin 4 → Nat) → Nat → α) : Prop :=
  ∀ c m r, c < 3 → (∀ t, m t ≤ lim t) → r < R → h.D (gAx g e c (slabM e m r)) = .val (v c m r)

/-- the cells of such a table -/
def CellsM (g : Ptr) (e : EnvG) (lim : Fin 4 → Nat) (R : Nat) (v : Nat → (Fin 4 → Nat) → Nat → α) (q : Ptr) (x : α) : Prop :=
  ∃ c m r, c < 3 ∧ (∀ t, m t ≤ lim t) ∧ r < R ∧ q = gAx g e c (slabM e m r) ∧ x = v c m r

/-- one cell -/
def cellM (g : Ptr) (e : EnvG) (v : Nat → (Fin 4 → Nat) → Nat → α) (m : Fin 4 → Nat) (r c : Nat) (q : Ptr) (x : α) : Prop :=
  q = gAx g e c (slabM e m r) ∧ x = v c m r

theorem gAx_slab_inj {g : Ptr} {e : EnvG} {lim : Fin 4 → Nat} {R : Nat} (hS : SlabM e lim R)
    {c m r c' m' r'} (h1 : ∀ t, m t ≤ lim t) (h2 : r < R) (h3 : ∀ t, m' t ≤ lim t) (h4 : r' < R)
    (h : gAx g e c (slabM e m r) = gAx g e c' (slabM e m' r')) : c = c' ∧ m = m' ∧ r = r' := by
  have := (Ptr.add_right_inj _ _ _).1 h
  obtain ⟨hc, hs⟩ := radix_inj (hS.range m r h1 h2) (hS.range m' r' h3 h4) this
  obtain ⟨hm, hr⟩ := hS.inj m r m' r' h1 h2 h3 h4 hs
  exact ⟨hc, hm, hr⟩

theorem cellsM_func {g : Ptr} {e : EnvG} {lim lim' : Fin 4 → Nat} {R : Nat} (hS : SlabM e lim' R) (hl : ∀ t, lim t ≤ lim' t)
    {v : Nat → (Fin 4 → Nat) → Nat → α} (q : Ptr) (x y : α) (hx : CellsM g e lim R v q x) (hy : CellsM g e lim R v q y) : x = y := by
  obtain ⟨c, m, r, h1, h2, h3, rfl, rfl⟩ := hx
  obtain ⟨c', m', r', h1', h2', h3', e1, rfl⟩ := hy
  obtain ⟨rfl, rfl, rfl⟩ := gAx_slab_inj hS (fun t => le_trans (h2 t) (hl t)) h3 (fun t => le_trans (h2' t) (hl t)) h3' e1
  rfl

/-- what a step of an operator needs -/
structure OpCtx (h0 : Heap α) (f g : Ptr) (e : EnvG) (lim src : Fin 4 → Nat) (R : Nat)
    (w v : Nat → (Fin 4 → Nat) → Nat → α) : Prop where
  slab : ∃ lim', SlabM e lim' R ∧ (∀ t, lim t ≤ lim' t)
  alloc : ∀ q x, CellsM f e lim R v q x → h0.D q ≠ .oob
  tab : TabM h0 g e src R w
  disj : ∀ c m r, c < 3 → (∀ t, m t ≤ src t) → r < R → ∀ x, ¬ CellsM f e lim R v (gAx g e c (slabM e m r)) x

section
variable {h0 : Heap α} {f g : Ptr} {e : EnvG} {lim src : Fin 4 → Nat} {R : Nat}
  {w v : Nat → (Fin 4 → Nat) → Nat → α} {P : Ptr → α → Prop} {m : Fin 4 → Nat} {r c n : Nat}

theorem OpCtx.rd (C : OpCtx h0 f g e lim src R w v) {h : Heap α} (H : FillInv h0 (CellsM f e lim R v) h)
    (hc : c < 3) (hm : ∀ t, m t ≤ src t) (hr : r < R) : h.D (gAx g e c (slabM e m r)) = .val (w c m r) := by
  rw [Fill.keep H (C.disj c m r hc hm hr)]
  exact C.tab c m r hc hm hr

theorem OpCtx.wr (C : OpCtx h0 f g e lim src R w v) {h : Heap α} (H : FillInv h0 (CellsM f e lim R v) h)
    (HP : Filled (CellsM f e lim R v) h P)
    (hc : c < 3) (hm : ∀ t, m t ≤ lim t) (hr : r < R) {x : α} (hx : x = v c m r) :
    h.D (gAx f e c (slabM e m r)) ≠ .oob ∧ (FillInv h0 (CellsM f e lim R v) (h.setD (gAx f e c (slabM e m r)) x) ∧
      Filled (CellsM f e lim R v) (h.setD (gAx f e c (slabM e m r)) x) P ∧
      Filled (CellsM f e lim R v) (h.setD (gAx f e c (slabM e m r)) x) (cellM f e v m r c)) := by
  obtain ⟨lim', hS, hl⟩ := C.slab
  have hV : CellsM f e lim R v (gAx f e c (slabM e m r)) x := ⟨c, m, r, hc, hm, hr, rfl, hx⟩
  exact ⟨Fill.alloc H (C.alloc _ _ hV), Fill.set (cellsM_func hS hl) H HP hV (fun q' x' h1 _ => Or.inr h1.1)⟩

theorem dLow_fill (C : OpCtx h0 f g e lim src R w v) {t : Fin 4} {s : Nat} {a2 : α}
    (hs : s = strideM e t) (hn : n = slabM e m r) (hc : c < 3) (hm : ∀ t, m t ≤ lim t) (hr : r < R)
    (hb : ∀ t', bump m t t' ≤ src t') (hv : v c m r = a2 * w c (bump m t) r) :
    Fill h0 (CellsM f e lim R v) P (cellM f e v m r c) (dLow e f g s a2 c n) := by
  subst hs hn
  intro h H HP
  unfold dLow
  simp only [wp_mbind, wp_ld, wp_st]
  rw [← slabM_bump]
  exact ⟨_, C.rd H hc hb hr, C.wr H HP hc hm hr hv.symm⟩

theorem dHigh_fill (C : OpCtx h0 f g e lim src R w v) {t : Fin 4} {s k : Nat} {a2 : α}
    (hs : s = strideM e t) (hn : n = slabM e m r) (hk : k = m t) (h0k : 0 < k) (hc : c < 3) (hm : ∀ t, m t ≤ lim t) (hr : r < R)
    (hb : ∀ t', bump m t t' ≤ src t') (hv : v c m r = (m t : α) * w c (drop m t) r + a2 * w c (bump m t) r) :
    Fill h0 (CellsM f e lim R v) P (cellM f e v m r c) (dHigh e f g s a2 k c n) := by
  subst hs hn hk
  intro h H HP
  unfold dHigh
  simp only [wp_mbind, wp_ld, wp_st]
  rw [← slabM_bump, ← slabM_drop e m t r h0k]
  refine ⟨_, C.rd H hc (fun t' => ?_) hr, _, C.rd H hc hb hr, C.wr H HP hc hm hr hv.symm⟩
  refine le_trans ?_ (hb t')
  unfold drop bump
  rcases eq_or_ne t' t with rfl | h
  · simp only [Function.update_self]; omega
  · simp only [Function.update_of_ne h, le_refl]

theorem xMul_fill (C : OpCtx h0 f g e lim src R w v) {t : Fin 4} {s : Nat} {rr : Nat → α}
    (hs : s = strideM e t) (hn : n = slabM e m r) (hc : c < 3) (hm : ∀ t, m t ≤ lim t) (hr : r < R)
    (hb : ∀ t', bump m t t' ≤ src t') (hv : v c m r = w c (bump m t) r + rr c * w c m r) :
    Fill h0 (CellsM f e lim R v) P (cellM f e v m r c) (xMul e f g s rr c n) := by
  subst hs hn
  intro h H HP
  unfold xMul
  simp only [wp_mbind, wp_ld, wp_st]
  rw [← slabM_bump]
  refine ⟨_, C.rd H hc hb hr, _, C.rd H hc (fun t' => ?_) hr, C.wr H HP hc hm hr hv.symm⟩
  refine le_trans ?_ (hb t')
  unfold bump
  rcases eq_or_ne t' t with rfl | h
  · simp only [Function.update_self]; omega
  · simp only [Function.update_of_ne h, le_refl]
end

/-- derivative of the Gaussian with exponent `a` along function `t`, on intermediates -/
def dVal (a : α) (t : Fin 4) (w : Nat → (Fin 4 → Nat) → Nat → α) (c : Nat) (m : Fin 4 → Nat) (r : Nat) : α :=
  (m t : α) * w c (drop m t) r + -2 * a * w c (bump m t) r

/-- multiplication by the coordinate, `rr` the position of the function's centre relative to the origin -/
def xVal (rr : Nat → α) (t : Fin 4) (w : Nat → (Fin 4 → Nat) → Nat → α) (c : Nat) (m : Fin 4 → Nat) (r : Nat) : α :=
  w c (bump m t) r + rr c * w c m r

/-- the loop order is irrelevant: a set of cells -/
theorem cells_nest {f : Ptr} {e : EnvG} {li lj lk ll R : Nat} {v : Nat → (Fin 4 → Nat) → Nat → α} {q : Ptr} {x : α}
    (h : CellsM f e ![li,lj,lk,ll] R v q x) :
    ∃ i j k l r c, i < li+1 ∧ j < lj+1 ∧ k < lk+1 ∧ l < ll+1 ∧ r < R ∧ c < 3 ∧ cellM f e v ![i,j,k,l] r c q x := by
  obtain ⟨c, m, r, hc, hm, hr, h1, h2⟩ := h
  have e : m = ![m 0, m 1, m 2, m 3] := by
    funext t; fin_cases t <;> rfl
  refine ⟨m 0, m 1, m 2, m 3, r, c, Nat.lt_succ_of_le (hm 0), Nat.lt_succ_of_le (hm 1), Nat.lt_succ_of_le (hm 2),
    Nat.lt_succ_of_le (hm 3), hr, hc, ?_⟩
  rw [← e]
  exact ⟨h1, h2⟩

theorem le_vec {i j k l i' j' k' l' : Nat} (h0 : i ≤ i') (h1 : j ≤ j') (h2 : k ≤ k') (h3 : l ≤ l') :
    ∀ t, (![i,j,k,l] : Fin 4 → Nat) t ≤ (![i',j',k',l'] : Fin 4 → Nat) t := by
  intro t; fin_cases t <;> assumption

theorem bump_le {m lim src : Fin 4 → Nat} {t : Fin 4} (hm : ∀ t, m t ≤ lim t) (hs : ∀ t', bump lim t t' ≤ src t') :
    ∀ t', bump m t t' ≤ src t' := by
  intro t'
  refine le_trans ?_ (hs t')
  unfold bump
  rcases eq_or_ne t' t with rfl | h
  · simp only [Function.update_self]; exact Nat.add_le_add_right (hm _) 1
  · simp only [Function.update_of_ne h]; exact hm _

section
variable {h0 : Heap α} {f g : Ptr} {e : EnvG} {li lj lk ll R : Nat} {src : Fin 4 → Nat}
  {w : Nat → (Fin 4 → Nat) → Nat → α} {P : Ptr → α → Prop}

theorem slab4vec (e : EnvG) (i j k l r : Nat) : slabM e ![i,j,k,l] r =
    e.g_stride_i * i + e.g_stride_j * j + e.g_stride_k * k + e.g_stride_l * l + r := rfl

theorem dVal_zero (a : α) (t : Fin 4) (w : Nat → (Fin 4 → Nat) → Nat → α) (c : Nat) (m : Fin 4 → Nat) (r : Nat) (h : m t = 0) :
    dVal a t w c m r = -2 * a * w c (bump m t) r := by
  unfold dVal; rw [h]; simp

theorem nabla1i2_fill {a : α} (C : OpCtx h0 f g e ![li,lj,lk,ll] src e.nrys_roots w (dVal a 0 w))
    (hs : ∀ t', bump ![li,lj,lk,ll] 0 t' ≤ src t') :
    Fill h0 (CellsM f e ![li,lj,lk,ll] e.nrys_roots (dVal a 0 w)) P (CellsM f e ![li,lj,lk,ll] e.nrys_roots (dVal a 0 w))
      (nabla1i2 e a f g li lj lk ll) := by
  unfold nabla1i2 perRoot
  refine Fill.mono (Fill.forN' fun j _ _ hj => Fill.forN' fun l _ _ hl => Fill.forN' fun k _ _ hk =>
    Fill.seq (Fill.forN' fun r _ _ hr => Fill.forN' fun c _ _ hc =>
      dLow_fill (m := ![0,j,k,l]) (r := r) (t := 0) C rfl ?_ hc (le_vec ?_ ?_ ?_ ?_) hr (bump_le (le_vec ?_ ?_ ?_ ?_) hs)
        (dVal_zero _ _ _ _ _ _ rfl))
      (Fill.forN' fun i _ _ hi => Fill.forN' fun r _ _ hr => Fill.forN' fun c _ _ hc =>
      dHigh_fill (m := ![i+1,j,k,l]) (r := r) (t := 0) C rfl ?_ rfl (Nat.succ_pos _) hc (le_vec ?_ ?_ ?_ ?_) hr
        (bump_le (le_vec ?_ ?_ ?_ ?_) hs) rfl)) ?_
  case refine_1 => rw [slab4vec]; ring
  case refine_10 => rw [slab4vec]; ring
  case refine_19 =>
    intro q x hx _
    obtain ⟨i, j, k, l, r, c, hi, hj, hk, hl, hr, hc, h⟩ := cells_nest hx
    refine Or.inr ⟨j, hj, l, hl, k, hk, ?_⟩
    rcases i with _ | i
    · exact Or.inl ⟨r, hr, c, hc, h⟩
    · exact Or.inr ⟨i, by omega, r, hr, c, hc, h⟩
  all_goals omega

theorem nabla1j2_fill {a : α} (C : OpCtx h0 f g e ![li,lj,lk,ll] src e.nrys_roots w (dVal a 1 w))
    (hs : ∀ t', bump ![li,lj,lk,ll] 1 t' ≤ src t') :
    Fill h0 (CellsM f e ![li,lj,lk,ll] e.nrys_roots (dVal a 1 w)) P (CellsM f e ![li,lj,lk,ll] e.nrys_roots (dVal a 1 w))
      (nabla1j2 e a f g li lj lk ll) := by
  unfold nabla1j2 perRoot
  refine Fill.mono (Fill.seq (Fill.forN' fun l _ _ hl => Fill.forN' fun k _ _ hk => Fill.forN' fun i _ _ hi => Fill.forN' fun r _ _ hr => Fill.forN' fun c _ _ hc => dLow_fill (m := ![i,0,k,l]) (r := r) (t := 1) C rfl ?_ hc (le_vec ?_ ?_ ?_ ?_) hr (bump_le (le_vec ?_ ?_ ?_ ?_) hs)
        (dVal_zero _ _ _ _ _ _ rfl))
    (Fill.forN' fun j _ _ hj => Fill.forN' fun l _ _ hl => Fill.forN' fun k _ _ hk => Fill.forN' fun i _ _ hi => Fill.forN' fun r _ _ hr => Fill.forN' fun c _ _ hc => dHigh_fill (m := ![i,j+1,k,l]) (r := r) (t := 1) C rfl ?_ rfl (Nat.succ_pos _) hc (le_vec ?_ ?_ ?_ ?_) hr
        (bump_le (le_vec ?_ ?_ ?_ ?_) hs) rfl)) ?_
  case refine_1 => rw [slab4vec]; ring
  case refine_10 => rw [slab4vec]; ring
  case refine_19 =>
    intro q x hx _
    obtain ⟨i, j, k, l, r, c, hi, hj, hk, hl, hr, hc, h⟩ := cells_nest hx
    rcases j with _ | j
    · exact Or.inr (Or.inl ⟨l, hl, k, hk, i, hi, r, hr, c, hc, h⟩)
    · exact Or.inr (Or.inr ⟨j, by omega, l, hl, k, hk, i, hi, r, hr, c, hc, h⟩)
  all_goals omega

theorem nabla1k2_fill {a : α} (C : OpCtx h0 f g e ![li,lj,lk,ll] src e.nrys_roots w (dVal a 2 w))
    (hs : ∀ t', bump ![li,lj,lk,ll] 2 t' ≤ src t') :
    Fill h0 (CellsM f e ![li,lj,lk,ll] e.nrys_roots (dVal a 2 w)) P (CellsM f e ![li,lj,lk,ll] e.nrys_roots (dVal a 2 w))
      (nabla1k2 e a f g li lj lk ll) := by
  unfold nabla1k2 perRoot
  refine Fill.mono (Fill.forN' fun j _ _ hj => Fill.forN' fun l _ _ hl => Fill.seq (Fill.forN' fun i _ _ hi => Fill.forN' fun r _ _ hr => Fill.forN' fun c _ _ hc => dLow_fill (m := ![i,j,0,l]) (r := r) (t := 2) C rfl ?_ hc (le_vec ?_ ?_ ?_ ?_) hr (bump_le (le_vec ?_ ?_ ?_ ?_) hs)
        (dVal_zero _ _ _ _ _ _ rfl))
    (Fill.forN' fun k _ _ hk => Fill.forN' fun i _ _ hi => Fill.forN' fun r _ _ hr => Fill.forN' fun c _ _ hc => dHigh_fill (m := ![i,j,k+1,l]) (r := r) (t := 2) C rfl ?_ rfl (Nat.succ_pos _) hc (le_vec ?_ ?_ ?_ ?_) hr
        (bump_le (le_vec ?_ ?_ ?_ ?_) hs) rfl)) ?_
  case refine_1 => rw [slab4vec]; ring
  case refine_10 => rw [slab4vec]; ring
  case refine_19 =>
    intro q x hx _
    obtain ⟨i, j, k, l, r, c, hi, hj, hk, hl, hr, hc, h⟩ := cells_nest hx
    rcases k with _ | k
    · exact Or.inr ⟨j, hj, l, hl, Or.inl ⟨i, hi, r, hr, c, hc, h⟩⟩
    · exact Or.inr ⟨j, hj, l, hl, Or.inr ⟨k, by omega, i, hi, r, hr, c, hc, h⟩⟩
  all_goals omega

theorem nabla1l2_fill {a : α} (C : OpCtx h0 f g e ![li,lj,lk,ll] src e.nrys_roots w (dVal a 3 w))
    (hs : ∀ t', bump ![li,lj,lk,ll] 3 t' ≤ src t') :
    Fill h0 (CellsM f e ![li,lj,lk,ll] e.nrys_roots (dVal a 3 w)) P (CellsM f e ![li,lj,lk,ll] e.nrys_roots (dVal a 3 w))
      (nabla1l2 e a f g li lj lk ll) := by
  unfold nabla1l2 perRoot
  refine Fill.mono (Fill.forN' fun j _ _ hj => Fill.seq (Fill.forN' fun k _ _ hk => Fill.forN' fun i _ _ hi => Fill.forN' fun r _ _ hr => Fill.forN' fun c _ _ hc => dLow_fill (m := ![i,j,k,0]) (r := r) (t := 3) C rfl ?_ hc (le_vec ?_ ?_ ?_ ?_) hr (bump_le (le_vec ?_ ?_ ?_ ?_) hs)
        (dVal_zero _ _ _ _ _ _ rfl))
    (Fill.forN' fun l _ _ hl => Fill.forN' fun k _ _ hk => Fill.forN' fun i _ _ hi => Fill.forN' fun r _ _ hr => Fill.forN' fun c _ _ hc => dHigh_fill (m := ![i,j,k,l+1]) (r := r) (t := 3) C rfl ?_ rfl (Nat.succ_pos _) hc (le_vec ?_ ?_ ?_ ?_) hr
        (bump_le (le_vec ?_ ?_ ?_ ?_) hs) rfl)) ?_
  case refine_1 => rw [slab4vec]; ring
  case refine_10 => rw [slab4vec]; ring
  case refine_19 =>
    intro q x hx _
    obtain ⟨i, j, k, l, r, c, hi, hj, hk, hl, hr, hc, h⟩ := cells_nest hx
    rcases l with _ | l
    · exact Or.inr ⟨j, hj, Or.inl ⟨k, hk, i, hi, r, hr, c, hc, h⟩⟩
    · exact Or.inr ⟨j, hj, Or.inr ⟨l, by omega, k, hk, i, hi, r, hr, c, hc, h⟩⟩
  all_goals omega

theorem x2e_fill {s : Nat} {t : Fin 4} {rr : Nat → α} (ht : s = strideM e t)
    (C : OpCtx h0 f g e ![li,lj,lk,ll] src e.nrys_roots w (xVal rr t w))
    (hs : ∀ t', bump ![li,lj,lk,ll] t t' ≤ src t') :
    Fill h0 (CellsM f e ![li,lj,lk,ll] e.nrys_roots (xVal rr t w)) P (CellsM f e ![li,lj,lk,ll] e.nrys_roots (xVal rr t w))
      (x2e e s rr f g li lj lk ll) := by
  unfold x2e perRoot
  refine Fill.mono (Fill.forN' fun j _ _ hj => Fill.forN' fun l _ _ hl => Fill.forN' fun k _ _ hk => Fill.forN' fun i _ _ hi =>
    Fill.forN' fun r _ _ hr => Fill.forN' fun c _ _ hc =>
      xMul_fill (m := ![i,j,k,l]) (r := r) (t := t) C ht ?_ hc (le_vec ?_ ?_ ?_ ?_) hr (bump_le (le_vec ?_ ?_ ?_ ?_) hs) rfl) ?_
  case refine_1 => rw [slab4vec]; ring
  case refine_10 =>
    intro q x hx _
    obtain ⟨i, j, k, l, r, c, hi, hj, hk, hl, hr, hc, h⟩ := cells_nest hx
    exact Or.inr ⟨j, hj, l, hl, k, hk, i, hi, r, hr, c, hc, h⟩
  all_goals omega

theorem nabla1i_fill {a : α} (h1 : e.g_stride_i = 1) (C : OpCtx h0 f g e ![li,lj,lk,0] src 1 w (dVal a 0 w))
    (hs : ∀ t', bump ![li,lj,lk,0] 0 t' ≤ src t') :
    Fill h0 (CellsM f e ![li,lj,lk,0] 1 (dVal a 0 w)) P (CellsM f e ![li,lj,lk,0] 1 (dVal a 0 w))
      (nabla1i e a f g li lj lk) := by
  unfold nabla1i
  refine Fill.mono (Fill.forN' fun k _ _ hk => Fill.forN' fun j _ _ hj => Fill.seq (Fill.forN' fun c _ _ hc => dLow_fill (m := ![0,j,k,0]) (r := 0) (t := 0) C h1.symm ?_ hc (le_vec ?_ ?_ ?_ ?_) Nat.one_pos (bump_le (le_vec ?_ ?_ ?_ ?_) hs)
        (dVal_zero _ _ _ _ _ _ rfl))
    (Fill.forN' fun i _ _ hi => Fill.forN' fun c _ _ hc => dHigh_fill (m := ![i+1,j,k,0]) (r := 0) (t := 0) C h1.symm ?_ rfl (Nat.succ_pos _) hc (le_vec ?_ ?_ ?_ ?_) Nat.one_pos
        (bump_le (le_vec ?_ ?_ ?_ ?_) hs) rfl)) ?_
  case refine_1 => rw [slab4vec, h1]; ring
  case refine_10 => rw [slab4vec, h1]; ring
  case refine_19 =>
    intro q x hx _
    obtain ⟨i, j, k, l, r, c, hi, hj, hk, hl, hr, hc, h⟩ := cells_nest hx
    obtain rfl : l = 0 := by omega
    obtain rfl : r = 0 := by omega
    rcases i with _ | i
    · exact Or.inr ⟨k, hk, j, hj, Or.inl ⟨c, hc, h⟩⟩
    · exact Or.inr ⟨k, hk, j, hj, Or.inr ⟨i, by omega, c, hc, h⟩⟩
  all_goals omega

theorem nabla1j_fill {a : α} (h1 : e.g_stride_i = 1) (C : OpCtx h0 f g e ![li,lj,lk,0] src 1 w (dVal a 1 w))
    (hs : ∀ t', bump ![li,lj,lk,0] 1 t' ≤ src t') :
    Fill h0 (CellsM f e ![li,lj,lk,0] 1 (dVal a 1 w)) P (CellsM f e ![li,lj,lk,0] 1 (dVal a 1 w))
      (nabla1j e a f g li lj lk) := by
  unfold nabla1j
  refine Fill.mono (Fill.forN' fun k _ _ hk => Fill.seq (Fill.forN' fun i _ _ hi => Fill.forN' fun c _ _ hc => dLow_fill (m := ![i,0,k,0]) (r := 0) (t := 1) C rfl ?_ hc (le_vec ?_ ?_ ?_ ?_) Nat.one_pos (bump_le (le_vec ?_ ?_ ?_ ?_) hs)
        (dVal_zero _ _ _ _ _ _ rfl))
    (Fill.forN' fun j _ _ hj => Fill.forN' fun i _ _ hi => Fill.forN' fun c _ _ hc => dHigh_fill (m := ![i,j+1,k,0]) (r := 0) (t := 1) C rfl ?_ rfl (Nat.succ_pos _) hc (le_vec ?_ ?_ ?_ ?_) Nat.one_pos
        (bump_le (le_vec ?_ ?_ ?_ ?_) hs) rfl)) ?_
  case refine_1 => rw [slab4vec, h1]; ring
  case refine_10 => rw [slab4vec, h1]; ring
  case refine_19 =>
    intro q x hx _
    obtain ⟨i, j, k, l, r, c, hi, hj, hk, hl, hr, hc, h⟩ := cells_nest hx
    obtain rfl : l = 0 := by omega
    obtain rfl : r = 0 := by omega
    rcases j with _ | j
    · exact Or.inr ⟨k, hk, Or.inl ⟨i, hi, c, hc, h⟩⟩
    · exact Or.inr ⟨k, hk, Or.inr ⟨j, by omega, i, hi, c, hc, h⟩⟩
  all_goals omega

theorem nabla1k_fill {a : α} (h1 : e.g_stride_i = 1) (C : OpCtx h0 f g e ![li,lj,lk,0] src 1 w (dVal a 2 w))
    (hs : ∀ t', bump ![li,lj,lk,0] 2 t' ≤ src t') :
    Fill h0 (CellsM f e ![li,lj,lk,0] 1 (dVal a 2 w)) P (CellsM f e ![li,lj,lk,0] 1 (dVal a 2 w))
      (nabla1k e a f g li lj lk) := by
  unfold nabla1k
  refine Fill.mono (Fill.seq (Fill.forN' fun j _ _ hj => Fill.forN' fun i _ _ hi => Fill.forN' fun c _ _ hc => dLow_fill (m := ![i,j,0,0]) (r := 0) (t := 2) C rfl ?_ hc (le_vec ?_ ?_ ?_ ?_) Nat.one_pos (bump_le (le_vec ?_ ?_ ?_ ?_) hs)
        (dVal_zero _ _ _ _ _ _ rfl))
    (Fill.forN' fun k _ _ hk => Fill.forN' fun j _ _ hj => Fill.forN' fun i _ _ hi => Fill.forN' fun c _ _ hc => dHigh_fill (m := ![i,j,k+1,0]) (r := 0) (t := 2) C rfl ?_ rfl (Nat.succ_pos _) hc (le_vec ?_ ?_ ?_ ?_) Nat.one_pos
        (bump_le (le_vec ?_ ?_ ?_ ?_) hs) rfl)) ?_
  case refine_1 => rw [slab4vec, h1]; ring
  case refine_10 => rw [slab4vec, h1]; ring
  case refine_19 =>
    intro q x hx _
    obtain ⟨i, j, k, l, r, c, hi, hj, hk, hl, hr, hc, h⟩ := cells_nest hx
    obtain rfl : l = 0 := by omega
    obtain rfl : r = 0 := by omega
    rcases k with _ | k
    · exact Or.inr (Or.inl ⟨j, hj, i, hi, c, hc, h⟩)
    · exact Or.inr (Or.inr ⟨k, by omega, j, hj, i, hi, c, hc, h⟩)
  all_goals omega

theorem x1e_fill {s : Nat} {t : Fin 4} {rr : Nat → α} (h1 : e.g_stride_i = 1) (ht : s = strideM e t)
    (C : OpCtx h0 f g e ![li,lj,lk,0] src 1 w (xVal rr t w))
    (hs : ∀ t', bump ![li,lj,lk,0] t t' ≤ src t') :
    Fill h0 (CellsM f e ![li,lj,lk,0] 1 (xVal rr t w)) P (CellsM f e ![li,lj,lk,0] 1 (xVal rr t w))
      (x1e e s rr f g li lj lk) := by
  unfold x1e
  refine Fill.mono (Fill.forN' fun k _ _ hk => Fill.forN' fun j _ _ hj => Fill.forN' fun i _ _ hi => Fill.forN' fun c _ _ hc =>
      xMul_fill (m := ![i,j,k,0]) (r := 0) (t := t) C ht ?_ hc (le_vec ?_ ?_ ?_ ?_) Nat.one_pos
        (bump_le (le_vec ?_ ?_ ?_ ?_) hs) rfl) ?_
  case refine_1 => rw [slab4vec, h1]; ring
  case refine_10 =>
    intro q x hx _
    obtain ⟨i, j, k, l, r, c, hi, hj, hk, hl, hr, hc, h⟩ := cells_nest hx
    obtain rfl : l = 0 := by omega
    obtain rfl : r = 0 := by omega
    exact Or.inr ⟨k, hk, j, hj, i, hi, c, hc, h⟩
  all_goals omega
end
end Verif.Lemmas
