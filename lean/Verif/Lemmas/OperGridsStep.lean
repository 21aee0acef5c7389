import Verif.Model.OperGrids
import Verif.Lemmas.OperRys

/-! Derivatives of intermediates on a block of points: only the cells of points of the block are written. -/
namespace Verif.Lemmas
open Verif Verif.Model Verif.Prog

variable {α : Type} [Field α]

/-- the places of the `b` points of the block for all roots -/
def gridRt (nr b r : Nat) : Prop := ∃ n ig, n < nr ∧ ig < b ∧ r = ig + 104*n

theorem gridRt_lt {nr b r : Nat} (hb : b ≤ 104) (h : gridRt nr b r) : r < 104*nr := by
  obtain ⟨n, ig, h1, h2, rfl⟩ := h; omega

/-- a table of intermediates with powers up to `lim`, for the roots in `Rt` -/
def TabP (h : Heap α) (g : Ptr) (e : EnvG) (lim : Fin 4 → Nat) (Rt : Nat → Prop) (v : Nat → (Fin 4 → Nat) → Nat → α) : Prop :=
  ∀ c m r, c < 3 → (∀ t, m t ≤ lim t) → Rt r → h.D (gAx g e c (slabM e m r)) = .val (v c m r)

/-- the cells of such a table -/
def CellsP (g : Ptr) (e : EnvG) (lim : Fin 4 → Nat) (Rt : Nat → Prop) (v : Nat → (Fin 4 → Nat) → Nat → α) (q : Ptr) (x : α) : Prop :=
  ∃ c m r, c < 3 ∧ (∀ t, m t ≤ lim t) ∧ Rt r ∧ q = gAx g e c (slabM e m r) ∧ x = v c m r

/-- what a step needs -/
structure OpCtxP (h0 : Heap α) (f g : Ptr) (e : EnvG) (lim src : Fin 4 → Nat) (Rt : Nat → Prop)
    (w v : Nat → (Fin 4 → Nat) → Nat → α) : Prop where
  slab : ∃ lim' R, SlabM e lim' R ∧ (∀ t, lim t ≤ lim' t) ∧ ∀ r, Rt r → r < R
  alloc : ∀ q x, CellsP f e lim Rt v q x → h0.D q ≠ .oob
  tab : TabP h0 g e src Rt w
  disj : ∀ c m r, c < 3 → (∀ t, m t ≤ src t) → Rt r → ∀ x, ¬ CellsP f e lim Rt v (gAx g e c (slabM e m r)) x

section
variable {h0 : Heap α} {f g : Ptr} {e : EnvG} {lim src : Fin 4 → Nat} {Rt : Nat → Prop}
  {w v : Nat → (Fin 4 → Nat) → Nat → α} {P : Ptr → α → Prop} {m : Fin 4 → Nat} {r c n : Nat}

theorem OpCtxP.func (C : OpCtxP h0 f g e lim src Rt w v) (q : Ptr) (x y : α) (hx : CellsP f e lim Rt v q x)
    (hy : CellsP f e lim Rt v q y) : x = y := by
  obtain ⟨lim', R, hS, hl, hR⟩ := C.slab
  obtain ⟨c, m, r, h1, h2, h3, rfl, rfl⟩ := hx
  obtain ⟨c', m', r', h1', h2', h3', e1, rfl⟩ := hy
  obtain ⟨rfl, rfl, rfl⟩ := gAx_slab_inj hS (fun t => le_trans (h2 t) (hl t)) (hR _ h3) (fun t => le_trans (h2' t) (hl t)) (hR _ h3') e1
  rfl

theorem OpCtxP.rd (C : OpCtxP h0 f g e lim src Rt w v) {h : Heap α} (H : FillInv h0 (CellsP f e lim Rt v) h)
    (hc : c < 3) (hm : ∀ t, m t ≤ src t) (hr : Rt r) : h.D (gAx g e c (slabM e m r)) = .val (w c m r) := by
  rw [Fill.keep H (C.disj c m r hc hm hr)]
  exact C.tab c m r hc hm hr

theorem OpCtxP.wr (C : OpCtxP h0 f g e lim src Rt w v) {h : Heap α} (H : FillInv h0 (CellsP f e lim Rt v) h)
    (HP : Filled (CellsP f e lim Rt v) h P)
    (hc : c < 3) (hm : ∀ t, m t ≤ lim t) (hr : Rt r) {x : α} (hx : x = v c m r) :
    h.D (gAx f e c (slabM e m r)) ≠ .oob ∧ (FillInv h0 (CellsP f e lim Rt v) (h.setD (gAx f e c (slabM e m r)) x) ∧
      Filled (CellsP f e lim Rt v) (h.setD (gAx f e c (slabM e m r)) x) P ∧
      Filled (CellsP f e lim Rt v) (h.setD (gAx f e c (slabM e m r)) x) (cellM f e v m r c)) := by
  have hV : CellsP f e lim Rt v (gAx f e c (slabM e m r)) x := ⟨c, m, r, hc, hm, hr, rfl, hx⟩
  exact ⟨Fill.alloc H (C.alloc _ _ hV), Fill.set C.func H HP hV (fun q' x' h1 _ => Or.inr h1.1)⟩

theorem dLow_fillP (C : OpCtxP h0 f g e lim src Rt w v) {t : Fin 4} {s : Nat} {a2 : α}
    (hs : s = strideM e t) (hn : n = slabM e m r) (hc : c < 3) (hm : ∀ t, m t ≤ lim t) (hr : Rt r)
    (hb : ∀ t', bump m t t' ≤ src t') (hv : v c m r = a2 * w c (bump m t) r) :
    Fill h0 (CellsP f e lim Rt v) P (cellM f e v m r c) (dLow e f g s a2 c n) := by
  subst hs hn
  intro h H HP
  unfold dLow
  simp only [wp_mbind, wp_ld, wp_st]
  rw [← slabM_bump]
  exact ⟨_, C.rd H hc hb hr, C.wr H HP hc hm hr hv.symm⟩

theorem dHigh_fillP (C : OpCtxP h0 f g e lim src Rt w v) {t : Fin 4} {s k : Nat} {a2 : α}
    (hs : s = strideM e t) (hn : n = slabM e m r) (hk : k = m t) (h0k : 0 < k) (hc : c < 3) (hm : ∀ t, m t ≤ lim t) (hr : Rt r)
    (hb : ∀ t', bump m t t' ≤ src t') (hv : v c m r = (m t : α) * w c (drop m t) r + a2 * w c (bump m t) r) :
    Fill h0 (CellsP f e lim Rt v) P (cellM f e v m r c) (dHigh e f g s a2 k c n) := by
  subst hs hn hk
  intro h H HP
  unfold dHigh
  simp only [wp_mbind, wp_ld, wp_st]
  rw [← slabM_bump, ← slabM_drop e m t r h0k]
  refine ⟨_, C.rd H hc (fun t' => ?_) hr, _, C.rd H hc hb hr, C.wr H HP hc hm hr hv.symm⟩
  refine le_trans ?_ (hb t')
  unfold drop bump
  rcases eq_or_ne t' t with rfl | h
  · simp only [Function.update_self]; omega
  · simp only [Function.update_of_ne h, le_refl]
end

section
variable {h0 : Heap α} {f g : Ptr} {e : EnvG} {li lj b : Nat} {src : Fin 4 → Nat}
  {w : Nat → (Fin 4 → Nat) → Nat → α} {P : Ptr → α → Prop}

omit [Field α] in
theorem cellsP_nest {v : Nat → (Fin 4 → Nat) → Nat → α} {q : Ptr} {x : α}
    (h : CellsP f e ![li,lj,0,0] (gridRt e.nrys_roots b) v q x) :
    ∃ i j n ig c, i < li+1 ∧ j < lj+1 ∧ n < e.nrys_roots ∧ ig < b ∧ c < 3 ∧ cellM f e v ![i,j,0,0] (ig+104*n) c q x := by
  obtain ⟨c, m, r, hc, hm, ⟨n, ig, hn, hig, rfl⟩, h1, h2⟩ := h
  have e2 : m 2 = 0 := Nat.le_zero.1 (hm 2)
  have e3 : m 3 = 0 := Nat.le_zero.1 (hm 3)
  have e : m = ![m 0, m 1, 0, 0] := by
    funext t; fin_cases t
    · rfl
    · rfl
    · exact e2
    · exact e3
  refine ⟨m 0, m 1, n, ig, c, Nat.lt_succ_of_le (hm 0), Nat.lt_succ_of_le (hm 1), hn, hig, hc, ?_⟩
  rw [← e]
  exact ⟨h1, h2⟩

theorem nabla1iGrids_fill {a : α} (C : OpCtxP h0 f g e ![li,lj,0,0] src (gridRt e.nrys_roots b) w (dVal a 0 w))
    (hs : ∀ t', bump ![li,lj,0,0] 0 t' ≤ src t') :
    Fill h0 (CellsP f e ![li,lj,0,0] (gridRt e.nrys_roots b) (dVal a 0 w)) P
      (CellsP f e ![li,lj,0,0] (gridRt e.nrys_roots b) (dVal a 0 w)) (nabla1iGrids e a b f g li lj) := by
  unfold nabla1iGrids perPoint
  refine Fill.mono (Fill.forN' fun j _ _ hj =>
    Fill.seq (Fill.forN' fun n _ _ hn => Fill.forN' fun ig _ _ hig => Fill.forN' fun c _ _ hc =>
      dLow_fillP (m := ![0,j,0,0]) (r := ig+104*n) (t := 0) C rfl ?_ hc (le_vec ?_ ?_ ?_ ?_) ⟨n, ig, hn, hig, rfl⟩
        (bump_le (le_vec ?_ ?_ ?_ ?_) hs) (dVal_zero _ _ _ _ _ _ rfl))
      (Fill.forN' fun i _ _ hi => Fill.forN' fun n _ _ hn => Fill.forN' fun ig _ _ hig => Fill.forN' fun c _ _ hc =>
      dHigh_fillP (m := ![i+1,j,0,0]) (r := ig+104*n) (t := 0) C rfl ?_ rfl (Nat.succ_pos _) hc (le_vec ?_ ?_ ?_ ?_)
        ⟨n, ig, hn, hig, rfl⟩ (bump_le (le_vec ?_ ?_ ?_ ?_) hs) rfl)) ?_
  case refine_1 => rw [slab4vec]; ring
  case refine_10 => rw [slab4vec]; ring
  case refine_19 =>
    intro q x hx _
    obtain ⟨i, j, n, ig, c, hi, hj, hn, hig, hc, h⟩ := cellsP_nest hx
    refine Or.inr ⟨j, hj, ?_⟩
    rcases i with _ | i
    · exact Or.inl ⟨n, hn, ig, hig, c, hc, h⟩
    · exact Or.inr ⟨i, by omega, n, hn, ig, hig, c, hc, h⟩
  all_goals omega

theorem nabla1jGrids_fill {a : α} (C : OpCtxP h0 f g e ![li,lj,0,0] src (gridRt e.nrys_roots b) w (dVal a 1 w))
    (hs : ∀ t', bump ![li,lj,0,0] 1 t' ≤ src t') :
    Fill h0 (CellsP f e ![li,lj,0,0] (gridRt e.nrys_roots b) (dVal a 1 w)) P
      (CellsP f e ![li,lj,0,0] (gridRt e.nrys_roots b) (dVal a 1 w)) (nabla1jGrids e a b f g li lj) := by
  unfold nabla1jGrids perPoint
  refine Fill.mono (Fill.seq (Fill.forN' fun i _ _ hi => Fill.forN' fun n _ _ hn => Fill.forN' fun ig _ _ hig =>
    Fill.forN' fun c _ _ hc =>
      dLow_fillP (m := ![i,0,0,0]) (r := ig+104*n) (t := 1) C rfl ?_ hc (le_vec ?_ ?_ ?_ ?_) ⟨n, ig, hn, hig, rfl⟩
        (bump_le (le_vec ?_ ?_ ?_ ?_) hs) (dVal_zero _ _ _ _ _ _ rfl))
      (Fill.forN' fun j _ _ hj => Fill.forN' fun i _ _ hi => Fill.forN' fun n _ _ hn => Fill.forN' fun ig _ _ hig =>
        Fill.forN' fun c _ _ hc =>
      dHigh_fillP (m := ![i,j+1,0,0]) (r := ig+104*n) (t := 1) C rfl ?_ rfl (Nat.succ_pos _) hc (le_vec ?_ ?_ ?_ ?_)
        ⟨n, ig, hn, hig, rfl⟩ (bump_le (le_vec ?_ ?_ ?_ ?_) hs) rfl)) ?_
  case refine_1 => rw [slab4vec]; ring
  case refine_10 => rw [slab4vec]; ring
  case refine_19 =>
    intro q x hx _
    obtain ⟨i, j, n, ig, c, hi, hj, hn, hig, hc, h⟩ := cellsP_nest hx
    rcases j with _ | j
    · exact Or.inr (Or.inl ⟨i, hi, n, hn, ig, hig, c, hc, h⟩)
    · exact Or.inr (Or.inr ⟨j, by omega, i, hi, n, hn, ig, hig, c, hc, h⟩)
  all_goals omega
end

/-- the surroundings of a run of derivatives -/
structure StepCtxG (e : EnvG) (L : Fin 4 → Nat) (b n leng : Nat) : Prop where
  slab : SlabM e L (104*e.nrys_roots)
  leng : n * (3 * e.g_size) ≤ leng
  hb : b ≤ 104
  kl : L 2 = 0 ∧ L 3 = 0

structure SlotG (D : OpData α) (v0 : Nat → (Fin 4 → Nat) → Nat → α) (e : EnvG) (L : Fin 4 → Nat) (b n : Nat)
    (g : Ptr) (h : Heap α) (k : Nat) (y : Sym) : Prop where
  base : k < n
  bnd : ∀ t, angOf e t + y.inc t ≤ L t
  tab : TabP h (g + k*(3*e.g_size)) e (fun t => angOf e t + y.inc t) (gridRt e.nrys_roots b) (symVal D v0 y.word)

structure StepInvG (D : OpData α) (v0 : Nat → (Fin 4 → Nat) → Nat → α) (e : EnvG) (L : Fin 4 → Nat) (b n leng : Nat)
    (g : Ptr) (h0 : Heap α) (st : SymSt) (h : Heap α) : Prop where
  int : h.I = h0.I
  agree : AgreeD h0 h (Blk g leng)
  alloc : ∀ q, Blk g leng q → h.D q ≠ .oob
  slot : ∀ k y, st k = some y → SlotG D v0 e L b n g h k y

/-- the derivatives the functions use -/
def stepG (s : GStep) : Bool := decide (s.op = .d ∧ (s.t = 0 ∨ s.t = 1))

section
variable {D : OpData α} {v0 : Nat → (Fin 4 → Nat) → Nat → α} {e : EnvG} {L : Fin 4 → Nat} {b n leng : Nat}
  {g : Ptr} {h0 h : Heap α} {st : SymSt}

omit [Field α] in
theorem blk_slab (C : StepCtxG e L b n leng) {k c r : Nat} {m : Fin 4 → Nat} (hk : k < n) (hc : c < 3) (hm : ∀ t, m t ≤ L t)
    (hr : gridRt e.nrys_roots b r) : Blk g leng (gAx (g + k*(3*e.g_size)) e c (slabM e m r)) := by
  refine ⟨(k*3+c)*e.g_size + slabM e m r, ?_, ?_⟩
  · have h1 := C.slab.range m r hm (gridRt_lt C.hb hr)
    have h2 : (k*3+c) + 1 ≤ n * 3 := by omega
    have h3 := Nat.mul_le_mul_right e.g_size h2
    have h4 := C.leng
    have : n * (3 * e.g_size) = n * 3 * e.g_size := by ring
    rw [Nat.add_mul, Nat.one_mul] at h3
    omega
  · unfold gAx
    rw [Ptr.add_assoc]
    congr 1
    ring

omit [Field α] in
theorem slab_ne (C : StepCtxG e L b n leng) {k k' c c' r r' : Nat} {m m' : Fin 4 → Nat} (hk : k ≠ k') (hc : c < 3) (hc' : c' < 3)
    (hm : ∀ t, m t ≤ L t) (hr : gridRt e.nrys_roots b r) (hm' : ∀ t, m' t ≤ L t) (hr' : gridRt e.nrys_roots b r') :
    gAx (g + k*(3*e.g_size)) e c (slabM e m r) ≠ gAx (g + k'*(3*e.g_size)) e c' (slabM e m' r') := by
  intro h
  unfold gAx at h
  rw [Ptr.add_assoc, Ptr.add_assoc, show k*(3*e.g_size) + (c*e.g_size + slabM e m r) = (k*3+c)*e.g_size + slabM e m r by ring,
    show k'*(3*e.g_size) + (c'*e.g_size + slabM e m' r') = (k'*3+c')*e.g_size + slabM e m' r' by ring] at h
  have := radix_inj (C.slab.range m r hm (gridRt_lt C.hb hr)) (C.slab.range m' r' hm' (gridRt_lt C.hb hr'))
    ((Ptr.add_right_inj _ _ _).1 h)
  omega

theorem execStepG_wp (C : StepCtxG e L b n leng) {s : GStep} {st' : SymSt} (hsG : stepG s = true)
    (hs : stepSym n s st = some st') (H : StepInvG D v0 e L b n leng g h0 st h) :
    wp (execStepG e D b (fun k => g + k*(3*e.g_size)) s) (fun _ h' => StepInvG D v0 e L b n leng g h0 st' h') h := by
  have hsG' : s.op = .d ∧ (s.t = 0 ∨ s.t = 1) := by simpa [stepG] using hsG
  obtain ⟨hop, ht⟩ := hsG'
  have hop' : s.op ≠ .own := by rw [hop]; decide
  unfold stepSym at hs
  cases hsrc : st s.src with
  | none => rw [hsrc] at hs; exact absurd hs (by simp)
  | some y =>
    rw [hsrc] at hs
    dsimp only at hs
    by_cases hd : (st s.dst).isNone
    swap
    · rw [if_neg hd] at hs; exact absurd hs (by simp)
    rw [if_pos hd] at hs
    have hdn : st s.dst = none := by simpa using hd
    have Sy := H.slot _ _ hsrc
    rw [if_neg hop'] at hs
    by_cases hc : s.dst < n ∧ ∀ t', bump s.inc s.t t' ≤ y.inc t'
    swap
    · rw [if_neg hc] at hs; exact absurd hs (by simp)
    rw [if_pos hc] at hs
    obtain rfl := (Option.some.inj hs).symm
    obtain ⟨hdn', hinc⟩ := hc
    have hincle : ∀ t, s.inc t ≤ y.inc t := by
      intro t
      refine le_trans ?_ (hinc t)
      unfold bump
      rcases eq_or_ne t s.t with rfl | hne
      · simp only [Function.update_self]; omega
      · simp only [Function.update_of_ne hne]; omega
    have hL : ∀ t, angOf e t + s.inc t ≤ L t := fun t => by have := hincle t; have := Sy.bnd t; omega
    have hbs : ∀ t', bump (fun t => angOf e t + s.inc t) s.t t' ≤ angOf e t' + y.inc t' := by
      intro t
      have := hinc t
      unfold bump at this ⊢
      rcases eq_or_ne t s.t with rfl | hne
      · simp only [Function.update_self] at this ⊢; omega
      · simp only [Function.update_of_ne hne] at this ⊢; omega
    have hkd' : ∀ k y', st k = some y' → k ≠ s.dst := by
      rintro k y' hk rfl
      rw [hdn] at hk; exact absurd hk (by simp)
    have hdisj : ∀ k y', st k = some y' → ∀ {v : Nat → (Fin 4 → Nat) → Nat → α} {c m r}, c < 3 →
        (∀ t, m t ≤ angOf e t + y'.inc t) → gridRt e.nrys_roots b r →
        ∀ x, ¬ CellsP (g + s.dst*(3*e.g_size)) e (fun t => angOf e t + s.inc t) (gridRt e.nrys_roots b) v
          (gAx (g + k*(3*e.g_size)) e c (slabM e m r)) x := by
      rintro k y' hk v c m r hc hm hr x ⟨c', m', r', h1, h2, h3, h4, _⟩
      exact slab_ne C (hkd' k y' hk) hc h1 (fun t => le_trans (hm t) ((H.slot k y' hk).bnd t)) hr
        (fun t => le_trans (h2 t) (hL t)) h3 h4
    have hblk : ∀ {v : Nat → (Fin 4 → Nat) → Nat → α} {q x}, CellsP (g + s.dst*(3*e.g_size)) e (fun t => angOf e t + s.inc t)
        (gridRt e.nrys_roots b) v q x → Blk g leng q := by
      rintro v q x ⟨c', m', r', h1, h2, h3, rfl, _⟩
      exact blk_slab C hdn' h1 (fun t => le_trans (h2 t) (hL t)) h3
    have O : OpCtxP h (g + s.dst*(3*e.g_size)) (g + s.src*(3*e.g_size)) e (fun t => angOf e t + s.inc t)
        (fun t => angOf e t + y.inc t) (gridRt e.nrys_roots b) (symVal D v0 y.word) (opVal D (s.op, s.t) (symVal D v0 y.word)) :=
      ⟨⟨L, _, C.slab, hL, fun r hr => gridRt_lt C.hb hr⟩, fun q x hx => H.alloc q (hblk hx), Sy.tab,
        fun c m r hc hm hr => hdisj _ _ hsrc hc hm hr⟩
    have F : Fill h (CellsP (g + s.dst*(3*e.g_size)) e (fun t => angOf e t + s.inc t) (gridRt e.nrys_roots b)
        (opVal D (s.op, s.t) (symVal D v0 y.word))) (fun _ _ => False)
        (CellsP (g + s.dst*(3*e.g_size)) e (fun t => angOf e t + s.inc t) (gridRt e.nrys_roots b)
        (opVal D (s.op, s.t) (symVal D v0 y.word))) (execStepG e D b (fun k => g + k*(3*e.g_size)) s) := by
      have h2 : angOf e 2 + s.inc 2 = 0 := Nat.le_zero.1 (C.kl.1 ▸ hL 2)
      have h3 : angOf e 3 + s.inc 3 = 0 := Nat.le_zero.1 (C.kl.2 ▸ hL 3)
      have hvec : (fun t => angOf e t + s.inc t) = ![angOf e 0 + s.inc 0, angOf e 1 + s.inc 1, 0, 0] := by
        funext t; fin_cases t
        · rfl
        · rfl
        · exact h2
        · exact h3
      rw [hvec] at O hbs ⊢
      unfold execStepG
      dsimp only
      rcases ht with ht | ht
      · rw [if_pos ⟨hop, ht⟩]
        rw [hop, ht] at O ⊢
        rw [ht] at hbs
        exact nabla1iGrids_fill O hbs
      · rw [if_neg (by rw [ht]; simp), if_pos ⟨hop, ht⟩]
        rw [hop, ht] at O ⊢
        rw [ht] at hbs
        exact nabla1jGrids_fill O hbs
    refine wp_mono (F.start (fun _ _ hx => hx.elim)) ?_
    rintro _ h' ⟨a1, _, a3⟩
    refine ⟨by rw [a1.I]; exact H.int, ?_, fun q hq => Fill.alloc a1 (H.alloc q hq), ?_⟩
    · intro q hq
      rw [Fill.keep a1 (fun x hx => hq (hblk hx))]
      exact H.agree q hq
    · intro k y' hk
      unfold SymSt.set at hk
      by_cases hkd : k = s.dst
      · rw [if_pos hkd] at hk
        obtain rfl := (Option.some.inj hk).symm
        subst hkd
        refine ⟨hdn', hL, ?_⟩
        intro c m r hc hm hr
        exact a3 _ _ ⟨c, m, r, hc, hm, hr, rfl, rfl⟩ ⟨c, m, r, hc, hm, hr, rfl, rfl⟩
      · rw [if_neg hkd] at hk
        have S' := H.slot k y' hk
        refine ⟨S'.base, S'.bnd, fun c m r hc hm hr => ?_⟩
        rw [Fill.keep a1 (hdisj k y' hk hc hm hr)]
        exact S'.tab c m r hc hm hr

theorem execStepsG_wp (C : StepCtxG e L b n leng) : ∀ (l : List GStep) {st st' : SymSt} {h : Heap α}, l.all stepG = true →
    stepsSym n l st = some st' → StepInvG D v0 e L b n leng g h0 st h →
    wp (execStepsG e D b (fun k => g + k*(3*e.g_size)) l) (fun _ h' => StepInvG D v0 e L b n leng g h0 st' h') h
  | [], st, st', h, _, hs, H => by
    obtain rfl := Option.some.inj hs
    unfold execStepsG
    rw [wp_pure]; exact H
  | s :: l, st, st', h, hG, hs, H => by
    rw [List.all_cons, Bool.and_eq_true] at hG
    unfold stepsSym at hs
    unfold execStepsG
    cases h1 : stepSym n s st with
    | none => rw [h1] at hs; exact absurd hs (by simp)
    | some st1 =>
      rw [h1] at hs
      rw [wp_mbind]
      exact wp_mono (execStepG_wp C hG.1 h1 H) (fun _ h' H' => execStepsG_wp C l hG.2 hs H')

theorem loadProdsG_wp (C : StepCtxG e L b n leng) {r : Nat} (hR : gridRt e.nrys_roots b r)
    (H : StepInvG D v0 e L b n leng g h0 st h)
    (m : Nat → Fin 4 → Nat) (hm : ∀ c t, c < 3 → m c t ≤ angOf e t) {h' : Heap α}
    (hag : ∀ q, Blk g leng q → h'.D q = h.D q) :
    ∀ (l : List (Nat × Nat × Nat)) (ws : List (Nat → List (GOp × Fin 4))), prodsWords st l = some ws →
    wp (loadProds (fun k => g + k*(3*e.g_size)) (0*e.g_size + slabM e (m 0) r) (1*e.g_size + slabM e (m 1) r)
        (2*e.g_size + slabM e (m 2) r) l)
      (fun s h'' => h'' = h' ∧ s = ws.map fun W => symVal D v0 (W 0) 0 (m 0) r * symVal D v0 (W 1) 1 (m 1) r *
        symVal D v0 (W 2) 2 (m 2) r) h'
  | [], ws, hw => by
    obtain rfl : ws = [] := by unfold prodsWords at hw; simpa using hw.symm
    unfold loadProds
    rw [wp_pure]; exact ⟨rfl, rfl⟩
  | t :: l, ws, hw => by
    unfold prodsWords at hw
    rw [List.mapM_cons] at hw
    obtain ⟨W, hW, ws', hws, rfl⟩ : ∃ W, prodWords st t = some W ∧ ∃ ws', prodsWords st l = some ws' ∧ ws = W :: ws' := by
      cases h1 : prodWords st t with
      | none => rw [h1] at hw; exact absurd hw (by simp)
      | some W =>
        rw [h1] at hw
        cases h2 : prodsWords st l with
        | none => unfold prodsWords at h2; rw [h2] at hw; exact absurd hw (by simp)
        | some ws' =>
          unfold prodsWords at h2; rw [h2] at hw
          exact ⟨W, rfl, ws', rfl, by simpa using hw.symm⟩
    unfold prodWords at hW
    cases hx : st t.1 with
    | none => rw [hx] at hW; exact absurd hW (by simp)
    | some x =>
    cases hy : st t.2.1 with
    | none => rw [hx, hy] at hW; exact absurd hW (by simp)
    | some y =>
    cases hz : st t.2.2 with
    | none => rw [hx, hy, hz] at hW; exact absurd hW (by simp)
    | some z =>
    rw [hx, hy, hz] at hW
    obtain rfl := (Option.some.inj hW).symm
    have key : ∀ k w, st k = some w → ∀ c, c < 3 →
        h'.D (g + k*(3*e.g_size) + (c*e.g_size + slabM e (m c) r)) = .val (symVal D v0 w.word c (m c) r) := by
      intro k w hk c hc
      have S := H.slot k w hk
      have hle : ∀ t, m c t ≤ angOf e t + w.inc t := fun t => le_trans (hm c t hc) (Nat.le_add_right _ _)
      have := S.tab c (m c) r hc hle hR
      rw [← hag _ (blk_slab C S.base hc (fun t => le_trans (hle t) (S.bnd t)) hR)] at this
      exact this
    unfold loadProds
    simp only [wp_mbind, wp_ld, wp_pure]
    refine ⟨_, key _ _ hx 0 (by omega), _, key _ _ hy 1 (by omega), _, key _ _ hz 2 (by omega), ?_⟩
    refine wp_mono (loadProdsG_wp C hR H m hm hag l ws' hws) ?_
    rintro s h'' ⟨rfl, rfl⟩
    exact ⟨rfl, rfl⟩

omit [Field α] in
theorem loadLists_wp {f : Nat → Prog α (List α)} {x : Nat → List α} {h' : Heap α} : ∀ b : Nat,
    (∀ ig, ig < b → wp (f ig) (fun s h'' => h'' = h' ∧ s = x ig) h') →
    wp (loadLists f b) (fun s h'' => h'' = h' ∧ ∀ ig, ig < b → s ig = x ig) h'
  | 0, _ => by unfold loadLists; rw [wp_pure]; exact ⟨rfl, fun ig h => absurd h (Nat.not_lt_zero _)⟩
  | b+1, hf => by
    unfold loadLists
    rw [wp_mbind]
    refine wp_mono (loadLists_wp b (fun ig h => hf ig (by omega))) ?_
    rintro s h2 ⟨rfl, hs⟩
    rw [wp_mbind]
    refine wp_mono (hf b (Nat.lt_succ_self b)) ?_
    rintro y h3 ⟨rfl, rfl⟩
    rw [wp_pure]
    refine ⟨rfl, fun ig hig => ?_⟩
    dsimp only
    by_cases h : ig = b
    · rw [if_pos h, h]
    · rw [if_neg h]; exact hs ig (by omega)

/-- the functions of src/autocode/int1e_grids1.c: element `i` belongs to point `i % b`, to component and pair
`i / b = pair * components + component` -/
theorem goutGridsGen_wp (C : StepCtxG e L b n leng) {P : GoutProg} {ws : List (Nat → List (GOp × Fin 4))} {ng : Fin 4 → Nat}
    (hPG : P.steps.all stepG = true) (hP : symRun ng n P = some ws) (hn : 0 < n) (hL : ∀ t, angOf e t + ng t ≤ L t)
    {idx gout : Ptr} {em : Int} {T : Ptr → Option Int} {ad : Nat → Nat → Nat} {m : Nat → Nat → Fin 4 → Nat} {u : Nat → α}
    (had : ∀ n c, n < e.nf → c < 3 → ad c n = c*e.g_size + slabM e (m n c) 0)
    (hm : ∀ n c t, n < e.nf → c < 3 → m n c t ≤ angOf e t)
    (hR : RO T h) (hT : IdxT T idx e.nf ad) (ha : AllocD h gout (e.nf*(b*P.comps.length)))
    (hG : ∀ q, Blk g leng q → h.D q ≠ .oob)
    (hd : ∀ i, i < e.nf*(b*P.comps.length) → ¬ Blk g leng (gout + i))
    (hE : em = 0 → HoldsD h gout (e.nf*(b*P.comps.length)) u)
    (hv : TabP h g e (fun t => angOf e t + ng t) (gridRt e.nrys_roots b) v0) :
    wp (goutGridsGen e D P b idx g gout em) (fun _ h' =>
      HoldsD h' gout (e.nf*(b*P.comps.length)) (fun i => if em = 0 then
          u i + ∑ r ∈ Finset.range e.nrys_roots, goutVal D v0 P ws (m (i/b/P.comps.length)) (i%b + 104*r) (i/b%P.comps.length)
        else ∑ r ∈ Finset.range e.nrys_roots, goutVal D v0 P ws (m (i/b/P.comps.length)) (i%b + 104*r) (i/b%P.comps.length)) ∧
      AgreeD h h' (fun q => Blk g leng q ∨ Blk gout (e.nf*(b*P.comps.length)) q) ∧ h'.I = h.I) h := by
  unfold symRun at hP
  cases hst : stepsSym n P.steps (initSym ng) with
  | none => rw [hst] at hP; exact absurd hP (by simp)
  | some st =>
  rw [hst] at hP
  have hP' : prodsWords st P.prods = some ws := hP
  have H0 : StepInvG D v0 e L b n leng g h (initSym ng) h := by
    refine ⟨rfl, AgreeD.refl _ _, hG, ?_⟩
    intro k y hk
    unfold initSym at hk
    split at hk
    · rename_i h0; subst h0
      obtain rfl := (Option.some.inj hk).symm
      refine ⟨hn, fun t => by simpa using hL t, ?_⟩
      rw [Nat.zero_mul, Ptr.add_zero]
      exact hv
    · exact absurd hk (by simp)
  unfold goutGridsGen
  dsimp only
  rw [wp_mbind]
  refine wp_mono (execStepsG_wp C P.steps hPG hst H0) ?_
  intro _ h1 H1
  have hout : ∀ i, i < e.nf*(b*P.comps.length) → h1.D (gout + i) = h.D (gout + i) := fun i hi => H1.agree _ (hd i hi)
  refine wp_mono (goutLoop_wp (T := T) (ad := ad) (u := u)
    (val := fun n k => ∑ r ∈ Finset.range e.nrys_roots, goutVal D v0 P ws (m n) (k%b + 104*r) (k/b)) ?_ hT ?_ ?_ ?_) ?_
  · intro q x hq; rw [H1.int]; exact hR q x hq
  · intro i hi; rw [hout i hi]; exact ha i hi
  · intro he i hi; rw [hout i hi]; exact hE he i hi
  · intro i hi h' hag hI
    rw [wp_mbind]
    let x : Nat → List α := fun r => ws.map fun W => symVal D v0 (W 0) 0 (m i 0) r * symVal D v0 (W 1) 1 (m i 1) r *
      symVal D v0 (W 2) 2 (m i 2) r
    have hroot : ∀ r, r < e.nrys_roots → wp (do
        let l ← loadLists (fun ig => loadProds (fun k => g + k*(3*e.g_size)) (ad 0 i + (ig + 104*r)) (ad 1 i + (ig + 104*r))
          (ad 2 i + (ig + 104*r)) P.prods) b
        pure fun k => (l (k%104)).getD (k/104) 0 : Prog α (Nat → α))
        (fun s h'' => h'' = h' ∧ ∀ ig k, ig < b → s (ig + 104*k) = (x (ig+104*r)).getD k 0) h' := by
      intro r hr
      rw [wp_mbind]
      refine wp_mono (loadLists_wp (x := fun ig => x (ig+104*r)) b (fun ig hig => ?_)) ?_
      · have ea : ∀ c, c < 3 → ad c i + (ig + 104*r) = c*e.g_size + slabM e (m i c) (ig+104*r) := by
          intro c hc
          rw [had i c hi hc]
          unfold slabM
          omega
        rw [ea 0 (by omega), ea 1 (by omega), ea 2 (by omega)]
        refine loadProdsG_wp C ⟨r, ig, hr, hig, rfl⟩ H1 (m i) (fun c t hc => hm i c t hi hc) (fun q hq => hag q ?_) _ _ hP'
        rintro ⟨j, hj, rfl⟩; exact hd j hj hq
      · rintro s h'' ⟨rfl, hs⟩
        rw [wp_pure]
        refine ⟨rfl, fun ig k hig => ?_⟩
        have h104 := C.hb
        dsimp only
        rw [show (ig+104*k)%104 = ig by omega, show (ig+104*k)/104 = k by omega, hs ig hig]
    have key : ∀ nr, nr ≤ e.nrys_roots → wp (accRoots (fun r => do
        let l ← loadLists (fun ig => loadProds (fun k => g + k*(3*e.g_size)) (ad 0 i + (ig + 104*r)) (ad 1 i + (ig + 104*r))
          (ad 2 i + (ig + 104*r)) P.prods) b
        pure fun k => (l (k%104)).getD (k/104) 0) nr)
        (fun s h'' => h'' = h' ∧ ∀ ig k, ig < b → s (ig + 104*k) = ∑ r ∈ Finset.range nr, (x (ig+104*r)).getD k 0) h' := by
      intro nr
      induction nr with
      | zero => intro _; unfold accRoots; rw [wp_pure]; exact ⟨rfl, fun _ _ _ => by simp⟩
      | succ nr ih =>
        intro hnr
        unfold accRoots
        rw [wp_mbind]
        refine wp_mono (ih (by omega)) ?_
        rintro s h2 ⟨rfl, hs⟩
        rw [wp_mbind]
        refine wp_mono (hroot nr (by omega)) ?_
        rintro y h3 ⟨rfl, hy⟩
        rw [wp_pure]
        exact ⟨rfl, fun ig k hig => by rw [Finset.sum_range_succ, ← hs ig k hig, ← hy ig k hig]⟩
    refine wp_mono (key _ (le_refl _)) ?_
    rintro s h2 ⟨rfl, hs⟩
    rw [wp_pure]
    refine ⟨rfl, fun k hk => ?_⟩
    have hb0 : 0 < b := by
      rcases Nat.eq_zero_or_pos b with h0 | h0
      · rw [h0, Nat.zero_mul] at hk; omega
      · exact h0
    have : (fun m' => s (k%b + 104*m')) = fun m' => ∑ r ∈ Finset.range e.nrys_roots, (x (k%b+104*r)).getD m' 0 := by
      funext m'; exact hs _ _ (Nat.mod_lt _ hb0)
    dsimp only
    rw [this]
    exact compVal_sum _ _
  · rintro _ h2 ⟨A, B, Cc⟩
    refine ⟨fun i hi => ?_, H1.agree.trans B (fun q hq => Or.inl hq) (fun q hq => Or.inr hq), by rw [Cc, H1.int]⟩
    have h3 := A i hi
    rw [h3]
    have e1 : i / (b*P.comps.length) = i/b/P.comps.length := (Nat.div_div_eq_div_mul _ _ _).symm
    have e2 : i % (b*P.comps.length) % b = i % b := Nat.mod_mul_right_mod _ _ _
    have e3 : i % (b*P.comps.length) / b = i / b % P.comps.length := Nat.mod_mul_right_div_self _ _ _
    dsimp only
    rw [e1, e2, e3]
end

end Verif.Lemmas
