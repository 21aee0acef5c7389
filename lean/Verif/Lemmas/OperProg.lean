import Verif.Lemmas.Oper
import Verif.Lemmas.Gout

/-! Symbolic execution of the functions of src/autocode. -/
namespace Verif.Lemmas
open Verif Verif.Model Verif.Prog

variable {α : Type} [Field α]

/-- what an operator does to a table of intermediates -/
def opVal (D : OpData α) (o : GOp × Fin 4) (w : Nat → (Fin 4 → Nat) → Nat → α) : Nat → (Fin 4 → Nat) → Nat → α :=
  match o.1 with
  | .d => dVal (D.a o.2) o.2 w
  | .x0 => xVal (D.R o.2) o.2 w
  | .xc => xVal (fun c => D.R o.2 c - D.O c) o.2 w
  | .own => fun c m r => w c (bump m o.2) r

def symVal (D : OpData α) (v0 : Nat → (Fin 4 → Nat) → Nat → α) (word : List (GOp × Fin 4)) :
    Nat → (Fin 4 → Nat) → Nat → α := word.foldr (opVal D) v0

/-- what is known about a pointer `g<k>`: the slab it points into, the shift by whole powers, the powers it is good
for beyond those of the functions, and the operators applied (latest first) -/
structure Sym where
  base : Nat
  sh : Fin 4 → Nat
  inc : Fin 4 → Nat
  word : List (GOp × Fin 4)

abbrev SymSt := Nat → Option Sym

def SymSt.set (st : SymSt) (k : Nat) (y : Sym) : SymSt := fun k' => if k' = k then some y else st k'

def stepSym (n : Nat) (s : GStep) (st : SymSt) : Option SymSt :=
  match st s.src with
  | none => none
  | some y =>
    if (st s.dst).isNone then
      if s.op = .own then
        if 1 ≤ y.inc s.t then some (st.set s.dst ⟨y.base, bump y.sh s.t, drop y.inc s.t, (s.op, s.t) :: y.word⟩) else none
      else if s.dst < n ∧ ∀ t', bump s.inc s.t t' ≤ y.inc t' then
        some (st.set s.dst ⟨s.dst, fun _ => 0, s.inc, (s.op, s.t) :: y.word⟩) else none
    else none

def stepsSym (n : Nat) : List GStep → SymSt → Option SymSt
  | [], st => some st
  | s :: l, st => (stepSym n s st).bind (stepsSym n l)

def initSym (inc : Fin 4 → Nat) : SymSt := fun k => if k = 0 then some ⟨0, fun _ => 0, inc, []⟩ else none

theorem slabM_add (e : EnvG) (m sh : Fin 4 → Nat) (r : Nat) :
    slabM e (fun t => m t + sh t) r = slabM e m r + slabM e sh 0 := by
  unfold slabM; ring

theorem strideOf_eq (e : EnvG) : strideOf e = strideM e := rfl

theorem slabM_zero (e : EnvG) : slabM e (fun _ => 0) 0 = 0 := by unfold slabM; simp

theorem slabM_bump0 (e : EnvG) (m : Fin 4 → Nat) (t : Fin 4) : slabM e (bump m t) 0 = slabM e m 0 + strideM e t :=
  slabM_bump e m t 0

/-- the surroundings of a run of operators -/
structure StepCtx (two : Bool) (e : EnvG) (L : Fin 4 → Nat) (R n leng : Nat) : Prop where
  slab : SlabM e L R
  leng : n * (3 * e.g_size) ≤ leng
  roots : two = true → R = e.nrys_roots
  one : two = false → R = 1 ∧ e.g_stride_i = 1
  kl : two = false → L 3 = 0

/-- a pointer does what is known about it -/
structure SlotOK (D : OpData α) (v0 : Nat → (Fin 4 → Nat) → Nat → α) (e : EnvG) (L : Fin 4 → Nat) (R n : Nat)
    (g : Ptr) (h : Heap α) (q : Ptr) (y : Sym) : Prop where
  ptr : q = g + (y.base * (3 * e.g_size) + slabM e y.sh 0)
  base : y.base < n
  bnd : ∀ t, angOf e t + y.inc t + y.sh t ≤ L t
  tab : TabM h q e (fun t => angOf e t + y.inc t) R (symVal D v0 y.word)

structure StepInv (D : OpData α) (v0 : Nat → (Fin 4 → Nat) → Nat → α) (e : EnvG) (L : Fin 4 → Nat) (R n leng : Nat)
    (g : Ptr) (h0 : Heap α) (st : SymSt) (p : Nat → Ptr) (h : Heap α) : Prop where
  int : h.I = h0.I
  agree : AgreeD h0 h (Blk g leng)
  alloc : ∀ q, Blk g leng q → h.D q ≠ .oob
  slot : ∀ k y, st k = some y → SlotOK D v0 e L R n g h (p k) y
  fresh : ∀ k, st k = none → p k = g + k * (3 * e.g_size)
  used : ∀ k y, st k = some y → st y.base ≠ none

section
variable {D : OpData α} {v0 : Nat → (Fin 4 → Nat) → Nat → α} {e : EnvG} {L : Fin 4 → Nat} {R n leng : Nat}
  {g : Ptr} {h0 h : Heap α} {st : SymSt} {p : Nat → Ptr} {two : Bool}

omit [Field α] in
theorem cell_loc (base : Nat) (sh m : Fin 4 → Nat) (r c : Nat) :
    gAx (g + (base * (3 * e.g_size) + slabM e sh 0)) e c (slabM e m r) =
      g + ((base * 3 + c) * e.g_size + slabM e (fun t => m t + sh t) r) := by
  unfold gAx
  rw [Ptr.add_assoc, slabM_add]
  congr 1
  ring

theorem SlotOK.blk (C : StepCtx two e L R n leng) {q : Ptr} {y : Sym} (H : SlotOK D v0 e L R n g h q y)
    {c r : Nat} {m : Fin 4 → Nat} (hc : c < 3) (hm : ∀ t, m t ≤ angOf e t + y.inc t) (hr : r < R) :
    Blk g leng (gAx q e c (slabM e m r)) := by
  rw [H.ptr, cell_loc]
  refine ⟨_, ?_, rfl⟩
  have h1 := C.slab.range (fun t => m t + y.sh t) r (fun t => by
    have := hm t; have := H.bnd t; show m t + y.sh t ≤ L t; omega) hr
  have h2 : (y.base*3+c) + 1 ≤ n * 3 := by have := H.base; omega
  have h3 := Nat.mul_le_mul_right e.g_size h2
  have h4 := C.leng
  have : n * (3 * e.g_size) = n * 3 * e.g_size := by ring
  rw [Nat.add_mul, Nat.one_mul] at h3
  omega

/-- cells of different slabs are different -/
theorem loc_ne (C : StepCtx two e L R n leng) {b b' c c' r r' : Nat} {m m' : Fin 4 → Nat} (hb : b ≠ b') (hc : c < 3) (hc' : c' < 3)
    (hm : ∀ t, m t ≤ L t) (hr : r < R) (hm' : ∀ t, m' t ≤ L t) (hr' : r' < R) :
    g + ((b*3+c) * e.g_size + slabM e m r) ≠ g + ((b'*3+c') * e.g_size + slabM e m' r') := by
  intro h
  have := radix_inj (C.slab.range m r hm hr) (C.slab.range m' r' hm' hr') ((Ptr.add_right_inj _ _ _).1 h)
  omega

theorem TabM.congr {h' : Heap α} {q : Ptr} {lim : Fin 4 → Nat} {v : Nat → (Fin 4 → Nat) → Nat → α} (H : TabM h q e lim R v)
    (hk : ∀ c m r, c < 3 → (∀ t, m t ≤ lim t) → r < R → h'.D (gAx q e c (slabM e m r)) = h.D (gAx q e c (slabM e m r))) :
    TabM h' q e lim R v := fun c m r hc hm hr => by rw [hk c m r hc hm hr]; exact H c m r hc hm hr

/-- the operators that compute -/
def computing (two : Bool) (e : EnvG) (D : OpData α) (f g : Ptr) (s : GStep) : Prog α Unit :=
  let l := fun t => angOf e t + s.inc t
  match s.op with
  | .d => nablaAt two e (D.a s.t) s.t f g l
  | .x0 => xAt two e (D.R s.t) s.t f g l
  | .xc => xAt two e (fun c => D.R s.t c - D.O c) s.t f g l
  | .own => pure ()

omit [Field α] in
theorem vec_eta (l : Fin 4 → Nat) : ![l 0, l 1, l 2, l 3] = l := by
  funext t; fin_cases t <;> rfl

theorem nablaAt_fill {C : StepCtx two e L R n leng} {f g : Ptr} {a : α} {t : Fin 4} {l src : Fin 4 → Nat}
    {w : Nat → (Fin 4 → Nat) → Nat → α} {P : Ptr → α → Prop} (hl : two = false → l 3 = 0) (ht : two = false → t ≠ 3)
    (O : OpCtx h0 f g e l src R w (dVal a t w)) (hs : ∀ t', bump l t t' ≤ src t') :
    Fill h0 (CellsM f e l R (dVal a t w)) P (CellsM f e l R (dVal a t w)) (nablaAt two e a t f g l) := by
  cases two with
  | true =>
    have hR := C.roots rfl
    subst hR
    rw [← vec_eta l] at O hs ⊢
    fin_cases t
    · exact nabla1i2_fill O hs
    · exact nabla1j2_fill O hs
    · exact nabla1k2_fill O hs
    · exact nabla1l2_fill O hs
  | false =>
    obtain ⟨hR, h1⟩ := C.one rfl
    subst hR
    have h3 := hl rfl
    rw [← vec_eta l, h3] at O hs ⊢
    fin_cases t
    · exact nabla1i_fill h1 O hs
    · exact nabla1j_fill h1 O hs
    · exact nabla1k_fill h1 O hs
    · exact absurd rfl (ht rfl)

theorem xAt_fill {C : StepCtx two e L R n leng} {f g : Ptr} {rr : Nat → α} {t : Fin 4} {l src : Fin 4 → Nat}
    {w : Nat → (Fin 4 → Nat) → Nat → α} {P : Ptr → α → Prop} (hl : two = false → l 3 = 0)
    (O : OpCtx h0 f g e l src R w (xVal rr t w)) (hs : ∀ t', bump l t t' ≤ src t') :
    Fill h0 (CellsM f e l R (xVal rr t w)) P (CellsM f e l R (xVal rr t w)) (xAt two e rr t f g l) := by
  unfold xAt
  cases two with
  | true =>
    have hR := C.roots rfl
    subst hR
    rw [if_pos rfl]
    rw [← vec_eta l] at O hs ⊢
    exact x2e_fill rfl O hs
  | false =>
    obtain ⟨hR, h1⟩ := C.one rfl
    subst hR
    rw [if_neg (by decide)]
    have h3 := hl rfl
    rw [← vec_eta l, h3] at O hs ⊢
    refine x1e_fill h1 ?_ O hs
    split
    · rename_i h; subst h; exact h1.symm
    · rfl

theorem computing_fill (C : StepCtx two e L R n leng) {f g : Ptr} {s : GStep} {src : Fin 4 → Nat}
    {w : Nat → (Fin 4 → Nat) → Nat → α} {P : Ptr → α → Prop} (hop : s.op ≠ .own)
    (hl : two = false → angOf e 3 + s.inc 3 = 0) (ht : two = false → s.t ≠ 3)
    (O : OpCtx h0 f g e (fun t => angOf e t + s.inc t) src R w (opVal D (s.op, s.t) w))
    (hs : ∀ t', bump (fun t => angOf e t + s.inc t) s.t t' ≤ src t') :
    Fill h0 (CellsM f e (fun t => angOf e t + s.inc t) R (opVal D (s.op, s.t) w)) P
      (CellsM f e (fun t => angOf e t + s.inc t) R (opVal D (s.op, s.t) w)) (computing two e D f g s) := by
  unfold computing
  unfold opVal at O ⊢
  cases hs' : s.op with
  | d => rw [hs'] at O; exact nablaAt_fill (C := C) hl ht O hs
  | x0 => rw [hs'] at O; exact xAt_fill (C := C) hl O hs
  | xc => rw [hs'] at O; exact xAt_fill (C := C) hl O hs
  | own => exact absurd hs' hop

theorem execStep_eq (hop : s.op ≠ .own) : execStep two e D p s = (do computing two e D (p s.dst) (p s.src) s; pure p) := by
  unfold execStep computing
  cases hs' : s.op with
  | own => exact absurd hs' hop
  | _ => rfl

theorem execStep_wp (C : StepCtx two e L R n leng) {s : GStep} {st' : SymSt}
    (hs : stepSym n s st = some st') (H : StepInv D v0 e L R n leng g h0 st p h) :
    wp (execStep two e D p s) (fun p' h' => StepInv D v0 e L R n leng g h0 st' p' h') h := by
  unfold stepSym at hs
  cases hsrc : st s.src with
  | none => rw [hsrc] at hs; exact absurd hs (by simp)
  | some y =>
    rw [hsrc] at hs
    dsimp only at hs
    by_cases hd : (st s.dst).isNone
    swap
    · rw [if_neg hd] at hs; exact absurd hs (by simp)
    rw [if_pos hd, ] at hs
    have hdn : st s.dst = none := by simpa using hd
    have Sy := H.slot _ _ hsrc
    by_cases hop : s.op = .own
    · rw [if_pos hop] at hs
      by_cases hi : 1 ≤ y.inc s.t
      swap
      · rw [if_neg hi] at hs; exact absurd hs (by simp)
      rw [if_pos hi] at hs
      obtain rfl := (Option.some.inj hs).symm
      unfold execStep
      rw [hop]
      simp only [wp_pure]
      refine ⟨H.int, H.agree, H.alloc, ?_, ?_, ?_⟩
      · intro k y' hk
        unfold SymSt.set at hk
        by_cases hkd : k = s.dst
        · rw [if_pos hkd] at hk ⊢
          obtain rfl := (Option.some.inj hk).symm
          refine ⟨?_, Sy.base, ?_, ?_⟩
          · rw [Sy.ptr, Ptr.add_assoc, strideOf_eq]
            dsimp only
            rw [slabM_bump0]
            congr 1; omega
          · intro t
            have := Sy.bnd t
            dsimp only
            unfold bump drop
            rcases eq_or_ne t s.t with rfl | hne
            · simp only [Function.update_self]; omega
            · simp only [Function.update_of_ne hne]; omega
          · intro c m r hc hm hr
            have e1 : gAx (p s.src + strideOf e s.t) e c (slabM e m r) = gAx (p s.src) e c (slabM e (bump m s.t) r) := by
              unfold gAx
              rw [slabM_bump, Ptr.add_assoc, strideOf_eq]
              congr 1; omega
            rw [e1]
            refine Sy.tab c (bump m s.t) r hc ?_ hr
            intro t
            have := hm t
            dsimp only at this
            unfold bump
            unfold drop at this
            rcases eq_or_ne t s.t with rfl | hne
            · simp only [Function.update_self] at this ⊢; omega
            · simp only [Function.update_of_ne hne] at this ⊢; omega
        · rw [if_neg hkd] at hk ⊢
          exact H.slot k y' hk
      · intro k hk
        unfold SymSt.set at hk
        by_cases hkd : k = s.dst
        · rw [if_pos hkd] at hk; exact absurd hk (by simp)
        · rw [if_neg hkd] at hk ⊢
          exact H.fresh k hk
      · intro k y' hk
        have hu : ∀ b, st b ≠ none → (st.set s.dst ⟨y.base, bump y.sh s.t, drop y.inc s.t, (GOp.own, s.t) :: y.word⟩) b ≠ none := by
          intro b hb
          unfold SymSt.set
          split
          · simp
          · exact hb
        refine hu _ ?_
        unfold SymSt.set at hk
        by_cases hkd : k = s.dst
        · rw [if_pos hkd] at hk
          obtain rfl := (Option.some.inj hk).symm
          exact H.used s.src y hsrc
        · rw [if_neg hkd] at hk
          exact H.used _ _ hk
    · rw [if_neg hop] at hs
      by_cases hc : s.dst < n ∧ ∀ t', bump s.inc s.t t' ≤ y.inc t'
      swap
      · rw [if_neg hc] at hs; exact absurd hs (by simp)
      rw [if_pos hc] at hs
      obtain rfl := (Option.some.inj hs).symm
      obtain ⟨hdn', hinc⟩ := hc
      have hf := H.fresh _ hdn
      have hincle : ∀ t, s.inc t ≤ y.inc t := by
        intro t
        refine le_trans ?_ (hinc t)
        unfold bump
        rcases eq_or_ne t s.t with rfl | hne
        · simp only [Function.update_self]; omega
        · simp only [Function.update_of_ne hne]; omega
      have hL : ∀ t, angOf e t + s.inc t ≤ L t := fun t => by have := hincle t; have := Sy.bnd t; omega
      have hbs : ∀ t', bump (fun t => angOf e t + s.inc t) s.t t' ≤ angOf e t' + y.inc t' := by
        intro t
        have := hinc t
        unfold bump at this ⊢
        rcases eq_or_ne t s.t with rfl | hne
        · simp only [Function.update_self] at this ⊢; omega
        · simp only [Function.update_of_ne hne] at this ⊢; omega
      have hbase : ∀ k y', st k = some y' → y'.base ≠ s.dst := by
        intro k y' hk hb
        exact H.used k y' hk (by rw [hb]; exact hdn)
      -- cells of the new slab
      have hV : ∀ {v : Nat → (Fin 4 → Nat) → Nat → α} {q x}, CellsM (p s.dst) e (fun t => angOf e t + s.inc t) R v q x →
          ∃ c m r, c < 3 ∧ (∀ t, m t ≤ L t) ∧ r < R ∧ q = g + ((s.dst*3+c)*e.g_size + slabM e m r) := by
        rintro v q x ⟨c, m, r, h1, h2, h3, rfl, rfl⟩
        refine ⟨c, m, r, h1, fun t => le_trans (h2 t) (hL t), h3, ?_⟩
        rw [hf]
        unfold gAx
        rw [Ptr.add_assoc]; congr 1; ring
      have hdisj : ∀ k y', st k = some y' → ∀ {v : Nat → (Fin 4 → Nat) → Nat → α} {c m r}, c < 3 →
          (∀ t, m t ≤ angOf e t + y'.inc t) → r < R →
          ∀ x, ¬ CellsM (p s.dst) e (fun t => angOf e t + s.inc t) R v (gAx (p k) e c (slabM e m r)) x := by
        intro k y' hk v c m r hc hm hr x hx
        obtain ⟨c', m', r', h1, h2, h3, h4⟩ := hV hx
        have S' := H.slot k y' hk
        rw [S'.ptr, cell_loc] at h4
        refine loc_ne C (hbase k y' hk) hc h1 (fun t => ?_) hr h2 h3 h4
        have := hm t; have := S'.bnd t
        show m t + y'.sh t ≤ L t; omega
      have hblk : ∀ {v : Nat → (Fin 4 → Nat) → Nat → α} {q x}, CellsM (p s.dst) e (fun t => angOf e t + s.inc t) R v q x → Blk g leng q := by
        intro v q x hx
        obtain ⟨c', m', r', h1, h2, h3, rfl⟩ := hV hx
        refine ⟨_, ?_, rfl⟩
        have h5 := C.slab.range m' r' h2 h3
        have h6 : (s.dst*3+c') + 1 ≤ n * 3 := by omega
        have h7 := Nat.mul_le_mul_right e.g_size h6
        have h8 := C.leng
        have : n * (3 * e.g_size) = n * 3 * e.g_size := by ring
        rw [Nat.add_mul, Nat.one_mul] at h7
        omega
      have hlz : two = false → angOf e 3 + s.inc 3 = 0 := fun h2 => by
        have h4 := C.kl h2
        have := hL 3; omega
      have htz : two = false → s.t ≠ 3 := by
        intro h2 h3
        have h4 := C.kl h2
        have h5 := hbs 3
        rw [h3] at h5
        unfold bump at h5
        simp only [Function.update_self] at h5
        have := Sy.bnd 3
        omega
      have F := computing_fill (h0 := h) (D := D) (f := p s.dst) (g := p s.src) (P := fun _ _ => False)
        (w := symVal D v0 y.word) (src := fun t => angOf e t + y.inc t) C (s := s) hop hlz htz
        ⟨⟨L, C.slab, hL⟩, fun q x hx => H.alloc q (hblk hx), Sy.tab, fun c m r hc hm hr => hdisj _ _ hsrc hc hm hr⟩ hbs
      rw [execStep_eq hop]
      simp only [wp_mbind, wp_pure]
      refine wp_mono (F.start (fun _ _ hx => hx.elim)) ?_
      rintro _ h' ⟨a1, _, a3⟩
      refine ⟨by rw [a1.I]; exact H.int, ?_, fun q hq => Fill.alloc a1 (H.alloc q hq), ?_, ?_, ?_⟩
      · intro q hq
        rw [Fill.keep a1 (fun x hx => hq (hblk hx))]
        exact H.agree q hq
      · intro k y' hk
        unfold SymSt.set at hk
        by_cases hkd : k = s.dst
        · rw [if_pos hkd] at hk
          obtain rfl := (Option.some.inj hk).symm
          subst hkd
          refine ⟨?_, hdn', fun t => by have := hL t; show _ + 0 ≤ _; simpa using this, ?_⟩
          · rw [hf]; dsimp only; rw [slabM_zero, Nat.add_zero]
          · intro c m r hc hm hr
            exact a3 _ _ ⟨c, m, r, hc, hm, hr, rfl, rfl⟩ ⟨c, m, r, hc, hm, hr, rfl, rfl⟩
        · rw [if_neg hkd] at hk
          have S' := H.slot k y' hk
          exact ⟨S'.ptr, S'.base, S'.bnd, TabM.congr S'.tab (fun c m r hc hm hr => Fill.keep a1 (hdisj k y' hk hc hm hr))⟩
      · intro k hk
        unfold SymSt.set at hk
        by_cases hkd : k = s.dst
        · rw [if_pos hkd] at hk; exact absurd hk (by simp)
        · rw [if_neg hkd] at hk
          exact H.fresh k hk
      · intro k y' hk
        unfold SymSt.set at hk ⊢
        by_cases hkd : k = s.dst
        · rw [if_pos hkd] at hk
          obtain rfl := (Option.some.inj hk).symm
          dsimp only
          rw [if_pos rfl]; simp
        · rw [if_neg hkd] at hk
          split
          · simp
          · exact H.used _ _ hk

theorem execSteps_wp (C : StepCtx two e L R n leng) : ∀ (l : List GStep) {st st' : SymSt} {p : Nat → Ptr} {h : Heap α},
    stepsSym n l st = some st' → StepInv D v0 e L R n leng g h0 st p h →
    wp (execSteps two e D l p) (fun p' h' => StepInv D v0 e L R n leng g h0 st' p' h') h
  | [], st, st', p, h, hs, H => by
    obtain rfl := Option.some.inj hs
    unfold execSteps
    rw [wp_pure]; exact H
  | s :: l, st, st', p, h, hs, H => by
    unfold stepsSym at hs
    unfold execSteps
    cases h1 : stepSym n s st with
    | none => rw [h1] at hs; exact absurd hs (by simp)
    | some st1 =>
      rw [h1] at hs
      rw [wp_mbind]
      exact wp_mono (execStep_wp C h1 H) (fun p' h' H' => execSteps_wp C l hs H')
end


/-! ### Products and components -/

/-- the words of the three factors of a product -/
def prodWords (st : SymSt) (m : Nat × Nat × Nat) : Option (Nat → List (GOp × Fin 4)) :=
  match st m.1, st m.2.1, st m.2.2 with
  | some x, some y, some z => some fun c => if c = 0 then x.word else if c = 1 then y.word else z.word
  | _, _, _ => none

/-- the words of all products -/
def prodsWords (st : SymSt) (l : List (Nat × Nat × Nat)) : Option (List (Nat → List (GOp × Fin 4))) :=
  l.mapM (prodWords st)

section
variable {D : OpData α} {v0 : Nat → (Fin 4 → Nat) → Nat → α} {e : EnvG} {L : Fin 4 → Nat} {R n leng : Nat}
  {g : Ptr} {h0 h : Heap α} {st : SymSt} {p : Nat → Ptr} {two : Bool}

theorem loadProds_wp (C : StepCtx two e L R n leng) {r : Nat} (hR : r < R) (H : StepInv D v0 e L R n leng g h0 st p h)
    (m : Nat → Fin 4 → Nat) (hm : ∀ c t, c < 3 → m c t ≤ angOf e t) {h' : Heap α}
    (hag : ∀ q, Blk g leng q → h'.D q = h.D q) :
    ∀ (l : List (Nat × Nat × Nat)) (ws : List (Nat → List (GOp × Fin 4))), prodsWords st l = some ws →
    wp (loadProds p (0*e.g_size + slabM e (m 0) r) (1*e.g_size + slabM e (m 1) r) (2*e.g_size + slabM e (m 2) r) l)
      (fun s h'' => h'' = h' ∧ s = ws.map fun W => symVal D v0 (W 0) 0 (m 0) r * symVal D v0 (W 1) 1 (m 1) r *
        symVal D v0 (W 2) 2 (m 2) r) h'
  | [], ws, hw => by
    obtain rfl : ws = [] := by unfold prodsWords at hw; simpa using hw.symm
    unfold loadProds
    rw [wp_pure]; exact ⟨rfl, rfl⟩
  | t :: l, ws, hw => by
    unfold prodsWords at hw
    rw [List.mapM_cons] at hw
    obtain ⟨W, hW, ws', hws, rfl⟩ : ∃ W, prodWords st t = some W ∧ ∃ ws', prodsWords st l = some ws' ∧ ws = W :: ws' := by
      cases h1 : prodWords st t with
      | none => rw [h1] at hw; exact absurd hw (by simp)
      | some W =>
        rw [h1] at hw
        cases h2 : prodsWords st l with
        | none => unfold prodsWords at h2; rw [h2] at hw; exact absurd hw (by simp)
        | some ws' =>
          unfold prodsWords at h2; rw [h2] at hw
          exact ⟨W, rfl, ws', rfl, by simpa using hw.symm⟩
    unfold prodWords at hW
    cases hx : st t.1 with
    | none => rw [hx] at hW; exact absurd hW (by simp)
    | some x =>
    cases hy : st t.2.1 with
    | none => rw [hx, hy] at hW; exact absurd hW (by simp)
    | some y =>
    cases hz : st t.2.2 with
    | none => rw [hx, hy, hz] at hW; exact absurd hW (by simp)
    | some z =>
    rw [hx, hy, hz] at hW
    obtain rfl := (Option.some.inj hW).symm
    have key : ∀ k w, st k = some w → ∀ c, c < 3 →
        h'.D (p k + (c*e.g_size + slabM e (m c) r)) = .val (symVal D v0 w.word c (m c) r) := by
      intro k w hk c hc
      have S := H.slot k w hk
      have hle : ∀ t, m c t ≤ angOf e t + w.inc t := fun t => le_trans (hm c t hc) (Nat.le_add_right _ _)
      have := S.tab c (m c) r hc hle hR
      rw [← hag _ (S.blk C hc hle hR)] at this
      exact this
    unfold loadProds
    simp only [wp_mbind, wp_ld, wp_pure]
    refine ⟨_, key _ _ hx 0 (by omega), _, key _ _ hy 1 (by omega), _, key _ _ hz 2 (by omega), ?_⟩
    refine wp_mono (loadProds_wp C hR H m hm hag l ws' hws) ?_
    rintro s h'' ⟨rfl, rfl⟩
    exact ⟨rfl, rfl⟩

/-- everything the symbolic execution establishes about a function: the words of its products -/
def symRun (ng : Fin 4 → Nat) (n : Nat) (P : GoutProg) : Option (List (Nat → List (GOp × Fin 4))) :=
  (stepsSym n P.steps (initSym ng)).bind fun st => prodsWords st P.prods

/-- component `k` at the powers `m` of the three directions -/
def goutVal (D : OpData α) (v0 : Nat → (Fin 4 → Nat) → Nat → α) (P : GoutProg) (ws : List (Nat → List (GOp × Fin 4)))
    (m : Nat → Fin 4 → Nat) (r k : Nat) : α :=
  compVal D (P.comps.getD k []) fun i => (ws.map fun W => symVal D v0 (W 0) 0 (m 0) r * symVal D v0 (W 1) 1 (m 1) r *
    symVal D v0 (W 2) 2 (m 2) r).getD i 0

/-- the functions of src/autocode for overlap-like integrals -/
theorem goutOvlp_wp (C : StepCtx false e L 1 n leng) {P : GoutProg} {ws : List (Nat → List (GOp × Fin 4))} {ng : Fin 4 → Nat}
    (hP : symRun ng n P = some ws) (hn : 0 < n) (hL : ∀ t, angOf e t + ng t ≤ L t)
    {idx gout : Ptr} {em : Int} {T : Ptr → Option Int} {ad : Nat → Nat → Nat} {m : Nat → Nat → Fin 4 → Nat} {u : Nat → α}
    (had : ∀ n c, n < e.nf → c < 3 → ad c n = c*e.g_size + slabM e (m n c) 0)
    (hm : ∀ n c t, n < e.nf → c < 3 → m n c t ≤ angOf e t)
    (hR : RO T h) (hT : IdxT T idx e.nf ad) (ha : AllocD h gout (e.nf*P.comps.length))
    (hG : ∀ q, Blk g leng q → h.D q ≠ .oob)
    (hd : ∀ i, i < e.nf*P.comps.length → ¬ Blk g leng (gout + i))
    (hE : em = 0 → HoldsD h gout (e.nf*P.comps.length) u)
    (hv : TabM h g e (fun t => angOf e t + ng t) 1 v0) :
    wp (goutOvlp e D P idx g gout em) (fun _ h' =>
      HoldsD h' gout (e.nf*P.comps.length) (fun i => if em = 0 then u i + goutVal D v0 P ws (m (i/P.comps.length)) 0 (i%P.comps.length)
        else goutVal D v0 P ws (m (i/P.comps.length)) 0 (i%P.comps.length)) ∧
      AgreeD h h' (fun q => Blk g leng q ∨ Blk gout (e.nf*P.comps.length) q) ∧ h'.I = h.I) h := by
  unfold symRun at hP
  cases hst : stepsSym n P.steps (initSym ng) with
  | none => rw [hst] at hP; exact absurd hP (by simp)
  | some st =>
  rw [hst] at hP
  have hP' : prodsWords st P.prods = some ws := hP
  have H0 : StepInv D v0 e L 1 n leng g h (initSym ng) (fun k => g + k * (3 * e.g_size)) h := by
    refine ⟨rfl, AgreeD.refl _ _, hG, ?_, fun _ _ => rfl, ?_⟩
    · intro k y hk
      unfold initSym at hk
      split at hk
      · rename_i h0; subst h0
        obtain rfl := (Option.some.inj hk).symm
        refine ⟨?_, hn, fun t => by simpa using hL t, ?_⟩
        · dsimp only; rw [slabM_zero]; simp
        · dsimp only
          rw [Nat.zero_mul, Ptr.add_zero]
          exact hv
      · exact absurd hk (by simp)
    · intro k y hk
      unfold initSym at hk
      split at hk
      · obtain rfl := (Option.some.inj hk).symm
        simp [initSym]
      · exact absurd hk (by simp)
  unfold goutOvlp
  rw [wp_mbind]
  refine wp_mono (execSteps_wp C P.steps hst H0) ?_
  intro p h1 H1
  have hout : ∀ i, i < e.nf*P.comps.length → h1.D (gout + i) = h.D (gout + i) := fun i hi => H1.agree _ (hd i hi)
  refine wp_mono (goutLoop_wp (T := T) (ad := ad) (u := u)
    (val := fun n k => goutVal D v0 P ws (m n) 0 k) ?_ hT ?_ ?_ ?_) ?_
  · intro q x hq; rw [H1.int]; exact hR q x hq
  · intro i hi; rw [hout i hi]; exact ha i hi
  · intro he i hi; rw [hout i hi]; exact hE he i hi
  · intro i hi h' hag hI
    rw [had i 0 hi (by omega), had i 1 hi (by omega), had i 2 hi (by omega), wp_mbind]
    refine wp_mono (loadProds_wp C Nat.one_pos H1 (m i) (fun c t hc => hm i c t hi hc) (fun q hq => hag q ?_) _ _ hP') ?_
    · rintro ⟨j, hj, rfl⟩; exact hd j hj hq
    · rintro s h'' ⟨rfl, rfl⟩
      rw [wp_pure]
      exact ⟨rfl, fun _ _ => rfl⟩
  · rintro _ h2 ⟨A, B, Cc⟩
    exact ⟨A, H1.agree.trans B (fun q hq => Or.inl hq) (fun q hq => Or.inr hq), by rw [Cc, H1.int]⟩
end

end Verif.Lemmas
