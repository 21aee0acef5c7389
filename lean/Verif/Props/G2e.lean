import Verif.Lemmas.Unrolled
import Verif.Lemmas.Moment2
import Verif.Lemmas.Demo

/-!
C26, C27, C28: the intermediates of two-electron integrals.  The recursion relations and the Gaussian distribution are
in Spec/Rys2.lean and Spec/Moment2.lean.
-/
namespace Verif.Props
open Verif Verif.Model Verif.Prog Verif.Lemmas Verif.Spec

section
variable {α : Type} [Field α]

/-- the recursion coefficients of direction `c` and node `r` -/
def coeff (bc : Rys2eT α) (c r : Nat) : RecCoeff α := ⟨bc.c00 c r, bc.c0p c r, bc.b00 r, bc.b10 r, bc.b01 r⟩

/-- the array of intermediates is allocated and the weights `z` are in the first cells of its third part -/
structure Weights (e : EnvG) (g : Ptr) (z : Nat → α) (h : Heap α) : Prop where
  alloc : ∀ n, n < 3*e.g_size → h.D (g + n) ≠ .oob
  val : ∀ r, r < e.nrys_roots → h.D (gAx g e 2 r) = .val (z r)

/-- only the array of intermediates was changed -/
structure Within (e : EnvG) (g : Ptr) (h h' : Heap α) : Prop where
  frame : ∀ q, (∀ n, n < 3*e.g_size → q ≠ g + n) → h'.D q = h.D q
  int : h'.I = h.I

/-- value of the two-dimensional intermediates: the weight goes into the third direction -/
def inter2 (bc : Rys2eT α) (z : Nat → α) (c n m r : Nat) : α := vrr (coeff bc c r) (if c = 2 then z r else 1) n m

/-- four-index intermediates made from two-dimensional ones -/
def interE (e : EnvG) (d : G2 α) (F : Nat → Nat → Nat → Nat → α) (c i j k l r : Nat) : α :=
  inter4 (decide (ibase e)) (decide (kbase e)) (d.ri c - d.rj c) (d.rk c - d.rl c) (fun n m => F c n m r) i j k l

theorem interE_transfers (e : EnvG) (d : G2 α) (F : Nat → Nat → Nat → Nat → α) :
    Transfers d.ri d.rj d.rk d.rl (interE e d F) :=
  ⟨fun _ _ _ _ _ _ _ => inter4_ij _ _ _ _ _ _ _ _ _, fun _ _ _ _ _ _ _ => inter4_kl _ _ _ _ _ _ _ _ _⟩

theorem interE_base (e : EnvG) (d : G2 α) (F : Nat → Nat → Nat → Nat → α) (c n m r : Nat) :
    baseF e (interE e d F) c n m r = F c n m r := by
  unfold baseF interE inter4
  by_cases hi : ibase e <;> by_cases hk : kbase e <;> simp [hi, hk, transfer]

private theorem within_of {e : EnvG} {he : Shape4 e} {g : Ptr} {E : Nat → Nat → Nat → Nat → Nat → Nat → α} {h0 h : Heap α}
    {S : Ix5 → Prop} (H : (cells4 e he g E).T h0 S h) : Within e g h0 h :=
  ⟨fun q hq => H.frame q (fun ⟨n, hn, hn'⟩ => hq n hn hn'), H.int⟩

private theorem full_val {e : EnvG} {he : Shape4 e} {g : Ptr} {E : Nat → Nat → Nat → Nat → Nat → Nat → α} {h0 h : Heap α}
    (H : (cells4 e he g E).T h0 (full4 e) h) {c i j k l r : Nat} (hc : c < 3) (hi : i ≤ e.li_ceil) (hj : j ≤ e.lj_ceil)
    (hk : k ≤ e.lk_ceil) (hl : l ≤ e.ll_ceil) (hr : r < e.nrys_roots) :
    h.D (gAx g e c (slab4 e i j k l r)) = .val (E c i j k l r) := by
  refine T_val H (k := (i,j,k,l,r)) hc ⟨hi, hj, hk, hl⟩ ⟨?_, ?_, ?_, ?_, hr⟩
  all_goals
    dsimp only
    first | unfold dimA | unfold dimB
    split <;> omega

/-- C28: for every choice of the angular momenta and all coefficients, CINTg0_2e_2d computes the values determined by
the recursion, which satisfy it in both indices -/
theorem C28_recursion (e : EnvG) (he : Shape4 e) (bc : Rys2eT α) (g : Ptr) (z : Nat → α) (h : Heap α) (H : Weights e g z h) :
    ∃ h', run (g0_2e_2d e bc g) h = some ((), h') ∧ Within e g h h' ∧
      ∀ c n m r, c < 3 → n ≤ e.li_ceil + e.lj_ceil → m ≤ e.lk_ceil + e.ll_ceil → r < e.nrys_roots →
        h'.D (gAx g e c (r + n*e.g2d_ijmax + m*e.g2d_klmax)) =
          .val (vrr (coeff bc c r) (if c = 2 then z r else 1) n m) := by
  let d0 : G2 α := ⟨0,0,0,0,fun _ => 0,fun _ => 0,fun _ => 0,fun _ => 0,fun _ => 0,fun _ => 0,0⟩
  let E := interE e d0 (inter2 bc z)
  have hb : baseF e E = inter2 bc z := by
    funext c n m r; exact interE_base e d0 _ c n m r
  have hS : Seed e g z h h := ⟨H.alloc, H.val, fun _ _ => rfl, rfl⟩
  have hv : ∀ c r, E c 0 0 0 0 r = if c = 2 then z r else 1 := by
    intro c r
    have := congrFun (congrFun (congrFun (congrFun hb c) 0) 0) r
    unfold baseF at this
    simpa [inter2, vrr] using this
  have key := g0_2e_2d_wp (G := cells2 e he g E) (e := e) (bc := bc) (g := g) (F := inter2 bc z) (h0 := h) (h := h)
    (fun c n m r => congrArg (gAx g e c) (slab4_pos2 he n m r)) (fun _ _ _ => Iff.rfl)
    (fun c n m r => by show baseF e E c n m r = _; rw [hb])
    ⟨fun c n m r _ _ _ _ => vrr_up _ _ n m, fun c n m r _ _ _ _ => vrr_right _ _ n m⟩
    (fun c r hc _ => by have : c ≠ 2 := by omega
                        simp [inter2, vrr, this])
    (seed_tab (fun r _ => by rw [hv]; simp) hS)
  rw [wp_iff_run] at key
  obtain ⟨_, h', h1, h2⟩ := key
  refine ⟨h', h1, ⟨fun q hq => h2.frame q (fun ⟨n, hn, hn'⟩ => hq n hn hn'), h2.int⟩, ?_⟩
  intro c n m r hc hn hm hr
  have := T_val h2 (k := (n,m,r)) hc trivial ⟨hn, hm, hr⟩
  have e1 : (cells2 e he g E).addr c (n,m,r) = gAx g e c (r + n*e.g2d_ijmax + m*e.g2d_klmax) :=
    congrArg (gAx g e c) (slab4_pos2 he n m r)
  have e2 : (cells2 e he g E).v c (n,m,r) = inter2 bc z c n m r := by
    show baseF e E c n m r = _; rw [hb]
  rw [e1, e2] at this
  exact this

/-- C26: whatever the two-dimensional intermediates are, and whichever of the four horizontal recursions is selected,
the result is the array of four-index intermediates determined by the transfer relations from them -/
theorem C26_transfer (e : EnvG) (he : Shape4 e) (d : G2 α) (g : Ptr) (F : Nat → Nat → Nat → Nat → α) (h : Heap α)
    (ha : ∀ n, n < 3*e.g_size → h.D (g + n) ≠ .oob)
    (hF : ∀ c n m r, c < 3 → n ≤ e.li_ceil + e.lj_ceil → m ≤ e.lk_ceil + e.ll_ceil → r < e.nrys_roots →
      h.D (gAx g e c (r + n*e.g2d_ijmax + m*e.g2d_klmax)) = .val (F c n m r)) :
    ∃ E, Transfers d.ri d.rj d.rk d.rl E ∧
      (∀ c n m r, E c (if ibase e then n else 0) (if ibase e then 0 else n) (if kbase e then m else 0) (if kbase e then 0 else m) r
        = F c n m r) ∧
      ∃ h', run (g0Hrr e d g) h = some ((), h') ∧ Within e g h h' ∧
        ∀ c i j k l r, c < 3 → i ≤ e.li_ceil → j ≤ e.lj_ceil → k ≤ e.lk_ceil → l ≤ e.ll_ceil → r < e.nrys_roots →
          h'.D (gAx g e c (slab4 e i j k l r)) = .val (E c i j k l r) := by
  refine ⟨interE e d F, interE_transfers e d F, fun c n m r => interE_base e d F c n m r, ?_⟩
  have key := g0Hrr_wp (e := e) (he := he) (g := g) (h0 := h) (h := h) (interE_transfers e d F) (T_base4 (he := he) ⟨?_, ?_, fun _ _ => rfl, rfl⟩)
  · rw [wp_iff_run] at key
    obtain ⟨_, h', h1, h2⟩ := key
    exact ⟨h', h1, within_of h2, fun c i j k l r hc hi hj hk hl hr => full_val h2 hc hi hj hk hl hr⟩
  · rintro ⟨c, n, m, r⟩ ⟨hc, _, hn, hm, hr⟩
    have e1 : (cells2 e he g (interE e d F)).addr c (n,m,r) = gAx g e c (r + n*e.g2d_ijmax + m*e.g2d_klmax) :=
      congrArg (gAx g e c) (slab4_pos2 he n m r)
    have e2 : (cells2 e he g (interE e d F)).v c (n,m,r) = F c n m r := interE_base e d F c n m r
    show h.D ((cells2 e he g (interE e d F)).addr c (n,m,r)) = .val ((cells2 e he g (interE e d F)).v c (n,m,r))
    rw [e1, e2]
    exact hF c n m r hc hn hm hr
  · rintro q ⟨n, hn, rfl⟩
    exact ha n hn

/-- the transfer relations determine everything from the values with one index of each pair zero -/
theorem transfers_unique {ri rj rk rl : Nat → α} {E E' : Nat → Nat → Nat → Nat → Nat → Nat → α}
    (H : Transfers ri rj rk rl E) (H' : Transfers ri rj rk rl E') (ib kb : Bool)
    (hb : ∀ c n m r, c < 3 → E c (if ib then n else 0) (if ib then 0 else n) (if kb then m else 0) (if kb then 0 else m) r =
      E' c (if ib then n else 0) (if ib then 0 else n) (if kb then m else 0) (if kb then 0 else m) r)
    (c i j k l r : Nat) (hc : c < 3) : E c i j k l r = E' c i j k l r := by
  -- first the second pair, for the base values of the first
  have hkl : ∀ k l n, E c (if ib then n else 0) (if ib then 0 else n) k l r =
      E' c (if ib then n else 0) (if ib then 0 else n) k l r := by
    cases kb
    · intro k
      induction k with
      | zero => intro l n; simpa using hb c n l r hc
      | succ k ih =>
        intro l n
        have a := H.kl c (if ib then n else 0) (if ib then 0 else n) k l r hc
        have b := H'.kl c (if ib then n else 0) (if ib then 0 else n) k l r hc
        rw [ih, ih] at a
        rw [a] at b
        exact add_right_cancel b
    · intro k l
      induction l generalizing k with
      | zero => intro n; simpa using hb c n k r hc
      | succ l ih => intro n; rw [H.kl _ _ _ _ _ _ hc, H'.kl _ _ _ _ _ _ hc, ih, ih]
  cases ib
  · induction i generalizing j with
    | zero => simpa using hkl k l j
    | succ i ih =>
      have a := H.ij c i j k l r hc
      have b := H'.ij c i j k l r hc
      rw [ih, ih] at a
      rw [a] at b
      exact add_right_cancel b
  · induction j generalizing i with
    | zero => simpa using hkl k l i
    | succ j ih => rw [H.ij _ _ _ _ _ _ hc, H'.ij _ _ _ _ _ _ hc, ih, ih]

/-- C26: the base does not matter.  If the two-dimensional intermediates are those of a family `E` that satisfies the
transfer relations, then each of the four horizontal recursions ends with the values of `E` -/
theorem C26_any_base (e : EnvG) (he : Shape4 e) (d : G2 α) (g : Ptr) (E : Nat → Nat → Nat → Nat → Nat → Nat → α)
    (hE : Transfers d.ri d.rj d.rk d.rl E) (h : Heap α)
    (ha : ∀ n, n < 3*e.g_size → h.D (g + n) ≠ .oob)
    (hF : ∀ c n m r, c < 3 → n ≤ e.li_ceil + e.lj_ceil → m ≤ e.lk_ceil + e.ll_ceil → r < e.nrys_roots →
      h.D (gAx g e c (r + n*e.g2d_ijmax + m*e.g2d_klmax)) = .val (E c (if ibase e then n else 0) (if ibase e then 0 else n)
        (if kbase e then m else 0) (if kbase e then 0 else m) r)) :
    ∃ h', run (g0Hrr e d g) h = some ((), h') ∧ Within e g h h' ∧
      ∀ c i j k l r, c < 3 → i ≤ e.li_ceil → j ≤ e.lj_ceil → k ≤ e.lk_ceil → l ≤ e.ll_ceil → r < e.nrys_roots →
        h'.D (gAx g e c (slab4 e i j k l r)) = .val (E c i j k l r) := by
  obtain ⟨E', h1, h2, h', h3, h4, h5⟩ := C26_transfer e he d g
    (fun c n m r => E c (if ibase e then n else 0) (if ibase e then 0 else n) (if kbase e then m else 0) (if kbase e then 0 else m) r)
    h ha hF
  refine ⟨h', h3, h4, fun c i j k l r hc hi hj hk hl hr => ?_⟩
  rw [h5 c i j k l r hc hi hj hk hl hr]
  congr 1
  refine transfers_unique h1 hE (decide (ibase e)) (decide (kbase e)) ?_ c i j k l r hc
  intro c n m r _
  simpa using h2 c n m r

/-- C27: for every combination of angular momenta with sum at most 3, for both root counts and all recursion
coefficients, the unrolled kernel computes the same intermediates as the general recursions -/
theorem C27_unrolled (e : EnvG) (he : Shape4 e) (d : G2 α) (bc : Rys2eT α) (g : Ptr) (z : Nat → α) (h : Heap α)
    (hl : e.li_ceil + e.lj_ceil + e.lk_ceil + e.ll_ceil ≤ 3) (sr : Bool)
    (hn : e.nrys_roots = (if sr then 2 else 1) * ((e.li_ceil + e.lj_ceil + e.lk_ceil + e.ll_ceil)/2 + 1))
    (H : Weights e g z h) :
    ∃ h1 h2, run (g0General e d bc g) h = some ((), h1) ∧
      run (g0Unrolled (if sr then Unrolled.srUnrolled else Unrolled.unrolled) e d bc g) h = some ((), h2) ∧
      Within e g h h1 ∧ Within e g h h2 ∧
      ∀ c i j k l r, c < 3 → i ≤ e.li_ceil → j ≤ e.lj_ceil → k ≤ e.lk_ceil → l ≤ e.ll_ceil → r < e.nrys_roots →
        ∃ v, h1.D (gAx g e c (slab4 e i j k l r)) = .val v ∧ h2.D (gAx g e c (slab4 e i j k l r)) = .val v := by
  let E := interE e d (inter2 bc z)
  have hE := interE_transfers e d (inter2 bc z)
  have hb : baseF e E = inter2 bc z := by
    funext c n m r; exact interE_base e d _ c n m r
  have hS : Seed e g z h h := ⟨H.alloc, H.val, fun _ _ => rfl, rfl⟩
  have hv : ∀ c r, E c 0 0 0 0 r = if c = 2 then z r else 1 := by
    intro c r
    have := congrFun (congrFun (congrFun (congrFun hb c) 0) 0) r
    unfold baseF at this
    simpa [inter2, vrr] using this
  have hR : Rec2 bc e.nrys_roots (e.li_ceil + e.lj_ceil) (e.lk_ceil + e.ll_ceil) (baseF e E) := by
    rw [hb]
    exact ⟨fun c n m r _ _ _ _ => vrr_up _ _ n m, fun c n m r _ _ _ _ => vrr_right _ _ n m⟩
  have v1 : ∀ c r, c < 2 → r < e.nrys_roots → E c 0 0 0 0 r = 1 := fun c r hc _ => by
    rw [hv, if_neg (by omega)]
  have v2 : ∀ r, r < e.nrys_roots → E 2 0 0 0 0 r = z r := fun r _ => by rw [hv]; simp
  have k1 := g0General_wp (he := he) (g := g) (h := h) hE hR v1 v2 hS
  have k2 : wp (g0Unrolled (if sr then Unrolled.srUnrolled else Unrolled.unrolled) e d bc g)
      (fun _ h' => (cells4 e he g E).T h (full4 e) h') h := by
    cases sr
    · exact g0Unrolled_wp unrolled_checked hl hn hE hR v1 v2 hS
    · exact g0Unrolled_wp srUnrolled_checked hl hn hE hR v1 v2 hS
  rw [wp_iff_run] at k1 k2
  obtain ⟨_, h1, r1, t1⟩ := k1
  obtain ⟨_, h2, r2, t2⟩ := k2
  exact ⟨h1, h2, r1, r2, within_of t1, within_of t2, fun c i j k l r hc hi hj hk hl hr =>
    ⟨_, full_val t1 hc hi hj hk hl hr, full_val t2 hc hi hj hk hl hr⟩⟩

/-- C26, C27, C28 together: the selected function (unrolled or general) computes the intermediates determined by the
recursion and transfer relations -/
theorem C28_intermediates (e : EnvG) (he : Shape4 e) (d : G2 α) (bc : Rys2eT α) (g : Ptr) (z : Nat → α) (h : Heap α)
    (hord : e.rys_order = (e.li_ceil + e.lj_ceil + e.lk_ceil + e.ll_ceil)/2 + 1)
    (hn : e.nrys_roots = e.rys_order ∨ e.nrys_roots = 2*e.rys_order) (H : Weights e g z h) :
    ∃ E, Transfers d.ri d.rj d.rk d.rl E ∧
      (∀ c n m r, E c (if ibase e then n else 0) (if ibase e then 0 else n) (if kbase e then m else 0) (if kbase e then 0 else m) r
        = vrr (coeff bc c r) (if c = 2 then z r else 1) n m) ∧
      ∃ h', run (g0_2d4d e d bc g) h = some ((), h') ∧ Within e g h h' ∧
        ∀ c i j k l r, c < 3 → i ≤ e.li_ceil → j ≤ e.lj_ceil → k ≤ e.lk_ceil → l ≤ e.ll_ceil → r < e.nrys_roots →
          h'.D (gAx g e c (slab4 e i j k l r)) = .val (E c i j k l r) := by
  let E := interE e d (inter2 bc z)
  have hE := interE_transfers e d (inter2 bc z)
  have hb : baseF e E = inter2 bc z := by
    funext c n m r; exact interE_base e d _ c n m r
  have hS : Seed e g z h h := ⟨H.alloc, H.val, fun _ _ => rfl, rfl⟩
  have hv : ∀ c r, E c 0 0 0 0 r = if c = 2 then z r else 1 := by
    intro c r
    have := congrFun (congrFun (congrFun (congrFun hb c) 0) 0) r
    unfold baseF at this
    simpa [inter2, vrr] using this
  have k := g0_2d4d_wp (he := he) (g := g) (h := h) (bc := bc) hord hn hE (by
    rw [hb]
    exact ⟨fun c n m r _ _ _ _ => vrr_up _ _ n m, fun c n m r _ _ _ _ => vrr_right _ _ n m⟩)
    (fun c r hc _ => (hv c r).trans (if_neg (by omega))) (fun r _ => (hv 2 r).trans (if_pos rfl)) hS
  rw [wp_iff_run] at k
  obtain ⟨_, h', h1, h2⟩ := k
  exact ⟨E, hE, fun c n m r => interE_base e d _ c n m r, h', h1, within_of h2,
    fun c i j k l r hc hi hj hk hl hr => full_val h2 hc hi hj hk hl hr⟩

end

/-- C28: for every node, direction and order the two-dimensional intermediate is the moment of the Gaussian distribution
with mean `(c00, c0p)` and covariances `b10`, `b00`, `b01`, times the weight in the third direction -/
theorem C28_moments (e : EnvG) (he : Shape4 e) (bc : Rys2eT ℝ) (g : Ptr) (z : Nat → ℝ) (h : Heap ℝ) (H : Weights e g z h) :
    ∃ h', run (g0_2e_2d e bc g) h = some ((), h') ∧ Within e g h h' ∧
      ∀ c n m r, c < 3 → n ≤ e.li_ceil + e.lj_ceil → m ≤ e.lk_ceil + e.ll_ceil → r < e.nrys_roots →
        0 < bc.b10 r → 0 < bc.b01 r → (bc.b00 r)^2 < bc.b10 r * bc.b01 r →
        h'.D (gAx g e c (r + n*e.g2d_ijmax + m*e.g2d_klmax)) =
          .val ((if c = 2 then z r else 1) * mean2 (coeff bc c r) (fun x y => x^n * y^m)) := by
  obtain ⟨h', h1, h2, h3⟩ := C28_recursion e he bc g z h H
  refine ⟨h', h1, h2, fun c n m r hc hn hm hr p1 p2 p3 => ?_⟩
  rw [h3 c n m r hc hn hm hr, vrr_mean p1 p2 p3]

/-- C28: the coefficients computed by CINTg0_2e meet the conditions of `C28_moments` -/
theorem C28_coefficients (e : EnvG) (d : G2 ℝ) (u : Nat → ℝ) (r : Nat) (hi : 0 < d.ai + d.aj) (hk : 0 < d.ak + d.al)
    (hu : 0 ≤ u r) :
    0 < (bc2e e d u).b10 r ∧ 0 < (bc2e e d u).b01 r ∧ ((bc2e e d u).b00 r)^2 < (bc2e e d u).b10 r * (bc2e e d u).b01 r := by
  unfold bc2e
  dsimp only
  generalize d.ai + d.aj = a at hi
  generalize d.ak + d.al = b at hk
  have hV : 0 ≤ a*b/(a+b)*u r := by positivity
  generalize a*b/(a+b)*u r = V at hV
  have hD : 0 < V*(a+b)+a*b := by positivity
  have ht : 0 < 1/2/(V*(a+b)+a*b) := by positivity
  have hab := mul_pos hi hk
  refine ⟨by positivity, by positivity, ?_⟩
  generalize 1/2/(V*(a+b)+a*b) = t at ht
  have : 0 < t^2 * (V*(a+b)+a*b) := by positivity
  nlinarith

/-! ### The hypotheses can be met -/

namespace G2eDemo

/-- (dp|pd) -/
def e1 : EnvG := initInt2e 2 1 1 2 {} false
/-- (ps|sp), doubled roots -/
def e2 : EnvG := initInt2e 1 0 0 1 {} true

def hp (z : Nat → ℝ) (e : EnvG) : Heap ℝ :=
  ⟨fun q => if q.buf = 0 ∧ 2*e.g_size ≤ q.off then .val (z (q.off - 2*e.g_size)) else .undef, fun _ => .undef⟩

theorem weights (z : Nat → ℝ) (e : EnvG) : Weights e ⟨0,0⟩ z (hp z e) := by
  refine ⟨fun n _ => ?_, fun r _ => ?_⟩
  · unfold hp; dsimp only; split <;> simp
  · unfold hp gAx; simp

example : e1.nrys_roots = 4 ∧ e1.g_size = 4*4*2*4*2 ∧ ibase e1 ∧ ¬ kbase e1 := by decide

/-- b00 = 1/10, b10 = b01 = 1/2 -/
noncomputable def bc : Rys2eT ℝ := ⟨fun _ => 1/10, fun _ => 1/2, fun _ => 1/2, fun c r => c + r, fun _ _ => 3⟩

example : ∃ h', run (g0_2e_2d e1 bc ⟨0,0⟩) (hp (fun _ => 7) e1) = some ((), h') ∧
    h'.D (gAx ⟨0,0⟩ e1 2 (1 + 3*e1.g2d_ijmax + 2*e1.g2d_klmax)) =
      .val (7 * mean2 ⟨3, 3, 1/10, 1/2, 1/2⟩ (fun x y => x^3 * y^2)) := by
  obtain ⟨h', h1, _, h3⟩ := C28_moments e1 (shape4_int2e 2 1 1 2 _ _) bc ⟨0,0⟩ (fun _ => 7) _ (weights _ e1)
  have := h3 2 3 2 1 (by decide) (by decide) (by decide) (by decide) (by norm_num [bc]) (by norm_num [bc]) (by norm_num [bc])
  refine ⟨h', h1, ?_⟩
  rw [this]
  simp [coeff, bc]
  norm_num

noncomputable def cen : G2 ℝ := ⟨1,2,1,1,fun c => c,fun _ => 1,fun _ => 0,fun c => 2*c,fun _ => 0,fun _ => 1,-1/2⟩

example : e2.nrys_roots = 4 ∧ ibase e2 ∧ ¬ kbase e2 := by decide

example : ∃ h1 h2, run (g0General e2 cen bc ⟨0,0⟩) (hp (fun r => r) e2) = some ((), h1) ∧
    run (g0Unrolled Unrolled.srUnrolled e2 cen bc ⟨0,0⟩) (hp (fun r => r) e2) = some ((), h2) := by
  obtain ⟨h1, h2, a, b, _⟩ := C27_unrolled e2 (shape4_int2e 1 0 0 1 _ _) cen bc ⟨0,0⟩ _ _ (by decide) true (by decide)
    (weights (fun r => r) e2)
  exact ⟨h1, h2, a, b⟩

example : ∃ E h', Transfers cen.ri cen.rj cen.rk cen.rl E ∧
    run (g0_2d4d e1 cen bc ⟨0,0⟩) (hp (fun r => r) e1) = some ((), h') := by
  obtain ⟨E, h1, _, h', h2, _⟩ := C28_intermediates e1 (shape4_int2e 2 1 1 2 _ _) cen bc ⟨0,0⟩ _ _ (by decide) (by decide)
    (weights (fun r => r) e1)
  exact ⟨E, h', h1, h2⟩

/-- a family of intermediates: `E c i j k l r = xⁱ yʲ zᵏ wˡ` with `y - x = ri - rj`, `w - z = rk - rl` -/
noncomputable def fam (c i j k l _r : Nat) : ℝ := 2^i * (2 + (c - 1))^j * 5^k * (5 - 2*c)^l

example : Transfers cen.ri cen.rj cen.rk cen.rl fam :=
  ⟨fun c i j k l r _ => by simp only [fam, cen]; ring, fun c i j k l r _ => by simp only [fam, cen]; ring⟩

end G2eDemo
end Verif.Props
