import Verif.Lemmas.EriVal

/-! CINTg0_2e fills the array of intermediates for the interaction selected by `omega`. -/
namespace Verif
open Prog
namespace Tab
variable {α ι : Type} {h h' : Heap α} {Gs : Ptr → Prop} {S S' : ι → Prop} {addr : ι → Ptr} {v v' : ι → α}

/-- a store that changes the value of one cell -/
theorem update (H : Tab h h' Gs S addr v) {k : ι} {x : α} (hk : Gs (addr k))
    (hS : ∀ k', S' k' → (k' = k ∧ v' k' = x) ∨ (S k' ∧ addr k' ≠ addr k ∧ v' k' = v k')) :
    Tab h (h'.setD (addr k) x) Gs S' addr v' := by
  refine ⟨fun k' hk' => ?_, fun q hq => ?_, fun q hq => ?_, H.int⟩
  · rcases hS k' hk' with ⟨rfl, e⟩ | ⟨h1, h2, h3⟩
    · rw [Heap.setD_D_self, e]
    · rw [Heap.setD_D_ne _ _ h2, H.val k' h1, h3]
  · rw [Heap.setD_D]
    split
    · simp
    · exact H.alloc q hq
  · rw [Heap.setD_D_ne _ _ (fun e => hq (by rw [e]; exact hk)), H.frame q hq]
end Tab

namespace Lemmas
open Verif.Model Verif.Spec Verif.Props

section
variable {α : Type}

theorem gAx_inj {g : Ptr} {e : EnvG} {c r r' : Nat} (h : gAx g e c r = gAx g e c r') : r = r' := by
  have := congrArg Ptr.off h
  unfold gAx at this
  have : g.off + (c*e.g_size + r) = g.off + (c*e.g_size + r') := this
  omega

/-- the array of intermediates -/
def regG (e : EnvG) (g : Ptr) (q : Ptr) : Prop := ∃ n, n < 3 * e.g_size ∧ q = g + n

theorem reg_root {e : EnvG} (he : Shape4 e) {g : Ptr} {r : Nat} (hr : r < e.nrys_roots) : regG e g (gAx g e 2 r) := by
  have := he.gs
  have h1 : ∀ a b, 1 ≤ dimA a b := fun a b => by unfold dimA; split <;> omega
  have h2 : ∀ a b, 1 ≤ dimB a b := fun a b => by unfold dimB; split <;> omega
  have h3 : e.nrys_roots ≤ e.g_size := by
    rw [this]
    refine le_trans (Nat.le_mul_of_pos_right _ (h1 e.li_ceil e.lj_ceil)) ?_
    refine le_trans (Nat.le_mul_of_pos_right _ (h1 e.lk_ceil e.ll_ceil)) ?_
    refine le_trans (Nat.le_mul_of_pos_right _ (h2 e.lk_ceil e.ll_ceil)) ?_
    exact Nat.le_mul_of_pos_right _ (h2 e.li_ceil e.lj_ceil)
  exact ⟨2*e.g_size + r, by omega, rfl⟩

/-- the weights of the roots `S` are in place -/
abbrev WTab (e : EnvG) (g : Ptr) (h0 h : Heap α) (S : Nat → Prop) (w : Nat → α) : Prop :=
  Tab h0 h (regG e g) S (fun r => gAx g e 2 r) w

theorem fillW_wp {e : EnvG} (he : Shape4 e) {g : Ptr} {h0 h : Heap α} {S S' : Nat → Prop} {w : Nat → α} {n lo : Nat} {v : Nat → α}
    (H : WTab e g h0 h S w) (hn : lo + n ≤ e.nrys_roots) (hv : ∀ i, i < n → v i = w (lo + i))
    (hS : ∀ r, S' r → S r ∨ (lo ≤ r ∧ r < lo + n)) :
    wp (forN n fun i => st (gAx g e 2 (lo + i)) (v i)) (fun _ h' => WTab e g h0 h' S' w) h := by
  refine wp_forN (fun i h' => WTab e g h0 h' (fun r => S r ∨ (lo ≤ r ∧ r < lo + i)) w) ?_ ?_ ?_
  · exact H.mono fun k hk => hk.resolve_right (by omega)
  · intro i hi h' H'
    refine Tab.wp_st (k := lo + i) H' (reg_root he (by omega)) (hv i hi) ?_ rfl
    intro k hk
    by_cases e : k = lo + i
    · exact Or.inl e
    · refine Or.inr ⟨hk.imp id (fun h => by omega), fun h => e (gAx_inj h)⟩
  · intro h' H'
    exact H'.mono hS

theorem scaleW_wp [Mul α] {e : EnvG} (he : Shape4 e) {g : Ptr} {h0 h : Heap α} {w w' : Nat → α} {n lo : Nat} {f : α}
    (H : WTab e g h0 h (fun r => r < e.nrys_roots) w) (hn : lo + n ≤ e.nrys_roots)
    (hw : ∀ r, r < e.nrys_roots → w' r = if lo ≤ r ∧ r < lo + n then w r * f else w r) :
    wp (forN n fun i => do
        let z ← ld (gAx g e 2 (lo + i))
        st (gAx g e 2 (lo + i)) (z * f)) (fun _ h' => WTab e g h0 h' (fun r => r < e.nrys_roots) w') h := by
  refine wp_forN (fun i h' => WTab e g h0 h' (fun r => r < e.nrys_roots)
    (fun r => if lo ≤ r ∧ r < lo + i then w r * f else w r)) ?_ ?_ ?_
  · exact H.congr fun k hk => ⟨hk, if_neg (by omega)⟩
  · intro i hi h' H'
    rw [wp_mbind, wp_ld]
    have hv := H'.val (lo+i) (show lo + i < _ by omega)
    rw [if_neg (by omega)] at hv
    refine ⟨_, hv, ?_⟩
    rw [wp_st]
    refine ⟨by rw [hv]; simp, ?_⟩
    refine Tab.update (k := lo+i) H' (reg_root he (by omega)) ?_
    intro k hk
    by_cases ek : k = lo + i
    · subst ek
      exact Or.inl ⟨rfl, if_pos ⟨by omega, by omega⟩⟩
    · refine Or.inr ⟨hk, fun h => ek (gAx_inj h), ?_⟩
      by_cases hc : lo ≤ k ∧ k < lo + i
      · rw [if_pos hc, if_pos ⟨hc.1, by omega⟩]
      · rw [if_neg hc, if_neg (by omega)]
  · intro h' H'
    exact H'.congr fun k hk => ⟨hk, hw k hk⟩
end

section
variable {α : Type} [Field α] [LinearOrder α]
variable {e : EnvG} {he : Shape4 e} {g : Ptr} {E : Nat → Nat → Nat → Nat → Nat → Nat → α} {d : G2 α} {h0 h : Heap α}

theorem size_one {R A B C D : Nat} (h : 1 = R * A * B * C * D) : R = 1 ∧ A = 1 ∧ B = 1 ∧ C = 1 ∧ D = 1 := by
  have h' := h.symm
  obtain ⟨h1, e5⟩ := mul_eq_one.mp h'
  obtain ⟨h2, e4⟩ := mul_eq_one.mp h1
  obtain ⟨h3, e3⟩ := mul_eq_one.mp h2
  obtain ⟨e1, e2⟩ := mul_eq_one.mp h3
  exact ⟨e1, e2, e3, e4, e5⟩

theorem g0Rest_wp {u w : Nat → α} {fac1 : α} (hord : e.rys_order = (e.li_ceil + e.lj_ceil + e.lk_ceil + e.ll_ceil)/2 + 1)
    (hn : e.nrys_roots = e.rys_order ∨ (e.nrys_roots = 2*e.rys_order))
    (hE : Hrr4 d E)
    (hF : Rec2 (bc2e e d u) e.nrys_roots (e.li_ceil + e.lj_ceil) (e.lk_ceil + e.ll_ceil) (baseF e E))
    (h1 : ∀ c r, c < 2 → r < e.nrys_roots → E c 0 0 0 0 r = 1) (hz : ∀ r, r < e.nrys_roots → E 2 0 0 0 0 r = w r * fac1)
    (H : WTab e g h0 h (fun r => r < e.nrys_roots) w) :
    wp (g0Rest e d g u fac1) (fun b h' => b = true ∧ (cells4 e he g E).T h0 (full4 e) h') h := by
  unfold g0Rest
  by_cases hg : e.g_size = 1
  · rw [if_pos hg]
    have gs := he.gs
    rw [hg] at gs
    obtain ⟨q1, q2, q3, q4, q5⟩ := size_one gs
    have e0 : ∀ c, gAx g e c 0 = g + c := by
      intro c; unfold gAx; rw [hg]; congr 1; omega
    have hv := H.val 0 (show 0 < e.nrys_roots by omega)
    rw [e0] at hv
    have hne : ∀ i j : Nat, i ≠ j → g + i ≠ g + j := by
      intro i j hij h
      have := congrArg Ptr.off h
      have : g.off + i = g.off + j := this
      omega
    have hR : ∀ c, c < 3 → regG e g (g + c) := fun c hc => ⟨c, by omega, rfl⟩
    rw [wp_mbind, wp_st]
    refine ⟨H.alloc _ (hR 0 (by omega)), ?_⟩
    rw [wp_mbind, wp_st]
    refine ⟨by rw [Heap.setD_D_ne _ _ (hne 1 0 (by omega))]; exact H.alloc _ (hR 1 (by omega)), ?_⟩
    rw [wp_mbind, wp_ld]
    refine ⟨w 0, by rw [Heap.setD_D_ne _ _ (hne 2 1 (by omega)), Heap.setD_D_ne _ _ (hne 2 0 (by omega))]; exact hv, ?_⟩
    rw [wp_mbind, wp_st]
    refine ⟨by rw [Heap.setD_D_ne _ _ (hne 2 1 (by omega)), Heap.setD_D_ne _ _ (hne 2 0 (by omega))]; rw [hv]; simp, ?_⟩
    rw [wp_pure]
    refine ⟨rfl, ?_⟩
    have hadr : ∀ c, (cells4 e he g E).addr c (0,0,0,0,0) = g + c := by
      intro c
      rw [cells4_addr, ← e0 c]
      congr 1
    have hbox : ∀ x, (cells4 e he g E).box x → x = (0,0,0,0,0) := by
      rintro ⟨i,j,k,l,r⟩ ⟨b1, b2, b3, b4, b5⟩
      dsimp only at *
      have : i = 0 ∧ j = 0 ∧ k = 0 ∧ l = 0 ∧ r = 0 := by omega
      obtain ⟨rfl, rfl, rfl, rfl, rfl⟩ := this
      rfl
    refine ⟨?_, ?_, ?_, ?_⟩
    · rintro ⟨c, x⟩ ⟨hc, _, hx⟩
      dsimp only at hc hx
      obtain rfl := hbox x hx
      dsimp only
      rw [hadr]
      show _ = Cell.val (E c 0 0 0 0 0)
      by_cases c2 : c = 2
      · subst c2
        rw [Heap.setD_D_self, hz 0 (by omega)]
      · rw [h1 c 0 (by omega) (by omega), Heap.setD_D_ne _ _ (hne c 2 c2)]
        by_cases c1 : c = 1
        · subst c1; rw [Heap.setD_D_self]
        · rw [Heap.setD_D_ne _ _ (hne c 1 c1)]
          have : c = 0 := by omega
          subst this
          rw [Heap.setD_D_self]
    · intro q hq
      have := H.alloc q hq
      rw [Heap.setD_D]; split
      · simp
      · rw [Heap.setD_D]; split
        · simp
        · rw [Heap.setD_D]; split
          · simp
          · exact this
    · intro q hq
      have hq' : ∀ c, c < 3 → q ≠ g + c := fun c hc he' => hq (by rw [he']; exact hR c hc)
      rw [Heap.setD_D_ne _ _ (hq' 2 (by omega)), Heap.setD_D_ne _ _ (hq' 1 (by omega)), Heap.setD_D_ne _ _ (hq' 0 (by omega))]
      exact H.frame q hq
    · exact H.int
  · rw [if_neg hg, wp_mbind]
    have hs := scaleW_wp (lo := 0) (n := e.nrys_roots) (f := fac1) (w' := fun r => if r < e.nrys_roots then w r * fac1 else w r) he H
      (by omega) (fun r hr => by simp)
    simp only [Nat.zero_add] at hs
    refine wp_mono hs ?_
    intro _ h2 H2
    rw [wp_mbind]
    refine wp_mono (g0_2d4d_wp (he := he) (z := fun r => if r < e.nrys_roots then w r * fac1 else w r) hord hn hE hF h1
      (fun r hr => by rw [hz r hr, if_pos hr])
      ⟨fun n hn' => H2.alloc _ ⟨n, hn', rfl⟩, fun r hr => H2.val r hr, H2.frame, H2.int⟩) ?_
    intro _ h3 H3
    rw [wp_pure]
    exact ⟨rfl, H3⟩
end

/-! ### Nodes and weights -/

section
variable (R : Rys2 ℝ) (e : EnvG) (d : G2 ℝ)

/-- `ab/(a+b)` -/
noncomputable def G2.a0 : ℝ := (d.ai + d.aj) * (d.ak + d.al) / (d.ai + d.aj + (d.ak + d.al))
/-- `ω²/(ω²+ab/(a+b))` -/
noncomputable def G2.theta : ℝ := d.omega * d.omega / (d.omega * d.omega + G2.a0 d)
/-- the argument of the quadrature, for the full interaction -/
noncomputable def G2.x : ℝ := G2.a0 d * ((d.rij 0 - d.rkl 0) * (d.rij 0 - d.rkl 0) + (d.rij 1 - d.rkl 1) * (d.rij 1 - d.rkl 1) +
  (d.rij 2 - d.rkl 2) * (d.rij 2 - d.rkl 2))

noncomputable def nodeU : Nat → ℝ :=
  if d.omega = 0 then R.u e.nrys_roots (G2.x d)
  else if d.omega < 0 then
    if e.rys_order = e.nrys_roots then R.sru e.nrys_roots (G2.x d) (Real.sqrt (G2.theta d))
    else fun n => if n < e.rys_order then R.u e.rys_order (G2.x d) n
      else scaleRoot (G2.theta d) (R.u e.rys_order (G2.theta d * G2.x d) (n - e.rys_order))
  else fun n => scaleRoot (G2.theta d) (R.u e.nrys_roots (G2.x d * G2.theta d) n)

noncomputable def nodeW : Nat → ℝ :=
  if d.omega = 0 then R.w e.nrys_roots (G2.x d)
  else if d.omega < 0 then
    if e.rys_order = e.nrys_roots then R.srw e.nrys_roots (G2.x d) (Real.sqrt (G2.theta d))
    else fun n => if n < e.rys_order then R.w e.rys_order (G2.x d) n
      else R.w e.rys_order (G2.theta d * G2.x d) (n - e.rys_order) * -Real.sqrt (G2.theta d)
  else fun n => R.w e.nrys_roots (G2.x d * G2.theta d) n * Real.sqrt (G2.theta d)

/-- short-range integrals of well separated primitives are dropped -/
def G2.kept (cutoff : ℝ) : Prop := ¬ (d.omega < 0 ∧ (G2.theta d * G2.x d > cutoff ∨ G2.theta d * G2.x d > 40))

/-- `√(a₀/a₁³)` -/
noncomputable def G2.norm : ℝ := Real.sqrt (G2.a0 d / ((d.ai + d.aj) * (d.ak + d.al) * ((d.ai + d.aj) * (d.ak + d.al)) *
  ((d.ai + d.aj) * (d.ak + d.al))))
end

open Classical in
theorem g0_2e_wp {R : Rys2 ℝ} {e : EnvG} {he : Shape4 e} {d : G2 ℝ} {cutoff fac : ℝ} {g : Ptr} {h : Heap ℝ}
    (hord : e.rys_order = (e.li_ceil + e.lj_ceil + e.lk_ceil + e.ll_ceil)/2 + 1)
    (hn : e.nrys_roots = e.rys_order ∨ (e.nrys_roots = 2*e.rys_order))
    (ha : 0 < d.ai + d.aj) (hb : 0 < d.ak + d.al) (hu : ∀ r, r < e.nrys_roots → 0 ≤ nodeU R e d r)
    (hA : ∀ q, regG e g q → h.D q ≠ .oob) :
    wp (g0_2e R realK e d cutoff g fac) (fun b h' => b = decide (G2.kept d cutoff) ∧ AgreeD h h' (regG e g) ∧ h'.I = h.I ∧
      (b = true → (cells4 e he g (eriE d (nodeU R e d) (fun r => nodeW R e d r * (G2.norm d * fac)))).T h (full4 e) h')) h := by
  have hrest : ∀ (w : Nat → ℝ) (f : ℝ) (h1 : Heap ℝ), (∀ r, r < e.nrys_roots → w r * f = nodeW R e d r * (G2.norm d * fac)) →
      WTab e g h h1 (fun r => r < e.nrys_roots) w → ∀ u, u = nodeU R e d → G2.kept d cutoff →
      wp (g0Rest e d g u f) (fun b h' => b = decide (G2.kept d cutoff) ∧ AgreeD h h' (regG e g) ∧ h'.I = h.I ∧
        (b = true → (cells4 e he g (eriE d (nodeU R e d) (fun r => nodeW R e d r * (G2.norm d * fac)))).T h (full4 e) h')) h1 := by
    rintro w f h1 hw H1 u rfl hk
    refine wp_mono (g0Rest_wp (he := he) (E := eriE d (nodeU R e d) (fun r => nodeW R e d r * (G2.norm d * fac))) hord hn
      (eriE_hrr ha hb _ _) (eriE_rec ha hb _ _ e hu _ _) (fun c r hc _ => ?_) (fun r hr => ?_) H1) ?_
    · rw [eriE_zero ha hb, if_neg (by omega)]
    · rw [eriE_zero ha hb, if_pos rfl, hw r hr]
    · rintro b h' ⟨rfl, HT⟩
      exact ⟨by simp [hk], HT.frame, HT.int, fun _ => HT⟩
  have H0 : WTab e g h h (fun _ => False) (fun _ => 0) := Tab.init hA (fun _ => id)
  unfold g0_2e
  dsimp only
  by_cases o0 : d.omega = 0
  · have hk : G2.kept d cutoff := fun hh => by rw [o0] at hh; exact lt_irrefl _ hh.1
    rw [if_pos o0, wp_mbind]
    have hf := fillW_wp (S' := fun r => r < e.nrys_roots) (w := R.w e.nrys_roots (G2.x d)) (lo := 0) (n := e.nrys_roots)
      (v := R.w e.nrys_roots (G2.x d)) he (Tab.init hA (fun _ => id) : WTab e g h h (fun _ => False) _) (by omega)
      (fun i _ => by rw [Nat.zero_add]) (fun r hr => Or.inr ⟨by omega, by omega⟩)
    simp only [Nat.zero_add] at hf
    refine wp_mono hf ?_
    intro _ h1 H1
    refine hrest _ _ h1 ?_ H1 _ ?_ hk
    · intro r _
      unfold nodeW
      rw [if_pos o0]
      rfl
    · unfold nodeU
      rw [if_pos o0]
      rfl
  rw [if_neg o0]
  by_cases o1 : d.omega < 0
  · rw [if_pos o1]
    by_cases hc : G2.theta d * G2.x d > cutoff ∨ G2.theta d * G2.x d > 40
    · have hk : ¬ G2.kept d cutoff := fun hh => hh ⟨o1, hc⟩
      have hc' := hc
      unfold G2.theta G2.x G2.a0 at hc'
      rw [if_pos hc', wp_pure]
      exact ⟨by simp [hk], AgreeD.refl _ _, rfl, fun h => by simp at h⟩
    have hk : G2.kept d cutoff := fun hh => hc hh.2
    have hc' := hc
    unfold G2.theta G2.x G2.a0 at hc'
    rw [if_neg hc']
    by_cases ho : e.rys_order = e.nrys_roots
    · rw [if_pos ho, wp_mbind]
      have hf := fillW_wp (S' := fun r => r < e.nrys_roots) (w := R.srw e.nrys_roots (G2.x d) (Real.sqrt (G2.theta d))) (lo := 0) (n := e.nrys_roots)
        (v := R.srw e.nrys_roots (G2.x d) (Real.sqrt (G2.theta d))) he (Tab.init hA (fun _ => id) : WTab e g h h (fun _ => False) _) (by omega)
        (fun i _ => by rw [Nat.zero_add]) (fun r hr => Or.inr ⟨by omega, by omega⟩)
      simp only [Nat.zero_add] at hf
      refine wp_mono hf ?_
      intro _ h1 H1
      refine hrest _ _ h1 ?_ H1 _ ?_ hk
      · intro r _
        unfold nodeW
        rw [if_neg o0, if_pos o1, if_pos ho]
        rfl
      · unfold nodeU
        rw [if_neg o0, if_pos o1, if_pos ho]
        rfl
    · rw [if_neg ho]
      have hn2 : e.nrys_roots = 2*e.rys_order := hn.resolve_left (fun h => ho h.symm)
      let W : Nat → ℝ := fun r => if r < e.rys_order then R.w e.rys_order (G2.x d) r
        else R.w e.rys_order (G2.theta d * G2.x d) (r - e.rys_order)
      rw [wp_mbind]
      have hf := fillW_wp (S' := fun r => r < e.rys_order) (w := W) (lo := 0) (n := e.rys_order)
        (v := R.w e.rys_order (G2.x d)) he (Tab.init hA (fun _ => id) : WTab e g h h (fun _ => False) _) (by omega)
        (fun i hi => by rw [Nat.zero_add]; exact (if_pos hi).symm) (fun r hr => Or.inr ⟨by omega, by omega⟩)
      simp only [Nat.zero_add] at hf
      refine wp_mono hf ?_
      intro _ h1 H1
      rw [wp_mbind]
      refine wp_mono (fillW_wp (S' := fun r => r < e.nrys_roots) (w := W) (lo := e.rys_order) (n := e.rys_order)
        (v := R.w e.rys_order (G2.theta d * G2.x d)) he H1 (by omega)
        (fun i hi => by
          show _ = if _ then _ else _
          rw [if_neg (by omega), Nat.add_sub_cancel_left]) (fun r hr => by omega)) ?_
      intro _ h2 H2
      have hnW : ∀ r, nodeW R e d r = if r < e.rys_order then W r else W r * -Real.sqrt (G2.theta d) := by
        intro r
        unfold nodeW
        rw [if_neg o0, if_pos o1, if_neg ho]
        show (if _ then _ else _) = if _ then (if _ then _ else _) else (if _ then _ else _) * _
        by_cases hr : r < e.rys_order
        · simp only [if_pos hr]
        · simp only [if_neg hr]
      by_cases hg : e.g_size = 2
      · rw [if_pos hg]
        have gs := he.gs
        have : e.nrys_roots = 2 * e.rys_order := hn2
        have : 1 ≤ e.rys_order := by omega
        have key : 1 = e.rys_order * dimA e.li_ceil e.lj_ceil * dimA e.lk_ceil e.ll_ceil * dimB e.lk_ceil e.ll_ceil *
            dimB e.li_ceil e.lj_ceil := by
          rw [hg, hn2] at gs
          have : 2 * 1 = 2 * (e.rys_order * dimA e.li_ceil e.lj_ceil * dimA e.lk_ceil e.ll_ceil * dimB e.lk_ceil e.ll_ceil *
            dimB e.li_ceil e.lj_ceil) := by rw [Nat.mul_one]; calc 2 = _ := gs
              _ = _ := by ring
          exact Nat.eq_of_mul_eq_mul_left (by decide) this
        obtain ⟨q1, q2, q3, q4, q5⟩ := size_one key
        have e0 : ∀ c r, gAx g e c r = g + (2*c+r) := by
          intro c r; unfold gAx; rw [hg, Nat.mul_comm c]
        have hne : ∀ i j : Nat, i ≠ j → g + i ≠ g + j := by
          intro i j hij h
          have := congrArg Ptr.off h
          have : g.off + i = g.off + j := this
          omega
        have hR : ∀ c, c < 6 → regG e g (g + c) := fun c hc => ⟨c, by omega, rfl⟩
        have hv0 := H2.val 0 (show 0 < e.nrys_roots by omega)
        have hv1 := H2.val 1 (show 1 < e.nrys_roots by omega)
        rw [e0] at hv0 hv1
        have hW0 : W 0 * (G2.norm d * fac) = nodeW R e d 0 * (G2.norm d * fac) := by
          rw [hnW, if_pos (by omega)]
        have hW1 : W 1 * (G2.norm d * fac * -Real.sqrt (G2.theta d)) = nodeW R e d 1 * (G2.norm d * fac) := by
          rw [hnW, if_neg (by omega)]; ring
        have hA2 : ∀ c, c < 6 → h2.D (g + c) ≠ .oob := fun c hc => H2.alloc _ (hR c hc)
        rw [wp_mbind, wp_st]
        refine ⟨hA2 0 (by omega), ?_⟩
        rw [wp_mbind, wp_st]
        refine ⟨by rw [Heap.setD_D_ne _ _ (hne 1 0 (by omega))]; exact hA2 1 (by omega), ?_⟩
        rw [wp_mbind, wp_st]
        refine ⟨by rw [Heap.setD_D_ne _ _ (hne 2 1 (by omega)), Heap.setD_D_ne _ _ (hne 2 0 (by omega))]; exact hA2 2 (by omega), ?_⟩
        rw [wp_mbind, wp_st]
        refine ⟨by rw [Heap.setD_D_ne _ _ (hne 3 2 (by omega)), Heap.setD_D_ne _ _ (hne 3 1 (by omega)),
          Heap.setD_D_ne _ _ (hne 3 0 (by omega))]; exact hA2 3 (by omega), ?_⟩
        rw [wp_mbind, wp_ld]
        refine ⟨W 0, by rw [Heap.setD_D_ne _ _ (hne 4 3 (by omega)), Heap.setD_D_ne _ _ (hne 4 2 (by omega)),
          Heap.setD_D_ne _ _ (hne 4 1 (by omega)), Heap.setD_D_ne _ _ (hne 4 0 (by omega))]; exact hv0, ?_⟩
        rw [wp_mbind, wp_st]
        refine ⟨by rw [Heap.setD_D_ne _ _ (hne 4 3 (by omega)), Heap.setD_D_ne _ _ (hne 4 2 (by omega)),
          Heap.setD_D_ne _ _ (hne 4 1 (by omega)), Heap.setD_D_ne _ _ (hne 4 0 (by omega))]; exact hA2 4 (by omega), ?_⟩
        rw [wp_mbind, wp_ld]
        refine ⟨W 1, by rw [Heap.setD_D_ne _ _ (hne 5 4 (by omega)), Heap.setD_D_ne _ _ (hne 5 3 (by omega)), Heap.setD_D_ne _ _ (hne 5 2 (by omega)),
          Heap.setD_D_ne _ _ (hne 5 1 (by omega)), Heap.setD_D_ne _ _ (hne 5 0 (by omega))]; exact hv1, ?_⟩
        rw [wp_mbind, wp_st]
        refine ⟨by rw [Heap.setD_D_ne _ _ (hne 5 4 (by omega)), Heap.setD_D_ne _ _ (hne 5 3 (by omega)), Heap.setD_D_ne _ _ (hne 5 2 (by omega)),
          Heap.setD_D_ne _ _ (hne 5 1 (by omega)), Heap.setD_D_ne _ _ (hne 5 0 (by omega))]; exact hA2 5 (by omega), ?_⟩
        rw [wp_pure]
        have hfr : ∀ q, ¬ regG e g q → ∀ c, c < 6 → q ≠ g + c := fun q hq c hc he' => hq (by rw [he']; exact hR c hc)
        have HT : (cells4 e he g (eriE d (nodeU R e d) (fun r => nodeW R e d r * (G2.norm d * fac)))).T h (full4 e)
            ((((((h2.setD (g+0) 1).setD (g+1) 1).setD (g+2) 1).setD (g+3) 1).setD (g+4) (W 0 * (G2.norm d * fac))).setD (g+5)
              (W 1 * (G2.norm d * fac * -Real.sqrt (G2.theta d)))) := by
          refine ⟨?_, ?_, ?_, ?_⟩
          · rintro ⟨c, i, j, k, l, r⟩ ⟨hc, _, b1, b2, b3, b4, b5⟩
            dsimp only at hc b1 b2 b3 b4 b5
            have hz : i = 0 ∧ j = 0 ∧ k = 0 ∧ l = 0 := by omega
            obtain ⟨rfl, rfl, rfl, rfl⟩ := hz
            have hadr : (cells4 e he g (eriE d (nodeU R e d) (fun r => nodeW R e d r * (G2.norm d * fac)))).addr c (0,0,0,0,r) = g + (2*c+r) := by
              rw [cells4_addr, ← e0 c r]
              congr 1
              unfold slab4
              simp
            dsimp only
            rw [hadr]
            show _ = Cell.val (eriE d (nodeU R e d) (fun r => nodeW R e d r * (G2.norm d * fac)) c 0 0 0 0 r)
            rw [eriE_zero ha hb]
            have hcr : (c = 0 ∧ r = 0) ∨ (c = 0 ∧ r = 1) ∨ (c = 1 ∧ r = 0) ∨ (c = 1 ∧ r = 1) ∨ (c = 2 ∧ r = 0) ∨ (c = 2 ∧ r = 1) := by omega
            rcases hcr with ⟨rfl, rfl⟩ | ⟨rfl, rfl⟩ | ⟨rfl, rfl⟩ | ⟨rfl, rfl⟩ | ⟨rfl, rfl⟩ | ⟨rfl, rfl⟩
            · rw [Heap.setD_D_ne _ _ (hne _ 5 (by omega)), Heap.setD_D_ne _ _ (hne _ 4 (by omega)), Heap.setD_D_ne _ _ (hne _ 3 (by omega)),
                Heap.setD_D_ne _ _ (hne _ 2 (by omega)), Heap.setD_D_ne _ _ (hne _ 1 (by omega)), Heap.setD_D_self]
              rfl
            · rw [Heap.setD_D_ne _ _ (hne _ 5 (by omega)), Heap.setD_D_ne _ _ (hne _ 4 (by omega)), Heap.setD_D_ne _ _ (hne _ 3 (by omega)),
                Heap.setD_D_ne _ _ (hne _ 2 (by omega)), Heap.setD_D_self]
              rfl
            · rw [Heap.setD_D_ne _ _ (hne _ 5 (by omega)), Heap.setD_D_ne _ _ (hne _ 4 (by omega)), Heap.setD_D_ne _ _ (hne _ 3 (by omega)),
                Heap.setD_D_self]
              rfl
            · rw [Heap.setD_D_ne _ _ (hne _ 5 (by omega)), Heap.setD_D_ne _ _ (hne _ 4 (by omega)), Heap.setD_D_self]
              rfl
            · rw [Heap.setD_D_ne _ _ (hne _ 5 (by omega)), Heap.setD_D_self, if_pos rfl, hW0]
            · rw [Heap.setD_D_self, if_pos rfl, hW1]
          · intro q hq
            simp only [Heap.setD_D]
            split
            · simp
            split
            · simp
            split
            · simp
            split
            · simp
            split
            · simp
            split
            · simp
            · exact H2.alloc q hq
          · intro q hq
            have hq' := hfr q hq
            rw [Heap.setD_D_ne _ _ (hq' 5 (by omega)), Heap.setD_D_ne _ _ (hq' 4 (by omega)), Heap.setD_D_ne _ _ (hq' 3 (by omega)),
              Heap.setD_D_ne _ _ (hq' 2 (by omega)), Heap.setD_D_ne _ _ (hq' 1 (by omega)), Heap.setD_D_ne _ _ (hq' 0 (by omega))]
            exact H2.frame q hq
          · exact H2.int
        exact ⟨by simp [hk], HT.frame, HT.int, fun _ => HT⟩
      · rw [if_neg hg, wp_mbind]
        refine wp_mono (scaleW_wp (w' := nodeW R e d) (lo := e.rys_order) (n := e.nrys_roots - e.rys_order) (f := -Real.sqrt (G2.theta d)) he
          H2 (by omega) ?_) ?_
        · intro r hr
          rw [hnW]
          by_cases hr' : r < e.rys_order
          · rw [if_pos hr', if_neg (by omega)]
          · rw [if_neg hr', if_pos (by omega)]
        intro _ h3 H3
        refine hrest _ _ h3 (fun r _ => rfl) H3 _ ?_ hk
        unfold nodeU
        rw [if_neg o0, if_pos o1, if_neg ho]
        rfl
  · rw [if_neg o1]
    have hk : G2.kept d cutoff := fun hh => o1 hh.1
    rw [wp_mbind]
    have hf := fillW_wp (S' := fun r => r < e.nrys_roots) (w := R.w e.nrys_roots (G2.x d * G2.theta d)) (lo := 0) (n := e.nrys_roots)
      (v := R.w e.nrys_roots (G2.x d * G2.theta d)) he (Tab.init hA (fun _ => id) : WTab e g h h (fun _ => False) _) (by omega)
      (fun i _ => by rw [Nat.zero_add]) (fun r hr => Or.inr ⟨by omega, by omega⟩)
    simp only [Nat.zero_add] at hf
    refine wp_mono hf ?_
    intro _ h1 H1
    refine hrest _ _ h1 ?_ H1 _ ?_ hk
    · intro r _
      unfold nodeW
      rw [if_neg o0, if_neg o1]
      show _ * (G2.norm d * fac * Real.sqrt (G2.theta d)) = _
      ring
    · unfold nodeU
      rw [if_neg o0, if_neg o1]
      rfl

end Lemmas
end Verif
