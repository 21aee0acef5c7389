import Verif.Model.F12
import Verif.Lemmas.EriKernel
import Verif.Lemmas.F12Pot

/-! The evaluator of primitive integrals over the Yukawa interaction and the Slater-type geminal. -/
namespace Verif.Lemmas
open Verif Verif.Model Verif.Spec Verif.Prog Verif.Props MeasureTheory Polynomial

section
variable {α : Type} [Field α] [LinearOrder α]
variable {e : EnvG} {he : Shape4 e} {g : Ptr} {E : Nat → Nat → Nat → Nat → Nat → Nat → α} {d : G2 α} {h0 h : Heap α}

/-- a factor for each root -/
theorem scaleWF_wp (he : Shape4 e) {w w' f : Nat → α} (H : WTab e g h0 h (fun r => r < e.nrys_roots) w)
    (hw : ∀ r, r < e.nrys_roots → w' r = w r * f r) :
    wp (forN e.nrys_roots fun i => do
        let z ← ld (gAx g e 2 i)
        st (gAx g e 2 i) (z * f i)) (fun _ h' => WTab e g h0 h' (fun r => r < e.nrys_roots) w') h := by
  refine wp_forN (fun i h' => WTab e g h0 h' (fun r => r < e.nrys_roots)
    (fun r => if r < i then w r * f r else w r)) ?_ ?_ ?_
  · exact H.congr fun k hk => ⟨hk, if_neg (by omega)⟩
  · intro i hi h' H'
    rw [wp_mbind, wp_ld]
    have hv := H'.val i (show i < _ by omega)
    rw [if_neg (by omega)] at hv
    refine ⟨_, hv, ?_⟩
    rw [wp_st]
    refine ⟨by rw [hv]; simp, ?_⟩
    refine Tab.update (k := i) H' (reg_root he (by omega)) ?_
    intro k hk
    by_cases ek : k = i
    · subst ek
      exact Or.inl ⟨rfl, if_pos (by omega)⟩
    · refine Or.inr ⟨hk, fun h => ek (gAx_inj h), ?_⟩
      by_cases hc : k < i
      · rw [if_pos hc, if_pos (by omega)]
      · rw [if_neg hc, if_neg (by omega)]
  · intro h' H'
    exact H'.congr fun k hk => ⟨hk, by rw [hw k hk, if_pos hk]⟩

/-- `g0Rest_wp` for the general recursion -/
theorem g0RestG_wp {u w : Nat → α} {fac1 : α} (hE : Hrr4 d E)
    (hF : Rec2 (bc2e e d u) e.nrys_roots (e.li_ceil + e.lj_ceil) (e.lk_ceil + e.ll_ceil) (baseF e E))
    (h1 : ∀ c r, c < 2 → r < e.nrys_roots → E c 0 0 0 0 r = 1) (hz : ∀ r, r < e.nrys_roots → E 2 0 0 0 0 r = w r * fac1)
    (H : WTab e g h0 h (fun r => r < e.nrys_roots) w) :
    wp (g0Rest e d g u fac1 g0General) (fun b h' => b = true ∧ (cells4 e he g E).T h0 (full4 e) h') h := by
  unfold g0Rest
  by_cases hg : e.g_size = 1
  · rw [if_pos hg]
    have gs := he.gs
    rw [hg] at gs
    obtain ⟨q1, q2, q3, q4, q5⟩ := size_one gs
    have e0 : ∀ c, gAx g e c 0 = g + c := by
      intro c; unfold gAx; rw [hg]; congr 1; omega
    have hv := H.val 0 (show 0 < e.nrys_roots by omega)
    rw [e0] at hv
    have hne : ∀ i j : Nat, i ≠ j → g + i ≠ g + j := by
      intro i j hij h
      have := congrArg Ptr.off h
      have : g.off + i = g.off + j := this
      omega
    have hR : ∀ c, c < 3 → regG e g (g + c) := fun c hc => ⟨c, by omega, rfl⟩
    rw [wp_mbind, wp_st]
    refine ⟨H.alloc _ (hR 0 (by omega)), ?_⟩
    rw [wp_mbind, wp_st]
    refine ⟨by rw [Heap.setD_D_ne _ _ (hne 1 0 (by omega))]; exact H.alloc _ (hR 1 (by omega)), ?_⟩
    rw [wp_mbind, wp_ld]
    refine ⟨w 0, by rw [Heap.setD_D_ne _ _ (hne 2 1 (by omega)), Heap.setD_D_ne _ _ (hne 2 0 (by omega))]; exact hv, ?_⟩
    rw [wp_mbind, wp_st]
    refine ⟨by rw [Heap.setD_D_ne _ _ (hne 2 1 (by omega)), Heap.setD_D_ne _ _ (hne 2 0 (by omega))]; rw [hv]; simp, ?_⟩
    rw [wp_pure]
    refine ⟨rfl, ?_⟩
    have hadr : ∀ c, (cells4 e he g E).addr c (0,0,0,0,0) = g + c := by
      intro c
      rw [cells4_addr, ← e0 c]
      congr 1
    have hbox : ∀ x, (cells4 e he g E).box x → x = (0,0,0,0,0) := by
      rintro ⟨i,j,k,l,r⟩ ⟨b1, b2, b3, b4, b5⟩
      dsimp only at *
      have : i = 0 ∧ j = 0 ∧ k = 0 ∧ l = 0 ∧ r = 0 := by omega
      obtain ⟨rfl, rfl, rfl, rfl, rfl⟩ := this
      rfl
    refine ⟨?_, ?_, ?_, ?_⟩
    · rintro ⟨c, x⟩ ⟨hc, _, hx⟩
      dsimp only at hc hx
      obtain rfl := hbox x hx
      dsimp only
      rw [hadr]
      show _ = Cell.val (E c 0 0 0 0 0)
      by_cases c2 : c = 2
      · subst c2
        rw [Heap.setD_D_self, hz 0 (by omega)]
      · rw [h1 c 0 (by omega) (by omega), Heap.setD_D_ne _ _ (hne c 2 c2)]
        by_cases c1 : c = 1
        · subst c1; rw [Heap.setD_D_self]
        · rw [Heap.setD_D_ne _ _ (hne c 1 c1)]
          have : c = 0 := by omega
          subst this
          rw [Heap.setD_D_self]
    · intro q hq
      have := H.alloc q hq
      rw [Heap.setD_D]; split
      · simp
      · rw [Heap.setD_D]; split
        · simp
        · rw [Heap.setD_D]; split
          · simp
          · exact this
    · intro q hq
      have hq' : ∀ c, c < 3 → q ≠ g + c := fun c hc he' => hq (by rw [he']; exact hR c hc)
      rw [Heap.setD_D_ne _ _ (hq' 2 (by omega)), Heap.setD_D_ne _ _ (hq' 1 (by omega)), Heap.setD_D_ne _ _ (hq' 0 (by omega))]
      exact H.frame q hq
    · exact H.int
  · rw [if_neg hg, wp_mbind]
    have hs := scaleW_wp (lo := 0) (n := e.nrys_roots) (f := fac1) (w' := fun r => if r < e.nrys_roots then w r * fac1 else w r) he H
      (by omega) (fun r hr => by simp)
    simp only [Nat.zero_add] at hs
    refine wp_mono hs ?_
    intro _ h2 H2
    rw [wp_mbind]
    refine wp_mono (g0General_wp (he := he) (z := fun r => if r < e.nrys_roots then w r * fac1 else w r) hE hF h1
      (fun r hr => by rw [hz r hr, if_pos hr])
      ⟨fun n hn' => H2.alloc _ ⟨n, hn', rfl⟩, fun r hr => H2.val r hr, H2.frame, H2.int⟩) ?_
    intro _ h3 H3
    rw [wp_pure]
    exact ⟨rfl, H3⟩
end


/-- the arguments of the quadrature -/
noncomputable def G2.U (d : G2 ℝ) (ζ : ℝ) : ℝ := 1/4 * ζ * ζ / G2.a0 d

/-- the root finders return the roots and weights of the quadratures with `n` points -/
structure RysFOK (R : RysF ℝ) (n : ℕ) : Prop where
  rys : ∀ x, 0 ≤ x → RysExact n x (R.u n x) (R.w n x)
  stg : ∀ x U, 0 ≤ x → 0 < U → StgExact n x U (R.su n x U) (R.sw n x U)

section
variable (stg : Bool) (R : RysF ℝ) (e : EnvG) (d : G2 ℝ) (ζ : ℝ)
noncomputable def nodeUF (r : Nat) : ℝ :=
  if ζ > 0 then R.su e.nrys_roots (G2.x d) (G2.U d ζ) r / (1 - R.su e.nrys_roots (G2.x d) (G2.U d ζ) r)
  else R.u e.nrys_roots (G2.x d) r

noncomputable def nodeWF (r : Nat) : ℝ :=
  if ζ > 0 then R.sw e.nrys_roots (G2.x d) (G2.U d ζ) r *
    (if stg then (1 - R.su e.nrys_roots (G2.x d) (G2.U d ζ) r) * (2 * G2.U d ζ / ζ) else R.su e.nrys_roots (G2.x d) (G2.U d ζ) r)
  else R.w e.nrys_roots (G2.x d) r

noncomputable def normF : ℝ := 1 / (Real.sqrt (d.ai + d.aj + (d.ak + d.al)) * ((d.ai + d.aj) * (d.ak + d.al)))
end

section
variable {stg : Bool} {R : RysF ℝ} {e : EnvG} {d : G2 ℝ} {ζ : ℝ} (ha : 0 < d.ai+d.aj) (hb : 0 < d.ak+d.al)
include ha hb

theorem a0F_pos : 0 < G2.a0 d := by unfold G2.a0; positivity

theorem xF_nonneg : 0 ≤ G2.x d := by
  unfold G2.x
  have := a0F_pos ha hb
  have := mul_self_nonneg (d.rij 0 - d.rkl 0)
  have := mul_self_nonneg (d.rij 1 - d.rkl 1)
  have := mul_self_nonneg (d.rij 2 - d.rkl 2)
  positivity

theorem nodeUF_nonneg (hR : RysFOK R e.nrys_roots) (r : Nat) (hr : r < e.nrys_roots) : 0 ≤ nodeUF R e d ζ r := by
  unfold nodeUF
  have hx := xF_nonneg ha hb
  split
  · rename_i hz
    have hz : 0 < ζ := hz
    have h0 := a0F_pos ha hb
    obtain ⟨h1, h2⟩ := (hR.stg _ (G2.U d ζ) hx (by unfold G2.U; positivity)).range r hr
    exact div_nonneg h1 (by linarith)
  · exact (hR.rys _ hx).nonneg r hr

theorem g0F12_wp {he : Shape4 e} {fac : ℝ} {g : Ptr} {h : Heap ℝ} (hR : RysFOK R e.nrys_roots)
    (hA : ∀ q, regG e g q → h.D q ≠ .oob) :
    wp (g0F12 stg R realK e d ζ g fac) (fun b h' => b = true ∧
      (cells4 e he g (eriE d (nodeUF R e d ζ) (fun r => nodeWF stg R e d ζ r * (normF d * fac)))).T h (full4 e) h') h := by
  have hf1 : fac / (realK.sqrt (d.ai + d.aj + (d.ak + d.al)) * ((d.ai + d.aj) * (d.ak + d.al))) = normF d * fac := by
    show fac / (Real.sqrt (d.ai + d.aj + (d.ak + d.al)) * ((d.ai + d.aj) * (d.ak + d.al))) = _
    unfold normF; ring
  have hrest : ∀ (h1 : Heap ℝ), WTab e g h h1 (fun r => r < e.nrys_roots) (nodeWF stg R e d ζ) → ∀ u, u = nodeUF R e d ζ →
      wp (g0Rest e d g u (normF d * fac) g0General) (fun b h' => b = true ∧
        (cells4 e he g (eriE d (nodeUF R e d ζ) (fun r => nodeWF stg R e d ζ r * (normF d * fac)))).T h (full4 e) h') h1 := by
    rintro h1 H1 u rfl
    refine g0RestG_wp (he := he) (E := eriE d (nodeUF R e d ζ) (fun r => nodeWF stg R e d ζ r * (normF d * fac)))
      (eriE_hrr ha hb _ _) (eriE_rec ha hb _ _ e (nodeUF_nonneg ha hb hR) _ _) (fun c r hc _ => ?_) (fun r hr => ?_) H1
    · rw [eriE_zero ha hb, if_neg (by omega)]
    · rw [eriE_zero ha hb, if_pos rfl]
  unfold g0F12
  dsimp only
  by_cases hz : ζ > 0
  · rw [if_pos hz, wp_mbind]
    have hf := fillW_wp (S' := fun r => r < e.nrys_roots) (w := R.sw e.nrys_roots (G2.x d) (G2.U d ζ)) (lo := 0) (n := e.nrys_roots)
      (v := R.sw e.nrys_roots (G2.x d) (G2.U d ζ)) he (Tab.init hA (fun _ => id) : WTab e g h h (fun _ => False) _) (by omega)
      (fun i _ => by rw [Nat.zero_add]) (fun r hr => Or.inr ⟨by omega, by omega⟩)
    simp only [Nat.zero_add] at hf
    refine wp_mono hf ?_
    intro _ h1 H1
    rw [wp_mbind]
    refine wp_mono (scaleWF_wp he H1 (w' := nodeWF stg R e d ζ) (f := fun n =>
      if stg then (1 - R.su e.nrys_roots (G2.x d) (G2.U d ζ) n) * (2 * G2.U d ζ / ζ) else R.su e.nrys_roots (G2.x d) (G2.U d ζ) n)
      (fun r _ => by unfold nodeWF; rw [if_pos hz])) ?_
    intro _ h2 H2
    have hu : nodeUF R e d ζ = fun n => R.su e.nrys_roots (G2.x d) (G2.U d ζ) n / (1 - R.su e.nrys_roots (G2.x d) (G2.U d ζ) n) := by
      funext r; unfold nodeUF; rw [if_pos hz]
    rw [hf1]
    exact hrest h2 H2 _ hu.symm
  · rw [if_neg hz, wp_mbind]
    have hf := fillW_wp (S' := fun r => r < e.nrys_roots) (w := R.w e.nrys_roots (G2.x d)) (lo := 0) (n := e.nrys_roots)
      (v := R.w e.nrys_roots (G2.x d)) he (Tab.init hA (fun _ => id) : WTab e g h h (fun _ => False) _) (by omega)
      (fun i _ => by rw [Nat.zero_add]) (fun r hr => Or.inr ⟨by omega, by omega⟩)
    simp only [Nat.zero_add] at hf
    refine wp_mono hf ?_
    intro _ h1 H1
    have hW : nodeWF stg R e d ζ = R.w e.nrys_roots (G2.x d) := by funext r; unfold nodeWF; rw [if_neg hz]
    have hu : nodeUF R e d ζ = R.u e.nrys_roots (G2.x d) := by funext r; unfold nodeUF; rw [if_neg hz]
    rw [hf1]
    exact hrest h1 (by rw [hW]; exact H1) _ hu.symm

/-- the interaction -/
noncomputable def VF (stg : Bool) (ζ : ℝ) : (Fin 3 → ℝ) → (Fin 3 → ℝ) → ℝ := if ζ > 0 then f12V stg ζ else coulomb

omit ha hb in
theorem gx_eq : G2.x d = G2.a0 d * ∑ k : Fin 3, (d.rij k - d.rkl k)^2 := by
  unfold G2.x
  rw [Fin.sum_univ_three]
  simp only [Fin.val_zero, Fin.val_one, Fin.val_two]
  ring

theorem normF_eq : normF d = Real.sqrt ((d.ai+d.aj)*(d.ak+d.al)/(d.ai+d.aj+(d.ak+d.al))) / Real.sqrt ((d.ai+d.aj)*(d.ak+d.al))^3 := by
  have hab : 0 < (d.ai+d.aj)*(d.ak+d.al) := by positivity
  have hs : 0 < d.ai+d.aj+(d.ak+d.al) := by positivity
  have h1 := Real.sqrt_pos.2 hab
  have h2 := Real.sqrt_pos.2 hs
  unfold normF
  rw [Real.sqrt_div hab.le, show Real.sqrt ((d.ai+d.aj)*(d.ak+d.al))^3 = Real.sqrt ((d.ai+d.aj)*(d.ak+d.al)) * ((d.ai+d.aj)*(d.ak+d.al)) by
    rw [pow_succ, Real.sq_sqrt hab.le]; ring]
  field_simp

theorem f12_eri_sum (hR : RysFOK R e.nrys_roots) (f g : Fin 3 → ℝ[X]) (hd : ∑ k, ((f k).natDegree + (g k).natDegree) + 1 < 2*e.nrys_roots) :
    2 / Real.sqrt Real.pi * Real.pi^3 * (normF d * ∑ r ∈ Finset.range e.nrys_roots, nodeWF stg R e d ζ r *
      ∏ k : Fin 3, rm2 (d.ai+d.aj) (d.ak+d.al) (G2.a0 d * |nodeUF R e d ζ r|) (d.rij k) (d.rkl k) (f k) (g k)) =
      repulsion (VF stg ζ) (pg (d.ai+d.aj) (fun k => d.rij k) f) (pg (d.ak+d.al) (fun k => d.rkl k) g) := by
  have hx := xF_nonneg ha hb
  let F := ∏ k : Fin 3, red2 (d.ai+d.aj) (d.ak+d.al) (d.rij k) (d.rkl k) (f k) (g k)
  have hF : F.natDegree + 1 < 2 * e.nrys_roots :=
    lt_of_le_of_lt (Nat.add_le_add_right ((natDegree_prod_le _ _).trans (Finset.sum_le_sum fun k _ => red2_degree _ _ _ _ _ _)) 1) hd
  have hrm : ∀ r ∈ Finset.range e.nrys_roots, nodeWF stg R e d ζ r *
      ∏ k : Fin 3, rm2 (d.ai+d.aj) (d.ak+d.al) (G2.a0 d * |nodeUF R e d ζ r|) (d.rij k) (d.rkl k) (f k) (g k) =
      nodeWF stg R e d ζ r * F.eval (nodeUF R e d ζ r / (1 + nodeUF R e d ζ r)) := by
    intro r hr
    have hu := nodeUF_nonneg (ζ := ζ) ha hb hR r (Finset.mem_range.1 hr)
    rw [eval_prod]
    congr 1
    refine Finset.prod_congr rfl fun k _ => ?_
    rw [abs_of_nonneg hu]
    exact rm2_red2 ha hb hu _ _ _ _
  rw [Finset.sum_congr rfl hrm]
  by_cases hz : ζ > 0
  · have h0 := a0F_pos ha hb
    have hU : 0 < G2.U d ζ := by unfold G2.U; positivity
    have HS := hR.stg _ _ hx hU
    have hs : ∀ r ∈ Finset.range e.nrys_roots, nodeWF stg R e d ζ r * F.eval (nodeUF R e d ζ r / (1 + nodeUF R e d ζ r)) =
        R.sw e.nrys_roots (G2.x d) (G2.U d ζ) r * (cF12 stg ζ (G2.U d ζ)).eval (R.su e.nrys_roots (G2.x d) (G2.U d ζ) r) *
          F.eval (R.su e.nrys_roots (G2.x d) (G2.U d ζ) r) := by
      intro r hr
      obtain ⟨r1, r2⟩ := HS.range r (Finset.mem_range.1 hr)
      have h1 : (0:ℝ) < 1 - R.su e.nrys_roots (G2.x d) (G2.U d ζ) r := by linarith
      have hq : nodeUF R e d ζ r / (1 + nodeUF R e d ζ r) = R.su e.nrys_roots (G2.x d) (G2.U d ζ) r := by
        unfold nodeUF
        rw [if_pos hz]
        field_simp
        ring
      rw [hq]
      unfold nodeWF cF12
      rw [if_pos hz]
      cases stg
      · simp
      · simp only [if_true, eval_mul, eval_C, eval_sub, eval_one, eval_X]
        ring
    rw [Finset.sum_congr rfl hs, f12_sum HS F hF]
    unfold VF
    rw [if_pos hz, (eri_f12 ha hb hz stg _ _ f g).2, normF_eq ha hb, div_pow]
    have e1 : ∀ t : ℝ, wF12 stg ζ (G2.U d ζ) t * (Real.exp (-(G2.x d*t^2)) * F.eval (t^2)) =
        wF12 stg ζ (1/4*ζ*ζ/((d.ai+d.aj)*(d.ak+d.al)/(d.ai+d.aj+(d.ak+d.al)))) t *
          (Real.exp (-((d.ai+d.aj)*(d.ak+d.al)/(d.ai+d.aj+(d.ak+d.al))*t^2) * ∑ k : Fin 3, (d.rij k - d.rkl k)^2) *
          ∏ k : Fin 3, (red2 (d.ai+d.aj) (d.ak+d.al) (d.rij k) (d.rkl k) (f k) (g k)).eval (t^2)) := by
      intro t
      rw [eval_prod, gx_eq]
      unfold G2.U G2.a0
      congr 3
      ring
    simp_rw [e1]
    ring
  · have := quadSel_eri (d := { d with omega := 0 }) ha hb f g
    unfold VF
    rw [if_neg hz]
    unfold interaction quadSel at this
    simp only [if_true] at this
    have hn : G2.norm { d with omega := (0:ℝ) } = normF d := by
      rw [normF_eq ha hb]
      unfold G2.norm G2.a0
      have hab : 0 ≤ (d.ai+d.aj)*(d.ak+d.al) := by positivity
      dsimp only
      rw [Real.sqrt_div (by positivity)]
      congr 1
      rw [← Real.sqrt_sq (pow_nonneg (Real.sqrt_nonneg ((d.ai+d.aj)*(d.ak+d.al))) 3)]
      congr 1
      rw [← pow_mul, show 3*2 = 2*3 by norm_num, pow_mul, Real.sq_sqrt hab]
      ring
    rw [hn] at this
    refine Eq.trans ?_ this
    congr 2
    rw [show G2.x { d with omega := (0:ℝ) } = G2.x d from rfl, ← full_sum (hR.rys _ hx) F (by omega)]
    refine Finset.sum_congr rfl fun r _ => ?_
    unfold nodeWF nodeUF
    rw [if_neg hz, if_neg hz]
end

/-- the number a primitive evaluation gives for unit prefactor -/
noncomputable def f12W (stg : Bool) (ζ : ℝ) (d : G2 ℝ) (i j k l : Nat → Nat) : ℝ :=
  repulsion (VF stg ζ) (pg (d.ai+d.aj) (fun k => d.rij k) fun c => pq (d.ri c) (d.rj c) (i c) (j c))
    (pg (d.ak+d.al) (fun k => d.rkl k) fun c => pq (d.rk c) (d.rl c) (k c) (l c)) / (2 / Real.sqrt Real.pi * Real.pi^3)

theorem f12_kernel {stg : Bool} {ζ : ℝ} {R : RysF ℝ} {e : EnvG} {d : G2 ℝ} {g idx : Ptr} {leng nf : Nat}
    {T : Ptr → Option Int} {I J K L : Nat → Nat → Nat} (he : Shape4 e) (hl : 3 * e.g_size ≤ leng)
    (hR : RysFOK R e.nrys_roots) (ha : 0 < d.ai+d.aj) (hb : 0 < d.ak+d.al)
    (hI : ∀ n c, n < nf → c < 3 → I c n ≤ e.li_ceil ∧ J c n ≤ e.lj_ceil ∧ K c n ≤ e.lk_ceil ∧ L c n ≤ e.ll_ceil)
    (hdeg : ∀ n, n < nf → ∑ c : Fin 3, (I c n + J c n + (K c n + L c n)) + 1 < 2 * e.nrys_roots)
    (hT : IdxT T idx nf (adr4 e I J K L)) :
    KernelSpec T (fun fac => g0F12 stg R realK e d ζ g fac) (fun _ gout em => gout2e nf e.nrys_roots idx g gout em)
      (Blk g leng) nf true
      (fun n => f12W stg ζ d (fun c => I c n) (fun c => J c n) (fun c => K c n) (fun c => L c n)) := by
  intro fac gout em u h hRO hGs hA hd hE
  have hreg : ∀ {q}, regG e g q → Blk g leng q := by
    rintro q ⟨n, hn, rfl⟩; exact ⟨n, by omega, rfl⟩
  have hadr : ∀ n c r, g + adr4 e I J K L c n + r = gAx g e c (slab4 e (I c n) (J c n) (K c n) (L c n) r) := by
    intro n c r
    rw [Ptr.add_assoc]
    unfold adr4 gAx slab4
    congr 1
    omega
  have hin : ∀ n c r, n < nf → c < 3 → r < e.nrys_roots → Blk g leng (g + adr4 e I J K L c n + r) := by
    intro n c r hn hc hr
    rw [hadr]
    refine ⟨_, ?_, rfl⟩
    obtain ⟨a1, a2, a3, a4⟩ := hI n c hn hc
    have := radix_lt hc (slab4_lt he a1 a2 a3 a4 hr)
    omega
  refine wp_mono (g0F12_wp (he := he) ha hb hR (fun q hq => hGs q (hreg hq))) ?_
  rintro r h1 ⟨hr, hT2⟩
  have hag : AgreeD h h1 (regG e g) := hT2.frame
  have hI1 : h1.I = h.I := hT2.int
  have hag' := hag.mono (W := Blk g leng) (fun q hq => hreg hq)
  refine ⟨hr, hag', hI1, fun hr1 => ?_⟩
  have hne : ∀ {q}, Blk gout nf q → ¬ Blk g leng q := by
    rintro q ⟨i, hi, rfl⟩; exact hd i hi
  refine wp_mono (gout1eNuc_wp (T := T) (ad := adr4 e I J K L) (u := u)
    (x := fun c n r => eriE d (nodeUF R e d ζ) (fun r => nodeWF stg R e d ζ r * (normF d * fac)) c (I c n) (J c n) (K c n) (L c n) r)
    ?_ hT ?_ ?_ ?_ ?_) ?_
  · intro q x hq; rw [hI1]; exact hRO q x hq
  · intro i hi; rw [hag' _ (hd i hi)]; exact hA i hi
  · intro he i hi; rw [hag' _ (hd i hi)]; exact hE he i hi
  · intro n c r hn hc hr hb; exact hne hb (hin n c r hn hc hr)
  · intro n c r hn hc hr
    rw [hadr]
    obtain ⟨a1, a2, a3, a4⟩ := hI n c hn hc
    exact cells4_val hT2 hc a1 a2 a3 a4 hr
  · rintro _ h2 ⟨H2, hag2, hI2⟩
    refine ⟨?_, hag'.trans hag2 (fun q hq => Or.inl hq) (fun q hq => Or.inr hq), by rw [hI2, hI1]⟩
    intro n hn'
    rw [H2 n hn']
    have hval : (∑ r ∈ Finset.range e.nrys_roots,
        eriE d (nodeUF R e d ζ) (fun r => nodeWF stg R e d ζ r * (normF d * fac)) 0 (I 0 n) (J 0 n) (K 0 n) (L 0 n) r *
        eriE d (nodeUF R e d ζ) (fun r => nodeWF stg R e d ζ r * (normF d * fac)) 1 (I 1 n) (J 1 n) (K 1 n) (L 1 n) r *
        eriE d (nodeUF R e d ζ) (fun r => nodeWF stg R e d ζ r * (normF d * fac)) 2 (I 2 n) (J 2 n) (K 2 n) (L 2 n) r) =
        fac * f12W stg ζ d (fun c => I c n) (fun c => J c n) (fun c => K c n) (fun c => L c n) := by
      have hq := f12_eri_sum (stg := stg) (ζ := ζ) ha hb hR (fun c => pq (d.ri c) (d.rj c) (I c n) (J c n))
        (fun c => pq (d.rk c) (d.rl c) (K c n) (L c n))
        (lt_of_le_of_lt (Nat.add_le_add_right (Finset.sum_le_sum fun c _ => Nat.add_le_add (pq_natDegree _ _ _ _) (pq_natDegree _ _ _ _)) 1) (hdeg n hn'))
      have hpos : 2 / Real.sqrt Real.pi * Real.pi^3 ≠ 0 := by positivity
      unfold f12W
      rw [← hq, mul_div_cancel_left₀ _ hpos, Finset.mul_sum, Finset.mul_sum]
      refine Finset.sum_congr rfl (fun r _ => ?_)
      rw [Fin.prod_univ_three]
      unfold eriE G2.a0
      simp only [show ¬ (0 = 2) by decide, show ¬ (1 = 2) by decide, if_false, if_true, Fin.val_zero, Fin.val_one, Fin.val_two]
      generalize rm2 _ _ _ (d.rij 0) _ _ _ = m0
      generalize rm2 _ _ _ (d.rij 1) _ _ _ = m1
      generalize rm2 _ _ _ (d.rij 2) _ _ _ = m2
      ring
    refine congrArg Cell.val ?_
    split
    · exact congrArg (u n + ·) hval
    · exact hval

end Verif.Lemmas
