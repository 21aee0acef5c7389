import Verif.Lemmas.OperV

/-! The generated one-electron integrals with a potential, in the driver. -/
namespace Verif.Lemmas
open Verif Verif.Model Verif.Spec Verif.Prog Verif.Props MeasureTheory Polynomial

/-- the degree of the polynomials of a term -/
theorem poly_degree (S : PairOf) (W : Nat → List (GOp × Fin 4)) (geo : List Nat) :
    ∑ k, (S.poly (progKey geo W).bra (progKey geo W).ket k).natDegree ≤ (∑ k, S.n k + ∑ k, S.m k) + wordsLen W := by
  have h : ∀ k : Fin 3, (S.poly (progKey geo W).bra (progKey geo W).ket k).natDegree ≤ S.n k + S.m k + (W k).length := by
    intro k
    have e : S.poly (progKey geo W).bra (progKey geo W).ket k =
        wordE S.a (S.A k) (S.O k) (onIdx 0 (W k)) ((X - C (S.A k))^S.n k) *
          wordE S.b (S.B k) (S.O k) (onIdx 1 (W k)) ((X - C (S.B k))^S.m k) := by
      fin_cases k <;> rfl
    rw [e]
    refine natDegree_mul_le.trans ?_
    have h1 := wordE_degree S.a (S.A k) (S.O k) (onIdx 0 (W k)) ((X - C (S.A k))^S.n k)
    have h2 := wordE_degree S.b (S.B k) (S.O k) (onIdx 1 (W k)) ((X - C (S.B k))^S.m k)
    have h3 := onIdx_length (W k)
    have h4 : ∀ (c : ℝ) (n : ℕ), ((X - C c)^n : ℝ[X]).natDegree ≤ n := fun c n =>
      natDegree_pow_le.trans (by rw [natDegree_X_sub_C, Nat.mul_one])
    have h5 := h4 (S.A k) (S.n k)
    have h6 := h4 (S.B k) (S.m k)
    omega
  refine (Finset.sum_le_sum fun k _ => h k).trans ?_
  rw [Fin.sum_univ_three, Fin.sum_univ_three, Fin.sum_univ_three]
  unfold wordsLen
  simp only [Fin.val_zero, Fin.val_one, Fin.val_two]
  omega

/-- the integral of a Gaussian times a polynomial with the potential of one source -/
noncomputable def srcInt1 (S : Src ℝ) (p : ℝ) (P : Pt) (q : Fin 3 → ℝ[X]) : ℝ :=
  S.q * ∫ r, pg p P q r * potential S.zeta (fun k => S.r k) r

theorem srcInt_keys (T : PairOf) (l : List (Src ℝ)) (p : ℝ) (P : Pt) (x : List (Int × Key)) :
    (l.map fun S => sumVal (T.keyV (srcInt1 S p P)) x).sum = sumVal (T.keyV (srcInt l p P)) x := by
  induction l with
  | nil =>
    simp only [List.map_nil, List.sum_nil]
    unfold sumVal
    refine (List.sum_eq_zero fun y hy => ?_).symm
    obtain ⟨t, _, rfl⟩ := List.mem_map.1 hy
    unfold PairOf.keyV srcInt
    simp
  | cons S l ih =>
    rw [List.map_cons, List.sum_cons, ih]
    unfold sumVal
    rw [← List.sum_map_add]
    congr 1
    refine List.map_congr_left fun t _ => ?_
    unfold PairOf.keyV srcInt srcInt1
    rw [List.map_cons, List.sum_cons]
    ring

theorem compValV_eq {d : G1 ℝ} {O : Nat → ℝ} {fac : ℝ} (hp : 0 < d.ai + d.aj)
    {ws : List (Nat → List (GOp × Fin 4))} (h2 : ws.all twoIdx = true) {B nr : Nat} {u w : Nat → ℝ} {S : Src ℝ}
    (hB : ∀ W ∈ ws, wordsLen W ≤ B)
    {terms : List (Int × List Nat × Nat)} (ht : ∀ t ∈ terms, t.2.2 < ws.length ∧ ∀ n ∈ t.2.1, n < 3) (n m : Nat → Nat)
    (hdeg : (n 0 + n 1 + n 2) + (m 0 + m 1 + m 2) + B < 2*nr) {τ : ℝ} (hτ : τ = nucTau (d.ai + d.aj) S.zeta)
    (hR : RysExact nr (nucX (d.ai + d.aj) τ d.rij S.r) u w)
    {Λ : Nat → Nat → MultilinearMap ℝ (fun _ : Fin 4 => ℝ[X]) ℝ}
    (hΛ : Λ = nucL (fun r => w r * (2 * Real.pi * S.q * fac * τ / (d.ai + d.aj))) (d.ai + d.aj) d.rij S.r (fun r => rootRho τ (u r))) :
    ∑ r ∈ Finset.range nr, compVal (opData d O) terms (fun i => (ws.map fun W =>
        symVal (opData d O) (powTab Λ (opData d O).R) (W 0) 0 (pows n m 0) r *
        symVal (opData d O) (powTab Λ (opData d O).R) (W 1) 1 (pows n m 1) r *
        symVal (opData d O) (powTab Λ (opData d O).R) (W 2) 2 (pows n m 2) r).getD i 0) =
      fac * sumVal ((pairOf d (fun k => O k) (fun k => n k) (fun k => m k)).keyV
        (srcInt1 S (d.ai + d.aj) (fun k => d.rij k))) (progSum ws terms) := by
  let T := pairOf d (fun k => O k) (fun k => n k) (fun k => m k)
  have hb := nucTau_bounds hp S.zeta
  rw [← hτ] at hb
  unfold compVal sumVal progSum
  induction terms with
  | nil => simp
  | cons t l ih =>
    have ih := ih (fun t ht' => ht t (List.mem_cons_of_mem _ ht'))
    simp only [List.map_cons, List.sum_cons] at ih ⊢
    rw [Finset.sum_add_distrib, ih, mul_add]
    congr 1
    clear ih
    obtain ⟨h3, h4⟩ := ht t List.mem_cons_self
    obtain ⟨c, geo, i⟩ := t
    dsimp only at h3 h4 ⊢
    have hw : ws.getD i (fun _ => []) = ws[i] := by
      rw [List.getD_eq_getElem?_getD, List.getElem?_eq_getElem h3]; rfl
    have hg : (geo.map (geoFac (opData d O))).prod = T.geo (geoCount (geo.map toFin3)) := by
      rw [← PairOf.geo_list, List.map_map]
      congr 1
      refine List.map_congr_left (fun x hx => ?_)
      have := h4 x hx
      unfold geoFac
      rw [if_pos this]
      show d.ri x - d.rj x = d.ri (toFin3 x) - d.rj (toFin3 x)
      have : ((toFin3 x : Fin 3) : Nat) = x := by
        unfold toFin3
        rcases x with _ | _ | _ | x <;> simp <;> omega
      rw [this]
    have hm : ws[i] ∈ ws := List.getElem_mem h3
    have htw : twoIdx ws[i] = true := (List.all_eq_true.1 h2) _ hm
    have key : ∀ (c : Fin 3) r, r < nr → symVal (opData d O) (powTab Λ (opData d O).R) (ws[i] c) c (pows n m c) r =
        nucFac (fun r => w r * (2 * Real.pi * S.q * fac * τ / (d.ai + d.aj))) c r *
          rootMom (d.ai + d.aj) (d.rij c) (S.r c) (rootRho τ (u r)) (T.poly (progKey geo ws[i]).bra (progKey geo ws[i]).ket c) := by
      intro c r hr
      have htc : ∀ o ∈ ws[i] c, o.2 = 0 ∨ o.2 = 1 := by
        unfold twoIdx at htw
        rw [List.all_eq_true] at htw
        have := htw c (by unfold dirs; fin_cases c <;> simp)
        rw [List.all_eq_true] at this
        intro o ho
        simpa using this o ho
      rw [symVal_poly]
      unfold wordTab
      rw [hΛ, nucL_apply _ hp _ _ _ _ _ (rootRho_lt hb.1 hb.2 (hR.nonneg r hr))]
      have e2 : onIdx 2 (ws[i] c) = [] := onIdx_none (fun o ho h => by rcases htc o ho with h' | h' <;> rw [h'] at h <;> exact absurd h (by decide))
      have e3 : onIdx 3 (ws[i] c) = [] := onIdx_none (fun o ho h => by rcases htc o ho with h' | h' <;> rw [h'] at h <;> exact absurd h (by decide))
      rw [e2, e3]
      show _ * rootMom _ _ _ _ (wordE d.ai (d.ri c) (O c) _ ((X - C (d.ri c))^n c) * wordE d.aj (d.rj c) (O c) _ ((X - C (d.rj c))^m c) *
        (X - C 0)^0 * (X - C 0)^0) = _
      rw [pow_zero, mul_one, mul_one]
      congr 2
      fin_cases c <;> rfl
    have hq := quad_potential (u := u) (w := w) (n := nr) hp S.zeta (fun k => d.rij k) (fun k => S.r k)
      (T.poly (progKey geo ws[i]).bra (progKey geo ws[i]).ket) (by
        refine lt_of_le_of_lt (poly_degree T ws[i] geo) (lt_of_le_of_lt (Nat.add_le_add_left (hB _ hm) _) ?_)
        rw [Fin.sum_univ_three, Fin.sum_univ_three]
        exact hdeg) (by rw [← hτ, ← nucX_eq]; exact hR)
    rw [← hτ] at hq
    show _ = fac * ((c : ℝ) * (T.geo (geoCount (geo.map toFin3)) * srcInt1 S _ _ (T.poly (progKey geo (ws.getD i fun _ => [])).bra
      (progKey geo (ws.getD i fun _ => [])).ket)))
    rw [hw]
    unfold srcInt1
    rw [hq, hg]
    have hterm : ∀ r ∈ Finset.range nr, (c : ℝ) * T.geo (geoCount (geo.map toFin3)) * (ws.map fun W =>
        symVal (opData d O) (powTab Λ (opData d O).R) (W 0) 0 (pows n m 0) r *
        symVal (opData d O) (powTab Λ (opData d O).R) (W 1) 1 (pows n m 1) r *
        symVal (opData d O) (powTab Λ (opData d O).R) (W 2) 2 (pows n m 2) r).getD i 0 =
        (c * T.geo (geoCount (geo.map toFin3)) * (2 * Real.pi * S.q * fac * τ / (d.ai + d.aj))) *
          (w r * ∏ k : Fin 3, rootMom (d.ai + d.aj) (d.rij k) (S.r k) (rootRho τ (u r)) (T.poly (progKey geo ws[i]).bra (progKey geo ws[i]).ket k)) := by
      intro r hr
      rw [Finset.mem_range] at hr
      rw [List.getD_eq_getElem?_getD, List.getElem?_map, List.getElem?_eq_getElem h3]
      have k0 := key 0 r hr; have k1 := key 1 r hr; have k2 := key 2 r hr
      simp only [Fin.val_zero, Fin.val_one, Fin.val_two] at k0 k1 k2
      simp only [Option.map_some, Option.getD_some]
      rw [k0, k1, k2, Fin.prod_univ_three]
      have f0 : ∀ F : Nat → ℝ, nucFac F 0 r = 1 := fun _ => rfl
      have f1 : ∀ F : Nat → ℝ, nucFac F 1 r = 1 := fun _ => rfl
      have f2 : ∀ F : Nat → ℝ, nucFac F 2 r = F r := fun _ => rfl
      rw [f0, f1, f2]
      simp only [Fin.val_zero, Fin.val_one, Fin.val_two]
      ring
    rw [Finset.sum_congr rfl hterm, ← Finset.mul_sum]
    ring

/-! ### In the driver -/

structure Gen1e.OKV (G : Gen1e) (ws : List (Nat → List (GOp × Fin 4))) : Prop where
  sym : runWords ![G.ng.i, G.ng.j, 0, 0] (2^G.gbits + 1) G.prog = some ws
  rys : G.ng.rys = 0
  kl : G.ng.k = 0 ∧ G.ng.l = 0
  two : ws.all twoIdx = true
  len : ∀ W ∈ ws, wordsLen W ≤ G.ng.i + G.ng.j
  ncomp : G.prog.comps.length = G.nComp
  pos : G.nComp ≠ 0
  terms : ∀ c ∈ G.flat.comps, ∀ t ∈ c, t.2.2 < ws.length ∧ ∀ n ∈ t.2.1, n < 3

/-- what the generated integral evaluates for a pair of primitives and a source, without the prefactor -/
noncomputable def genVal1 (G : Gen1e) (ws : List (Nat → List (GOp × Fin 4))) (L : MathLib ℝ) (R : Rys ℝ) (N : NucCall ℝ) (O : Nat → ℝ)
    (s : Call ℝ) (S : Src ℝ) (ip jp M : Nat) : ℝ :=
  let d := s.g1 (G.intV R N O) L ip jp
  let n := M / G.nComp
  sumVal ((pairOf d (fun k => O k) (fun k => pw s.si.l k (n % ncart s.si.l)) (fun k => pw s.sj.l k (n / ncart s.si.l))).keyV
    (srcInt1 S (d.ai + d.aj) (fun k => d.rij k))) (progSum ws (G.flat.comps.getD (M % G.nComp) []))

theorem gen_evalV {G : Gen1e} {ws : List (Nat → List (GOp × Fin 4))} (hG : Gen1e.OKV G ws) {L : MathLib ℝ} {O : Nat → ℝ} {s : Call ℝ}
    {R : Rys ℝ} {N : NucCall ℝ}
    (hpos : ∀ ip jp, ip < s.si.nprim → jp < s.sj.nprim → 0 < s.si.a ip + s.sj.a jp)
    (hN : N.srcs ≠ []) (hR : RysOK R ((s.si.l + G.ng.i + (s.sj.l + G.ng.j))/2 + 1)) :
    EvalOK realK L (G.intV R N O) s (fun ip jp M =>
      ((N.srcs.map fun S => genVal1 G ws L R N O s S ip jp).map fun w => w M).sum) := by
  have hnf : (s.env (G.intV R N O)).nf = (s.env (G.intV R N O)).nfj * (s.env (G.intV R N O)).nfi := Nat.mul_comm _ _
  have B := baseOK_int1e s.si.l s.sj.l G.ng
  have S := (C07_slab_int1e s.si.l s.sj.l G.ng)
  let e := s.env (G.intV R N O)
  have hr : e.nrys_roots = (s.si.l + G.ng.i + (s.sj.l + G.ng.j))/2 + 1 := by
    show (if G.ng.rys > 0 then G.ng.rys else _) = _
    rw [hG.rys]; rfl
  have C : StepCtx true e ![e.li_ceil, e.lj_ceil, 0, 0] e.nrys_roots (2^G.gbits+1) (s.leng (G.intV R N O)) := by
    refine ⟨⟨?_, ?_⟩, ?_, fun _ => rfl, fun h => Bool.noConfusion h, fun h => Bool.noConfusion h⟩
    · intro m r hm hr'
      have m2 : m 2 = 0 := Nat.le_zero.1 (hm 2)
      have m3 : m 3 = 0 := Nat.le_zero.1 (hm 3)
      have := S.range (m 0) (m 1) r (hm 0) (hm 1) hr'
      unfold slabM
      rw [m2, m3]
      simp only [Nat.mul_zero, Nat.add_zero]
      exact this
    · intro m r m' r' hm hr1 hm' hr2 h
      have m2 : m 2 = 0 := Nat.le_zero.1 (hm 2)
      have m3 : m 3 = 0 := Nat.le_zero.1 (hm 3)
      have m2' : m' 2 = 0 := Nat.le_zero.1 (hm' 2)
      have m3' : m' 3 = 0 := Nat.le_zero.1 (hm' 3)
      unfold slabM at h
      rw [m2, m3, m2', m3'] at h
      simp only [Nat.mul_zero, Nat.add_zero] at h
      have := S.inj (m 0) (m 1) r (m' 0) (m' 1) r' (hm 0) (hm 1) hr1 (hm' 0) (hm' 1) hr2 h
      refine ⟨?_, this.2.2⟩
      funext t
      fin_cases t
      · exact this.1
      · exact this.2.1
      · exact m2.trans m2'.symm
      · exact m3.trans m3'.symm
    · show (2^G.gbits+1) * (3 * e.g_size) ≤ e.g_size * 3 * (2^G.gbits + 1)
      exact le_of_eq (by ring)
  refine evalOK_of_list (K := realK) (L := L) (X := G.intV R N O) (s := s)
    (ws := fun ip jp => N.srcs.map fun S => genVal1 G ws L R N O s S ip jp) ?_ ?_
  · intro ip jp _ _ h
    exact hN (List.map_eq_nil_iff.1 h)
  · intro ip jp g idx T hip hjp hT
    show List.Forall₂ _ (N.srcs.map _) (N.srcs.map _)
    rw [List.forall₂_map_left_iff, List.forall₂_map_right_iff, List.forall₂_same]
    intro S _
    let d := s.g1 (G.intV R N O) L ip jp
    have hp : 0 < d.ai + d.aj := hpos ip jp hip hjp
    let τ := nucTau (d.ai + d.aj) S.zeta
    let x := nucX (d.ai + d.aj) τ d.rij S.r
    have hRx : RysExact e.nrys_roots x (R.u e.nrys_roots x) (R.w e.nrys_roots x) := by
      rw [hr]
      exact hR _ (nucX_nonneg hp _ _)
    show KernelSpec T (g1eNuc R realK e d S g) (fun _ gout em => goutRys e (opData d O) G.prog idx g gout em)
      (Blk g (s.leng (G.intV R N O))) (e.nf * G.nComp) true _
    intro fac gout em u h hRO hGs hA hd hE
    have hl3 : 3 * e.g_size ≤ s.leng (G.intV R N O) := by
      show 3 * e.g_size ≤ e.g_size * 3 * (2^G.gbits + 1)
      rw [Nat.mul_comm 3]
      exact Nat.le_mul_of_pos_right _ (Nat.succ_pos _)
    refine wp_mono (nuc_table (τ := τ) (x := x) B hl3 hGs hp rfl rfl hRx.nonneg) ?_
    rintro r h1 ⟨hr1, hal, hag, hI, hT1⟩
    refine ⟨hr1, hag, hI, fun _ => ?_⟩
    have hne : ∀ i, i < e.nf * G.nComp → ¬ Blk g (s.leng (G.intV R N O)) (gout + i) := hd
    obtain ⟨Λ, hΛ⟩ : ∃ Λ, Λ = nucL (fun r => R.w e.nrys_roots x r * (2 * Real.pi * S.q * fac * τ / (d.ai + d.aj))) (d.ai + d.aj) d.rij S.r
      (fun r => rootRho τ (R.u e.nrys_roots x r)) := ⟨_, rfl⟩
    have hb := nucTau_bounds hp S.zeta
    have hv : TabM h1 g e (fun t => angOf e t + (![G.ng.i, G.ng.j, 0, 0] : Fin 4 → Nat) t) e.nrys_roots
        (powTab Λ (opData d O).R) := by
      intro c m r hc hm hr'
      have m0 : m 0 ≤ e.li_ceil := hm 0
      have m1 : m 1 ≤ e.lj_ceil := hm 1
      have m2 : m 2 = 0 := Nat.le_zero.1 (hm 2)
      have m3 : m 3 = 0 := Nat.le_zero.1 (hm 3)
      have := hT1 c (m 0) (m 1) r hc m0 m1 hr'
      have es : slabM e m r = slab2 e (m 0) (m 1) r := by
        unfold slabM slab2; rw [m2, m3]; simp
      rw [es]
      refine Eq.trans this (congrArg Cell.val ?_)
      unfold powTab
      rw [hΛ, nucL_apply _ hp _ _ _ _ _ (rootRho_lt hb.1 hb.2 (hRx.nonneg r hr')), m2, m3]
      rw [pow_zero, pow_zero, mul_one, mul_one]
      rfl
    have hnc := hG.ncomp
    have hpw : ∀ n, n < e.nf → n % e.nfi < e.nfi ∧ n / e.nfi < e.nfj := by
      intro n hn
      have hn' : n < e.nfj * e.nfi := by rw [← hnf]; exact hn
      have : 0 < e.nfi := by
        rcases Nat.eq_zero_or_pos e.nfi with h0 | h0
        · rw [h0, Nat.mul_zero] at hn'; omega
        · exact h0
      exact ⟨Nat.mod_lt _ this, (Nat.div_lt_iff_lt_mul this).2 hn'⟩
    have W := goutRys_wp (D := opData d O) (v0 := powTab Λ (opData d O).R) C hG.sym (Nat.succ_pos _)
      (fun t => by fin_cases t <;> exact le_refl _) (idx := idx) (gout := gout) (em := em) (T := T) (ad := adr2 e)
      (m := fun n => pows (fun c => pw s.si.l c (n % e.nfi)) (fun c => pw s.sj.l c (n / e.nfi))) (u := u) (h := h1) (g := g)
      (fun n c _ _ => by
        unfold adr2 slabM slab2 pows
        simp only [Matrix.cons_val_zero, Matrix.cons_val_one, Matrix.cons_val, Nat.mul_zero, Nat.add_zero]
        rfl)
      (fun n c t hn hc => by
        obtain ⟨q1, q2⟩ := hpw n hn
        fin_cases t
        · exact pw_le q1
        · exact pw_le q2
        · exact le_refl _
        · exact le_refl _)
      (fun q x hq => by rw [hI]; exact hRO q x hq) hT
      (fun i hi => by rw [hnc] at hi; rw [hag _ (hne i hi)]; exact hA i hi) hal
      (fun i hi => by rw [hnc] at hi; exact hne i hi)
      (fun he i hi => by rw [hnc] at hi; rw [hag _ (hne i hi)]; exact hE he i hi) hv
    rw [hnc] at W
    refine wp_mono W ?_
    rintro _ h2 ⟨A2, B2, C2⟩
    refine ⟨?_, hag.trans B2 (fun q hq => Or.inl hq) (fun q hq => hq), by rw [C2, hI]⟩
    intro M hM
    rw [A2 M hM]
    have hk : M % G.nComp < G.flat.comps.length := by rw [G.flat_length, hnc]; exact Nat.mod_lt _ (Nat.pos_of_ne_zero hG.pos)
    have hmem : G.flat.comps.getD (M % G.nComp) [] ∈ G.flat.comps := by
      rw [List.getD_eq_getElem?_getD, List.getElem?_eq_getElem hk]; exact List.getElem_mem hk
    have hMn : M / G.nComp < e.nf := Nat.div_lt_of_lt_mul (by rw [Nat.mul_comm]; exact hM)
    obtain ⟨q1, q2⟩ := hpw _ hMn
    have s1 := psum q1
    have s2 := psum q2
    have := compValV_eq (O := O) (fac := fac) hp hG.two hG.len (hG.terms _ hmem)
      (fun c => pw s.si.l c ((M/G.nComp) % e.nfi)) (fun c => pw s.sj.l c ((M/G.nComp) / e.nfi)) (by
        have e1 : pw s.si.l 0 ((M/G.nComp) % e.nfi) + pw s.si.l 1 ((M/G.nComp) % e.nfi) + pw s.si.l 2 ((M/G.nComp) % e.nfi) = s.si.l := s1
        have e2 : pw s.sj.l 0 ((M/G.nComp) / e.nfi) + pw s.sj.l 1 ((M/G.nComp) / e.nfi) + pw s.sj.l 2 ((M/G.nComp) / e.nfi) = s.sj.l := s2
        beta_reduce
        rw [e1, e2, hr]
        omega) rfl hRx hΛ
    have hE2 : (∑ r ∈ Finset.range e.nrys_roots, goutVal (opData d O) (powTab Λ (opData d O).R) G.flat ws
        (pows (fun c => pw s.si.l c (M / G.nComp % e.nfi)) fun c => pw s.sj.l c (M / G.nComp / e.nfi)) r (M % G.nComp)) =
        fac * genVal1 G ws L R N O s S ip jp M := this
    beta_reduce
    rw [show flatP ![G.ng.i, G.ng.j, 0, 0] (2^G.gbits + 1) G.prog = G.flat from rfl, hE2]

end Verif.Lemmas
