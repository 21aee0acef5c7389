import Verif.Lemmas.Oper2Val

/-! The generated two-electron integrals: evaluation of a primitive quartet. -/
namespace Verif.Lemmas
open Verif Verif.Model Verif.Spec Verif.Prog Verif.Props MeasureTheory Polynomial

/-! ### The intermediates as multilinear functionals -/

theorem rm2_add_left {a b V P Q : ℝ} (ha : 0 < a) (hb : 0 < b) (hV : 0 ≤ V) (f f' g : ℝ[X]) :
    rm2 a b V P Q (f + f') g = rm2 a b V P Q f g + rm2 a b V P Q f' g := by
  unfold rm2; rw [mom2_add_left ha hb hV, add_div]

theorem rm2_add_right {a b V P Q : ℝ} (ha : 0 < a) (hb : 0 < b) (hV : 0 ≤ V) (f g g' : ℝ[X]) :
    rm2 a b V P Q f (g + g') = rm2 a b V P Q f g + rm2 a b V P Q f g' := by
  unfold rm2; rw [mom2_add_right ha hb hV, add_div]

theorem rm2_C_left (a b V P Q c : ℝ) (f g : ℝ[X]) : rm2 a b V P Q (C c * f) g = c * rm2 a b V P Q f g := by
  unfold rm2; rw [mom2_C_left, mul_div_assoc]

theorem rm2_C_right (a b V P Q c : ℝ) (f g : ℝ[X]) : rm2 a b V P Q f (C c * g) = c * rm2 a b V P Q f g := by
  unfold rm2; rw [mom2_C_right, mul_div_assoc]

/-- the normalised moments, as a function of the polynomials of four functions -/
noncomputable def rm2L {a b V : ℝ} (ha : 0 < a) (hb : 0 < b) (hV : 0 ≤ V) (P Q z : ℝ) :
    MultilinearMap ℝ (fun _ : Fin 4 => ℝ[X]) ℝ :=
  MultilinearMap.mk' (fun q => z * rm2 a b V P Q (q 0 * q 1) (q 2 * q 3))
    (by
      intro q t x y
      fin_cases t <;> simp [add_mul, mul_add, rm2_add_left ha hb hV, rm2_add_right ha hb hV])
    (by
      intro q t c x
      have h1 : ∀ c : ℝ, ∀ x y : ℝ[X], (c • x) * y = C c * (x * y) := fun c x y => by rw [smul_eq_C_mul, mul_assoc]
      have h2 : ∀ c : ℝ, ∀ x y : ℝ[X], x * (c • y) = C c * (x * y) := fun c x y => by rw [smul_eq_C_mul, mul_left_comm]
      have h3 : ∀ x y : ℝ, z * (x * y) = x * (z * y) := fun x y => mul_left_comm _ _ _
      fin_cases t <;> simp [h1, h2, rm2_C_left, rm2_C_right, h3])

theorem rm2L_apply {a b V : ℝ} (ha : 0 < a) (hb : 0 < b) (hV : 0 ≤ V) (P Q z : ℝ) (q : Fin 4 → ℝ[X]) :
    rm2L ha hb hV P Q z q = z * rm2 a b V P Q (q 0 * q 1) (q 2 * q 3) := rfl

/-- the factor of the third direction -/
def zFac (z : Nat → ℝ) (c r : Nat) : ℝ := if c = 2 then z r else 1

section
variable {d : G2 ℝ} (ha : 0 < d.ai+d.aj) (hb : 0 < d.ak+d.al) (u z : Nat → ℝ)

noncomputable def eriL (c r : Nat) : MultilinearMap ℝ (fun _ : Fin 4 => ℝ[X]) ℝ :=
  rm2L ha hb (eriV_nonneg ha hb u r) (d.rij c) (d.rkl c) (zFac z c r)

theorem eriL_apply (c r : Nat) (q : Fin 4 → ℝ[X]) : eriL ha hb u z c r q =
    zFac z c r * rm2 (d.ai+d.aj) (d.ak+d.al) (G2.a0 d * |u r|) (d.rij c) (d.rkl c) (q 0 * q 1) (q 2 * q 3) := rfl
end

/-- the functions of the first electron -/
noncomputable def pairIJ (d : G2 ℝ) (D : OpData ℝ) (n m : Nat → Nat) : PairOf :=
  { a := d.ai, b := d.aj, A := fun k => D.R 0 k, B := fun k => D.R 1 k, O := fun k => D.O k, n := fun k => n k, m := fun k => m k }
/-- the functions of the second electron -/
noncomputable def pairKL (d : G2 ℝ) (D : OpData ℝ) (n m : Nat → Nat) : PairOf :=
  { a := d.ak, b := d.al, A := fun k => D.R 2 k, B := fun k => D.R 3 k, O := fun k => D.O k, n := fun k => n k, m := fun k => m k }

/-- the number a generated function gives for unit prefactor -/
noncomputable def genW (d : G2 ℝ) (D : OpData ℝ) (ws : List (Nat → List (GOp × Fin 4))) (terms : List (Int × List Nat × Nat))
    (i j k l : Nat → Nat) : ℝ :=
  sumVal (keyV2 (pairIJ d D i j) (pairKL d D k l)
    (eriInt2 d.omega (d.ai+d.aj) (d.ak+d.al) (fun k => d.rij k) (fun k => d.rkl k))) (progSum2 ws terms) /
      (2 / Real.sqrt Real.pi * Real.pi^3)

theorem compVal2_eq {R : Rys2 ℝ} {e : EnvG} {d : G2 ℝ} {D : OpData ℝ} {fac : ℝ}
    (hn : e.nrys_roots = e.rys_order ∨ e.nrys_roots = 2*e.rys_order) (hR : Rys2OK R e.nrys_roots)
    (ha : 0 < d.ai+d.aj) (hb : 0 < d.ak+d.al) (hDa : D.a = ![d.ai, d.aj, d.ak, d.al])
    {ws : List (Nat → List (GOp × Fin 4))} {B : Nat} (hB : ∀ W ∈ ws, wordsLen W ≤ B)
    {terms : List (Int × List Nat × Nat)} (ht : ∀ t ∈ terms, t.2.2 < ws.length ∧ ∀ n ∈ t.2.1, n < 6)
    (p : Nat → Fin 4 → Nat) (hdeg : (∑ c : Fin 3, p c 0 + ∑ c : Fin 3, p c 1) + (∑ c : Fin 3, p c 2 + ∑ c : Fin 3, p c 3) + B < 2*e.rys_order)
    {Λ : Nat → Nat → MultilinearMap ℝ (fun _ : Fin 4 => ℝ[X]) ℝ}
    (hΛ : Λ = eriL ha hb (nodeU R e d) (fun r => nodeW R e d r * (G2.norm d * fac))) :
    ∑ r ∈ Finset.range e.nrys_roots, compVal D terms (fun i => (ws.map fun W =>
        symVal D (powTab Λ D.R) (W 0) 0 (p 0) r *
        symVal D (powTab Λ D.R) (W 1) 1 (p 1) r *
        symVal D (powTab Λ D.R) (W 2) 2 (p 2) r).getD i 0) =
      fac * genW d D ws terms (fun c => p c 0) (fun c => p c 1) (fun c => p c 2) (fun c => p c 3) := by
  let S := pairIJ d D (fun c => p c 0) (fun c => p c 1)
  let T := pairKL d D (fun c => p c 2) (fun c => p c 3)
  have hpi : 2 / Real.sqrt Real.pi * Real.pi^3 ≠ 0 := by positivity
  unfold genW
  rw [← mul_div_assoc, eq_div_iff hpi]
  unfold compVal sumVal progSum2
  induction terms with
  | nil => simp
  | cons t l ih =>
    have ih := ih (fun t ht' => ht t (List.mem_cons_of_mem _ ht'))
    simp only [List.map_cons, List.sum_cons] at ih ⊢
    rw [Finset.sum_add_distrib, add_mul, ih, mul_add]
    congr 1
    clear ih
    obtain ⟨h3, h4⟩ := ht t List.mem_cons_self
    obtain ⟨c, geo, i⟩ := t
    dsimp only at h3 h4 ⊢
    have hw : ws.getD i (fun _ => []) = ws[i] := by
      rw [List.getD_eq_getElem?_getD, List.getElem?_eq_getElem h3]; rfl
    rw [hw]
    have hg := geo_prod2 S T D (fun _ => rfl) (fun _ => rfl) ws[i] geo h4
    have hm : ws[i] ∈ ws := List.getElem_mem h3
    let f := S.poly (progKey2 geo ws[i]).1.bra (progKey2 geo ws[i]).1.ket
    let g := T.poly (progKey2 geo ws[i]).2.bra (progKey2 geo ws[i]).2.ket
    have key : ∀ (c : Fin 3) r, symVal D (powTab Λ D.R) (ws[i] c) c (p c) r =
        zFac (fun r => nodeW R e d r * (G2.norm d * fac)) c r *
          rm2 (d.ai+d.aj) (d.ak+d.al) (G2.a0 d * |nodeU R e d r|) (d.rij c) (d.rkl c) (f c) (g c) := by
      intro c r
      rw [symVal_poly]
      unfold wordTab
      rw [hΛ, eriL_apply, hDa]
      congr 2
      · show wordE d.ai _ _ _ _ * wordE d.aj _ _ _ _ = S.poly _ _ c
        fin_cases c <;> rfl
      · show wordE d.ak _ _ _ _ * wordE d.al _ _ _ _ = T.poly _ _ c
        fin_cases c <;> rfl
    have hq := eri_sum ha hb hn hR f g (by
      refine lt_of_le_of_lt (poly_degree2 S T ws[i] geo) (lt_of_le_of_lt (Nat.add_le_add_left (hB _ hm) _) ?_)
      exact hdeg)
    show _ = fac * ((c : ℝ) * (S.geo _ * T.geo _ * eriInt2 d.omega (d.ai+d.aj) (d.ak+d.al) (fun k => d.rij k) (fun k => d.rkl k) f g))
    unfold eriInt2
    rw [← hq, hg]
    have hterm : ∀ r ∈ Finset.range e.nrys_roots, (c : ℝ) * (S.geo (progKey2 geo ws[i]).1.geo * T.geo (progKey2 geo ws[i]).2.geo) *
        (ws.map fun W =>
        symVal D (powTab Λ D.R) (W 0) 0 (p 0) r *
        symVal D (powTab Λ D.R) (W 1) 1 (p 1) r *
        symVal D (powTab Λ D.R) (W 2) 2 (p 2) r).getD i 0 =
        (c * (S.geo (progKey2 geo ws[i]).1.geo * T.geo (progKey2 geo ws[i]).2.geo) * (G2.norm d * fac)) *
          (nodeW R e d r * ∏ k : Fin 3, rm2 (d.ai+d.aj) (d.ak+d.al) (G2.a0 d * |nodeU R e d r|) (d.rij k) (d.rkl k) (f k) (g k)) := by
      intro r _
      rw [List.getD_eq_getElem?_getD, List.getElem?_map, List.getElem?_eq_getElem h3]
      have k0 := key 0 r; have k1 := key 1 r; have k2 := key 2 r
      simp only [Fin.val_zero, Fin.val_one, Fin.val_two] at k0 k1 k2
      simp only [Option.map_some, Option.getD_some]
      rw [k0, k1, k2, Fin.prod_univ_three]
      have f0 : ∀ F : Nat → ℝ, zFac F 0 r = 1 := fun _ => rfl
      have f1 : ∀ F : Nat → ℝ, zFac F 1 r = 1 := fun _ => rfl
      have f2 : ∀ F : Nat → ℝ, zFac F 2 r = F r := fun _ => rfl
      rw [f0, f1, f2]
      simp only [Fin.val_zero, Fin.val_one, Fin.val_two]
      ring
    rw [Finset.sum_congr rfl hterm, ← Finset.mul_sum]
    ring

structure Gen2e.OK (G : Gen2e) (ws : List (Nat → List (GOp × Fin 4))) : Prop where
  sym : runWords ![G.ng.i, G.ng.j, G.ng.k, G.ng.l] (2^G.gbits + 1) G.prog = some ws
  len : ∀ W ∈ ws, wordsLen W ≤ G.ng.i + G.ng.j + G.ng.k + G.ng.l
  ncomp : G.prog.comps.length = G.nComp
  pos : G.nComp ≠ 0
  terms : ∀ c ∈ G.flat.comps, ∀ t ∈ c, t.2.2 < ws.length ∧ ∀ n ∈ t.2.1, n < 6

open Classical in
/-- The evaluator of a generated integral, where the function that fills the intermediates sees the layout `e` and `f_gout` the layout
`f`.  The powers of the four functions of element `n`, direction `c` are `p n c`; `κ` and `l` are the powers of the last two indices the
intermediates are computed for. -/
theorem gen2_kernel' {R : Rys2 ℝ} {e f : EnvG} {d : G2 ℝ} {cutoff : ℝ} {g idx : Ptr} {leng : Nat} {D : OpData ℝ}
    {T : Ptr → Option Int} {G : Gen2e} {ws : List (Nat → List (GOp × Fin 4))} (hG : Gen2e.OK G ws) {Lm : Fin 4 → Nat} (he : Shape4 e)
    (hgs : f.g_size = e.g_size) (hnr : f.nrys_roots = e.nrys_roots) (hnf : f.nf = e.nf)
    (hC : StepCtx true f Lm f.nrys_roots (2^G.gbits + 1) leng)
    (hL : ∀ t, angOf f t + (![G.ng.i, G.ng.j, G.ng.k, G.ng.l] : Fin 4 → Nat) t ≤ Lm t)
    (hord : e.rys_order = (e.li_ceil + e.lj_ceil + e.lk_ceil + e.ll_ceil)/2 + 1)
    (hn : e.nrys_roots = e.rys_order ∨ e.nrys_roots = 2*e.rys_order) (hR : Rys2OK R e.nrys_roots)
    (ha : 0 < d.ai+d.aj) (hb : 0 < d.ak+d.al) (hDa : D.a = ![d.ai, d.aj, d.ak, d.al])
    (hD0 : D.R 0 = d.ri) (hD1 : D.R 1 = d.rj) {κ l : (Fin 4 → Nat) → Nat}
    (hκ : ∀ m, (∀ t, m t ≤ Lm t) → m 0 ≤ e.li_ceil ∧ m 1 ≤ e.lj_ceil ∧ κ m ≤ e.lk_ceil ∧ l m ≤ e.ll_ceil ∧
      (∀ r, slabM f m r = slab4 e (m 0) (m 1) (κ m) (l m) r) ∧
      ∀ c, c < 3 → pq (d.rk c) (d.rl c) (κ m) (l m) = (X - C (D.R 2 c))^m 2 * (X - C (D.R 3 c))^m 3)
    {p : Nat → Nat → Fin 4 → Nat} {ad : Nat → Nat → Nat}
    (had : ∀ n c, n < e.nf → c < 3 → ad c n = c*f.g_size + slabM f (p n c) 0)
    (hp : ∀ n c t, n < e.nf → c < 3 → p n c t ≤ angOf f t)
    (hdeg : ∀ n, n < e.nf → (∑ c : Fin 3, p n c 0 + ∑ c : Fin 3, p n c 1) + (∑ c : Fin 3, p n c 2 + ∑ c : Fin 3, p n c 3) +
      (G.ng.i + G.ng.j + G.ng.k + G.ng.l) < 2 * e.rys_order)
    (hT : IdxT T idx e.nf ad) :
    KernelSpec T (fun fac => g0_2e R realK e d cutoff g fac) (fun _ gout em => goutRys f D G.prog idx g gout em)
      (Blk g leng) (e.nf * G.nComp) (decide (G2.kept d cutoff))
      (fun M => genW d D ws (G.flat.comps.getD (M % G.nComp) []) (fun c => p (M/G.nComp) c 0) (fun c => p (M/G.nComp) c 1)
        (fun c => p (M/G.nComp) c 2) (fun c => p (M/G.nComp) c 3)) := by
  intro fac gout em u h hRO hGs hA hd hE
  have hl3 : 3 * e.g_size ≤ leng := by
    have := hC.leng
    rw [hgs] at this
    have h1 : 1 * (3 * e.g_size) ≤ (2^G.gbits + 1) * (3 * e.g_size) := Nat.mul_le_mul_right _ (Nat.succ_le_of_lt (Nat.succ_pos _))
    omega
  have hreg : ∀ {q}, regG e g q → Blk g leng q := by
    rintro q ⟨n, hn, rfl⟩; exact ⟨n, by omega, rfl⟩
  refine wp_mono (g0_2e_wp (he := he) hord hn ha hb (fun r hr => nodeU_nonneg ha hb hn hR r hr) (fun q hq => hGs q (hreg hq))) ?_
  rintro r h1 ⟨hr, hag, hI1, hT1⟩
  have hag' := hag.mono (W := Blk g leng) (fun q hq => hreg hq)
  refine ⟨hr, hag', hI1, fun hr1 => ?_⟩
  have hT2 := hT1 hr1
  obtain ⟨Λ, hΛ⟩ : ∃ Λ, Λ = eriL ha hb (nodeU R e d) (fun r => nodeW R e d r * (G2.norm d * fac)) := ⟨_, rfl⟩
  have hal : ∀ q, Blk g leng q → h1.D q ≠ .oob := fun q hq => by
    by_cases hq' : regG e g q
    · exact Tab.alloc hT2 q hq'
    · rw [hag q hq']; exact hGs q hq
  have hv : TabM h1 g f (fun t => angOf f t + (![G.ng.i, G.ng.j, G.ng.k, G.ng.l] : Fin 4 → Nat) t) f.nrys_roots (powTab Λ D.R) := by
    intro c m r hc hm hr'
    obtain ⟨m0, m1, m2, m3, es, ep⟩ := hκ m fun t => (hm t).trans (hL t)
    rw [es, show gAx g f c = gAx g e c from by unfold gAx; rw [hgs]]
    rw [hnr] at hr'
    refine (cells4_val hT2 hc m0 m1 m2 m3 hr').trans (congrArg Cell.val ?_)
    unfold powTab
    rw [hΛ, eriL_apply]
    unfold eriE
    rw [ep c hc, hD0, hD1]
    rfl
  have hnc := hG.ncomp
  have W := goutRys_wp (D := D) (v0 := powTab Λ D.R) hC hG.sym (Nat.succ_pos _) hL (idx := idx) (gout := gout) (em := em) (T := T)
    (ad := ad) (m := p) (u := u) (h := h1) (g := g) (e := f)
    (fun n c hn => had n c (by rw [← hnf]; exact hn)) (fun n c t hn => hp n c t (by rw [← hnf]; exact hn))
    (fun q x hq => by rw [hI1]; exact hRO q x hq) (by rw [hnf]; exact hT)
    (fun i hi => by rw [hnc, hnf] at hi; rw [hag' _ (hd i hi)]; exact hA i hi) hal
    (fun i hi => by rw [hnc, hnf] at hi; exact hd i hi)
    (fun he i hi => by rw [hnc, hnf] at hi; rw [hag' _ (hd i hi)]; exact hE he i hi) hv
  rw [hnc, hnf, hnr] at W
  refine wp_mono W ?_
  rintro _ h2 ⟨A2, B2, C2⟩
  refine ⟨?_, hag'.trans B2 (fun q hq => Or.inl hq) (fun q hq => hq), by rw [C2, hI1]⟩
  intro M hM
  rw [A2 M hM]
  have hk : M % G.nComp < G.flat.comps.length := by rw [G.flat_length, hnc]; exact Nat.mod_lt _ (Nat.pos_of_ne_zero hG.pos)
  have hmem : G.flat.comps.getD (M % G.nComp) [] ∈ G.flat.comps := by
    rw [List.getD_eq_getElem?_getD, List.getElem?_eq_getElem hk]; exact List.getElem_mem hk
  have hMn : M / G.nComp < e.nf := Nat.div_lt_of_lt_mul (by rw [Nat.mul_comm]; exact hM)
  have := compVal2_eq (R := R) (fac := fac) hn hR ha hb hDa hG.len (hG.terms _ hmem) (p (M / G.nComp)) (hdeg _ hMn) hΛ
  have hE2 : (∑ r ∈ Finset.range e.nrys_roots, goutVal D (powTab Λ D.R) G.flat ws (p (M / G.nComp)) r (M % G.nComp)) =
      fac * genW d D ws (G.flat.comps.getD (M % G.nComp) []) (fun c => p (M/G.nComp) c 0) (fun c => p (M/G.nComp) c 1)
        (fun c => p (M/G.nComp) c 2) (fun c => p (M/G.nComp) c 3) := this
  beta_reduce
  rw [show flatP ![G.ng.i, G.ng.j, G.ng.k, G.ng.l] (2^G.gbits + 1) G.prog = G.flat from rfl, hE2]

open Classical in
/-- The evaluator of a generated integral.  The powers of the four functions of element `n`, direction `c` are `p n c`; `κ` and `l`
are the powers of the last two indices the intermediates are computed for. -/
theorem gen2_kernel {R : Rys2 ℝ} {e : EnvG} {d : G2 ℝ} {cutoff : ℝ} {g idx : Ptr} {leng : Nat} {D : OpData ℝ}
    {T : Ptr → Option Int} {G : Gen2e} {ws : List (Nat → List (GOp × Fin 4))} (hG : Gen2e.OK G ws) {Lm : Fin 4 → Nat} (he : Shape4 e)
    (hC : StepCtx true e Lm e.nrys_roots (2^G.gbits + 1) leng)
    (hL : ∀ t, angOf e t + (![G.ng.i, G.ng.j, G.ng.k, G.ng.l] : Fin 4 → Nat) t ≤ Lm t)
    (hord : e.rys_order = (e.li_ceil + e.lj_ceil + e.lk_ceil + e.ll_ceil)/2 + 1)
    (hn : e.nrys_roots = e.rys_order ∨ e.nrys_roots = 2*e.rys_order) (hR : Rys2OK R e.nrys_roots)
    (ha : 0 < d.ai+d.aj) (hb : 0 < d.ak+d.al) (hDa : D.a = ![d.ai, d.aj, d.ak, d.al])
    (hD0 : D.R 0 = d.ri) (hD1 : D.R 1 = d.rj) {κ l : (Fin 4 → Nat) → Nat}
    (hκ : ∀ m, (∀ t, m t ≤ Lm t) → m 0 ≤ e.li_ceil ∧ m 1 ≤ e.lj_ceil ∧ κ m ≤ e.lk_ceil ∧ l m ≤ e.ll_ceil ∧
      (∀ r, slabM e m r = slab4 e (m 0) (m 1) (κ m) (l m) r) ∧
      ∀ c, c < 3 → pq (d.rk c) (d.rl c) (κ m) (l m) = (X - C (D.R 2 c))^m 2 * (X - C (D.R 3 c))^m 3)
    {p : Nat → Nat → Fin 4 → Nat} {ad : Nat → Nat → Nat}
    (had : ∀ n c, n < e.nf → c < 3 → ad c n = c*e.g_size + slabM e (p n c) 0)
    (hp : ∀ n c t, n < e.nf → c < 3 → p n c t ≤ angOf e t)
    (hdeg : ∀ n, n < e.nf → (∑ c : Fin 3, p n c 0 + ∑ c : Fin 3, p n c 1) + (∑ c : Fin 3, p n c 2 + ∑ c : Fin 3, p n c 3) +
      (G.ng.i + G.ng.j + G.ng.k + G.ng.l) < 2 * e.rys_order)
    (hT : IdxT T idx e.nf ad) :
    KernelSpec T (fun fac => g0_2e R realK e d cutoff g fac) (fun _ gout em => goutRys e D G.prog idx g gout em)
      (Blk g leng) (e.nf * G.nComp) (decide (G2.kept d cutoff))
      (fun M => genW d D ws (G.flat.comps.getD (M % G.nComp) []) (fun c => p (M/G.nComp) c 0) (fun c => p (M/G.nComp) c 1)
        (fun c => p (M/G.nComp) c 2) (fun c => p (M/G.nComp) c 3)) :=
  gen2_kernel' hG he rfl rfl rfl hC hL hord hn hR ha hb hDa hD0 hD1 hκ had hp hdeg hT

end Verif.Lemmas
