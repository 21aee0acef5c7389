import Verif.Props.F12
import Verif.Lemmas.Oper2Drv
import Verif.Props.Oper2

/-! Integrals over the Yukawa interaction and the Slater-type geminal with operators on the functions. -/
namespace Verif.Lemmas
open Verif Verif.Model Verif.Spec Verif.Prog Verif.Props MeasureTheory Polynomial

/-- the repulsion of two Gaussians times polynomials -/
noncomputable def f12Int2 (stg : Bool) (ζ p q : ℝ) (P Q : Pt) (f g : Fin 3 → ℝ[X]) : ℝ :=
  repulsion (VF stg ζ) (pg p P f) (pg q Q g)

theorem term_valF (S T : PairOf) (h : 0 < S.a + S.b) (h' : 0 < T.a + T.b) (hO : S.O = T.O) (stg : Bool) (ζ : ℝ) (x : Term × Term) :
    Op2.valT (VF stg ζ) S.O S.A S.B T.A T.B (gto S.a S.A S.n) (gto S.b S.B S.m) (gto T.a T.A T.n) (gto T.b T.B T.m) x =
      x.1.coef * x.2.coef *
        ((S.pre * T.pre * keyV2 S T (f12Int2 stg ζ (S.a+S.b) (T.a+T.b) S.cen T.cen) (termKey2 x) : ℝ) : ℂ) := by
  unfold Op2.valT
  congr 2
  have e1 := fun r => poly_term S x.1 r h
  have e2 := fun r => poly_term T x.2 r h'
  rw [hO] at e1
  rw [hO]
  simp only [e1, e2]
  rw [repulsion_smul, S.geo_list, T.geo_list]
  unfold keyV2 f12Int2 termKey2
  show S.geo (geoCount x.1.geo) * T.geo (geoCount x.2.geo) * (S.pre * T.pre * _) =
    S.pre * T.pre * (S.geo (geoCount x.1.geo) * T.geo (geoCount x.2.geo) * _)
  ring

theorem op_valF (S T : PairOf) (h : 0 < S.a + S.b) (h' : 0 < T.a + T.b) (hO : S.O = T.O) (stg : Bool) (ζ : ℝ) (P : Op2) :
    Op2.val (VF stg ζ) S.O S.A S.B T.A T.B (gto S.a S.A S.n) (gto S.b S.B S.m) (gto T.a T.A T.n) (gto T.b T.B T.m) P =
      ((S.pre * T.pre * sumVal (keyV2 S T (f12Int2 stg ζ (S.a+S.b) (T.a+T.b) S.cen T.cen)) (opRe2 P) : ℝ) : ℂ) +
        Complex.I * ((S.pre * T.pre * sumVal (keyV2 S T (f12Int2 stg ζ (S.a+S.b) (T.a+T.b) S.cen T.cen)) (opIm2 P) : ℝ) : ℂ) := by
  induction P with
  | nil => simp [Op2.val, sumVal, opRe2, opIm2]
  | cons x P ih =>
    have h1 : ∀ V O A B C D f g h k, Op2.val V O A B C D f g h k (x :: P) = Op2.valT V O A B C D f g h k x +
        Op2.val V O A B C D f g h k P := by
      intro V O A B C D f g h k; simp [Op2.val]
    have h2 : ∀ v : Key × Key → ℝ, sumVal v (opRe2 (x :: P)) =
        ((x.1.re*x.2.re - x.1.im*x.2.im : Int) : ℝ) * v (termKey2 x) + sumVal v (opRe2 P) := by
      intro v; simp [sumVal, opRe2]
    have h3 : ∀ v : Key × Key → ℝ, sumVal v (opIm2 (x :: P)) =
        ((x.1.re*x.2.im + x.1.im*x.2.re : Int) : ℝ) * v (termKey2 x) + sumVal v (opIm2 P) := by
      intro v; simp [sumVal, opIm2]
    rw [h1, ih, term_valF S T h h' hO, h2, h3]
    unfold Term.coef
    generalize keyV2 S T _ _ = v
    generalize sumVal _ _ = v1
    generalize sumVal _ _ = v2
    push_cast
    linear_combination (x.1.im * x.2.im * (S.pre * T.pre * v) : ℂ) * Complex.I_mul_I

theorem integrable_actF {a b c d : ℝ} (h1 : 0 < a + b) (h2 : 0 < c + d) (O A B C D : Pt) (n m p q : Fin 3 → ℕ) (v w v' w' : Word)
    (stg : Bool) (ζ : ℝ) : Integrable fun z : Pt × Pt => (Word.act O A v (gto a A n) z.1 * Word.act O B w (gto b B m) z.1) *
      VF stg ζ z.1 z.2 * (Word.act O C v' (gto c C p) z.2 * Word.act O D w' (gto d D q) z.2) := by
  let S : PairOf := { a := a, b := b, A := A, B := B, O := O, n := n, m := m }
  let T : PairOf := { a := c, b := d, A := C, B := D, O := O, n := p, m := q }
  have e1 := fun r => poly_term S ⟨1, 0, [], v, w⟩ r h1
  have e2 := fun r => poly_term T ⟨1, 0, [], v', w'⟩ r h2
  have := (integrable_pg_VF h1 h2 S.cen T.cen (S.poly (termKey ⟨1, 0, [], v, w⟩).bra (termKey ⟨1, 0, [], v, w⟩).ket)
    (T.poly (termKey ⟨1, 0, [], v', w'⟩).bra (termKey ⟨1, 0, [], v', w'⟩).ket) stg ζ).const_mul (S.pre * T.pre)
  refine this.congr (Filter.Eventually.of_forall fun z => ?_)
  have a1 := e1 z.1
  have a2 := e2 z.2
  dsimp only [S, T] at a1 a2 ⊢
  rw [a1, a2]
  ring

/-- the integral over contracted functions is the contraction of the integrals over primitives -/
theorem op_valF_cgto {O A B C D : Pt} {ni nj nk nl : ℕ} {ai ci aj cj ak ck al cl : ℕ → ℝ} {n m p q : Fin 3 → ℕ} {ic jc kc lc : ℕ}
    (stg : Bool) (ζ : ℝ) (P : Op2) (h : ∀ ip jp, ip < ni → jp < nj → 0 < ai ip + aj jp) (h' : ∀ kp lp, kp < nk → lp < nl → 0 < ak kp + al lp) :
    Op2.val (VF stg ζ) O A B C D (cgto ni ai ci A ic n) (cgto nj aj cj B jc m) (cgto nk ak ck C kc p) (cgto nl al cl D lc q) P =
      contract4C ni nj nk nl ci cj ck cl (fun ip jp kp lp =>
        Op2.val (VF stg ζ) O A B C D (gto (ai ip) A n) (gto (aj jp) B m) (gto (ak kp) C p) (gto (al lp) D q) P) ic jc kc lc := by
  have ht : ∀ x : Term × Term, Op2.valT (VF stg ζ) O A B C D (cgto ni ai ci A ic n) (cgto nj aj cj B jc m)
      (cgto nk ak ck C kc p) (cgto nl al cl D lc q) x =
      contract4C ni nj nk nl ci cj ck cl (fun ip jp kp lp =>
        Op2.valT (VF stg ζ) O A B C D (gto (ai ip) A n) (gto (aj jp) B m) (gto (ak kp) C p) (gto (al lp) D q) x) ic jc kc lc := by
    intro x
    unfold Op2.valT
    simp_rw [act_cgto_mul]
    rw [(repulsion_sum (V := VF stg ζ) _ _ _ _ (fun a ha b hb => by
      rw [Finset.mem_product, Finset.mem_range, Finset.mem_range] at ha hb
      exact integrable_actF (h _ _ ha.1 ha.2) (h' _ _ hb.1 hb.2) O A B C D n m p q x.1.bra x.1.ket x.2.bra x.2.ket stg ζ)).2]
    unfold contract4C
    rw [Finset.sum_comm, Finset.sum_product_right]
    push_cast
    rw [Finset.mul_sum, Finset.mul_sum]
    refine Finset.sum_congr rfl fun lp _ => ?_
    rw [Finset.mul_sum, Finset.mul_sum]
    refine Finset.sum_congr rfl fun kp _ => ?_
    rw [Finset.sum_product_right, Finset.mul_sum, Finset.mul_sum]
    refine Finset.sum_congr rfl fun jp _ => ?_
    rw [Finset.mul_sum, Finset.mul_sum]
    refine Finset.sum_congr rfl fun ip _ => ?_
    ring
  induction P with
  | nil => simp [Op2.val, contract4C]
  | cons x P ih =>
    have h1 : ∀ f g h k, Op2.val (VF stg ζ) O A B C D f g h k (x :: P) = Op2.valT (VF stg ζ) O A B C D f g h k x +
        Op2.val (VF stg ζ) O A B C D f g h k P := by
      intro f g h k; simp [Op2.val]
    simp_rw [h1]
    rw [ih, ht]
    unfold contract4C
    simp_rw [mul_add, Finset.sum_add_distrib]

/-- the number a generated function gives for unit prefactor -/
noncomputable def genWF (stg : Bool) (ζ : ℝ) (d : G2 ℝ) (D : OpData ℝ) (ws : List (Nat → List (GOp × Fin 4))) (terms : List (Int × List Nat × Nat))
    (i j k l : Nat → Nat) : ℝ :=
  sumVal (keyV2 (pairIJ d D i j) (pairKL d D k l)
    (f12Int2 stg ζ (d.ai+d.aj) (d.ak+d.al) (fun k => d.rij k) (fun k => d.rkl k))) (progSum2 ws terms) /
      (2 / Real.sqrt Real.pi * Real.pi^3)

theorem compValF_eq {stg : Bool} {ζ : ℝ} {R : RysF ℝ} {e : EnvG} {d : G2 ℝ} {D : OpData ℝ} {fac : ℝ}
    (hR : RysFOK R e.nrys_roots)
    (ha : 0 < d.ai+d.aj) (hb : 0 < d.ak+d.al) (hDa : D.a = ![d.ai, d.aj, d.ak, d.al])
    {ws : List (Nat → List (GOp × Fin 4))} {B : Nat} (hB : ∀ W ∈ ws, wordsLen W ≤ B)
    {terms : List (Int × List Nat × Nat)} (ht : ∀ t ∈ terms, t.2.2 < ws.length ∧ ∀ n ∈ t.2.1, n < 6)
    (p : Nat → Fin 4 → Nat) (hdeg : (∑ c : Fin 3, p c 0 + ∑ c : Fin 3, p c 1) + (∑ c : Fin 3, p c 2 + ∑ c : Fin 3, p c 3) + B + 1 < 2*e.nrys_roots)
    {Λ : Nat → Nat → MultilinearMap ℝ (fun _ : Fin 4 => ℝ[X]) ℝ}
    (hΛ : Λ = eriL ha hb (nodeUF R e d ζ) (fun r => nodeWF stg R e d ζ r * (normF d * fac))) :
    ∑ r ∈ Finset.range e.nrys_roots, compVal D terms (fun i => (ws.map fun W =>
        symVal D (powTab Λ D.R) (W 0) 0 (p 0) r *
        symVal D (powTab Λ D.R) (W 1) 1 (p 1) r *
        symVal D (powTab Λ D.R) (W 2) 2 (p 2) r).getD i 0) =
      fac * genWF stg ζ d D ws terms (fun c => p c 0) (fun c => p c 1) (fun c => p c 2) (fun c => p c 3) := by
  let S := pairIJ d D (fun c => p c 0) (fun c => p c 1)
  let T := pairKL d D (fun c => p c 2) (fun c => p c 3)
  have hpi : 2 / Real.sqrt Real.pi * Real.pi^3 ≠ 0 := by positivity
  unfold genWF
  rw [← mul_div_assoc, eq_div_iff hpi]
  unfold compVal sumVal progSum2
  induction terms with
  | nil => simp
  | cons t l ih =>
    have ih := ih (fun t ht' => ht t (List.mem_cons_of_mem _ ht'))
    simp only [List.map_cons, List.sum_cons] at ih ⊢
    rw [Finset.sum_add_distrib, add_mul, ih, mul_add]
    congr 1
    clear ih
    obtain ⟨h3, h4⟩ := ht t List.mem_cons_self
    obtain ⟨c, geo, i⟩ := t
    dsimp only at h3 h4 ⊢
    have hw : ws.getD i (fun _ => []) = ws[i] := by
      rw [List.getD_eq_getElem?_getD, List.getElem?_eq_getElem h3]; rfl
    rw [hw]
    have hg := geo_prod2 S T D (fun _ => rfl) (fun _ => rfl) ws[i] geo h4
    have hm : ws[i] ∈ ws := List.getElem_mem h3
    let f := S.poly (progKey2 geo ws[i]).1.bra (progKey2 geo ws[i]).1.ket
    let g := T.poly (progKey2 geo ws[i]).2.bra (progKey2 geo ws[i]).2.ket
    have key : ∀ (c : Fin 3) r, symVal D (powTab Λ D.R) (ws[i] c) c (p c) r =
        zFac (fun r => nodeWF stg R e d ζ r * (normF d * fac)) c r *
          rm2 (d.ai+d.aj) (d.ak+d.al) (G2.a0 d * |nodeUF R e d ζ r|) (d.rij c) (d.rkl c) (f c) (g c) := by
      intro c r
      rw [symVal_poly]
      unfold wordTab
      rw [hΛ, eriL_apply, hDa]
      congr 2
      · show wordE d.ai _ _ _ _ * wordE d.aj _ _ _ _ = S.poly _ _ c
        fin_cases c <;> rfl
      · show wordE d.ak _ _ _ _ * wordE d.al _ _ _ _ = T.poly _ _ c
        fin_cases c <;> rfl
    have hq := f12_eri_sum (stg := stg) (ζ := ζ) ha hb hR f g (by
      refine lt_of_le_of_lt (Nat.add_le_add_right ((poly_degree2 S T ws[i] geo).trans (Nat.add_le_add_left (hB _ hm) _)) 1) ?_
      exact hdeg)
    show _ = fac * ((c : ℝ) * (S.geo _ * T.geo _ * f12Int2 stg ζ (d.ai+d.aj) (d.ak+d.al) (fun k => d.rij k) (fun k => d.rkl k) f g))
    unfold f12Int2
    rw [← hq, hg]
    have hterm : ∀ r ∈ Finset.range e.nrys_roots, (c : ℝ) * (S.geo (progKey2 geo ws[i]).1.geo * T.geo (progKey2 geo ws[i]).2.geo) *
        (ws.map fun W =>
        symVal D (powTab Λ D.R) (W 0) 0 (p 0) r *
        symVal D (powTab Λ D.R) (W 1) 1 (p 1) r *
        symVal D (powTab Λ D.R) (W 2) 2 (p 2) r).getD i 0 =
        (c * (S.geo (progKey2 geo ws[i]).1.geo * T.geo (progKey2 geo ws[i]).2.geo) * (normF d * fac)) *
          (nodeWF stg R e d ζ r * ∏ k : Fin 3, rm2 (d.ai+d.aj) (d.ak+d.al) (G2.a0 d * |nodeUF R e d ζ r|) (d.rij k) (d.rkl k) (f k) (g k)) := by
      intro r _
      rw [List.getD_eq_getElem?_getD, List.getElem?_map, List.getElem?_eq_getElem h3]
      have k0 := key 0 r; have k1 := key 1 r; have k2 := key 2 r
      simp only [Fin.val_zero, Fin.val_one, Fin.val_two] at k0 k1 k2
      simp only [Option.map_some, Option.getD_some]
      rw [k0, k1, k2, Fin.prod_univ_three]
      have f0 : ∀ F : Nat → ℝ, zFac F 0 r = 1 := fun _ => rfl
      have f1 : ∀ F : Nat → ℝ, zFac F 1 r = 1 := fun _ => rfl
      have f2 : ∀ F : Nat → ℝ, zFac F 2 r = F r := fun _ => rfl
      rw [f0, f1, f2]
      simp only [Fin.val_zero, Fin.val_one, Fin.val_two]
      ring
    rw [Finset.sum_congr rfl hterm, ← Finset.mul_sum]
    ring

/-- The evaluator of a generated integral, where the function that fills the intermediates sees the layout `e` and `f_gout` the layout
`f`.  The powers of the four functions of element `n`, direction `c` are `p n c`; `κ` and `l` are the powers of the last two indices the
intermediates are computed for. -/
theorem gen2_kernelF {stg : Bool} {ζ : ℝ} {R : RysF ℝ} {e f : EnvG} {d : G2 ℝ} {g idx : Ptr} {leng : Nat} {D : OpData ℝ}
    {T : Ptr → Option Int} {G : Gen2e} {ws : List (Nat → List (GOp × Fin 4))} (hG : Gen2e.OK G ws) {Lm : Fin 4 → Nat} (he : Shape4 e)
    (hgs : f.g_size = e.g_size) (hnr : f.nrys_roots = e.nrys_roots) (hnf : f.nf = e.nf)
    (hC : StepCtx true f Lm f.nrys_roots (2^G.gbits + 1) leng)
    (hL : ∀ t, angOf f t + (![G.ng.i, G.ng.j, G.ng.k, G.ng.l] : Fin 4 → Nat) t ≤ Lm t)
    (hR : RysFOK R e.nrys_roots)
    (ha : 0 < d.ai+d.aj) (hb : 0 < d.ak+d.al) (hDa : D.a = ![d.ai, d.aj, d.ak, d.al])
    (hD0 : D.R 0 = d.ri) (hD1 : D.R 1 = d.rj) {κ l : (Fin 4 → Nat) → Nat}
    (hκ : ∀ m, (∀ t, m t ≤ Lm t) → m 0 ≤ e.li_ceil ∧ m 1 ≤ e.lj_ceil ∧ κ m ≤ e.lk_ceil ∧ l m ≤ e.ll_ceil ∧
      (∀ r, slabM f m r = slab4 e (m 0) (m 1) (κ m) (l m) r) ∧
      ∀ c, c < 3 → pq (d.rk c) (d.rl c) (κ m) (l m) = (X - C (D.R 2 c))^m 2 * (X - C (D.R 3 c))^m 3)
    {p : Nat → Nat → Fin 4 → Nat} {ad : Nat → Nat → Nat}
    (had : ∀ n c, n < e.nf → c < 3 → ad c n = c*f.g_size + slabM f (p n c) 0)
    (hp : ∀ n c t, n < e.nf → c < 3 → p n c t ≤ angOf f t)
    (hdeg : ∀ n, n < e.nf → (∑ c : Fin 3, p n c 0 + ∑ c : Fin 3, p n c 1) + (∑ c : Fin 3, p n c 2 + ∑ c : Fin 3, p n c 3) +
      (G.ng.i + G.ng.j + G.ng.k + G.ng.l) + 1 < 2 * e.nrys_roots)
    (hT : IdxT T idx e.nf ad) :
    KernelSpec T (fun fac => g0F12 stg R realK e d ζ g fac) (fun _ gout em => goutRys f D G.prog idx g gout em)
      (Blk g leng) (e.nf * G.nComp) true
      (fun M => genWF stg ζ d D ws (G.flat.comps.getD (M % G.nComp) []) (fun c => p (M/G.nComp) c 0) (fun c => p (M/G.nComp) c 1)
        (fun c => p (M/G.nComp) c 2) (fun c => p (M/G.nComp) c 3)) := by
  intro fac gout em u h hRO hGs hA hd hE
  have hl3 : 3 * e.g_size ≤ leng := by
    have := hC.leng
    rw [hgs] at this
    have h1 : 1 * (3 * e.g_size) ≤ (2^G.gbits + 1) * (3 * e.g_size) := Nat.mul_le_mul_right _ (Nat.succ_le_of_lt (Nat.succ_pos _))
    omega
  have hreg : ∀ {q}, regG e g q → Blk g leng q := by
    rintro q ⟨n, hn, rfl⟩; exact ⟨n, by omega, rfl⟩
  refine wp_mono (g0F12_wp (he := he) ha hb hR (fun q hq => hGs q (hreg hq))) ?_
  rintro r h1 ⟨hr, hT2⟩
  have hag : AgreeD h h1 (regG e g) := hT2.frame
  have hI1 : h1.I = h.I := hT2.int
  have hag' := hag.mono (W := Blk g leng) (fun q hq => hreg hq)
  refine ⟨hr, hag', hI1, fun hr1 => ?_⟩
  obtain ⟨Λ, hΛ⟩ : ∃ Λ, Λ = eriL ha hb (nodeUF R e d ζ) (fun r => nodeWF stg R e d ζ r * (normF d * fac)) := ⟨_, rfl⟩
  have hal : ∀ q, Blk g leng q → h1.D q ≠ .oob := fun q hq => by
    by_cases hq' : regG e g q
    · exact Tab.alloc hT2 q hq'
    · rw [hag q hq']; exact hGs q hq
  have hv : TabM h1 g f (fun t => angOf f t + (![G.ng.i, G.ng.j, G.ng.k, G.ng.l] : Fin 4 → Nat) t) f.nrys_roots (powTab Λ D.R) := by
    intro c m r hc hm hr'
    obtain ⟨m0, m1, m2, m3, es, ep⟩ := hκ m fun t => (hm t).trans (hL t)
    rw [es, show gAx g f c = gAx g e c from by unfold gAx; rw [hgs]]
    rw [hnr] at hr'
    refine (cells4_val hT2 hc m0 m1 m2 m3 hr').trans (congrArg Cell.val ?_)
    unfold powTab
    rw [hΛ, eriL_apply]
    unfold eriE
    rw [ep c hc, hD0, hD1]
    rfl
  have hnc := hG.ncomp
  have W := goutRys_wp (D := D) (v0 := powTab Λ D.R) hC hG.sym (Nat.succ_pos _) hL (idx := idx) (gout := gout) (em := em) (T := T)
    (ad := ad) (m := p) (u := u) (h := h1) (g := g) (e := f)
    (fun n c hn => had n c (by rw [← hnf]; exact hn)) (fun n c t hn => hp n c t (by rw [← hnf]; exact hn))
    (fun q x hq => by rw [hI1]; exact hRO q x hq) (by rw [hnf]; exact hT)
    (fun i hi => by rw [hnc, hnf] at hi; rw [hag' _ (hd i hi)]; exact hA i hi) hal
    (fun i hi => by rw [hnc, hnf] at hi; exact hd i hi)
    (fun he i hi => by rw [hnc, hnf] at hi; rw [hag' _ (hd i hi)]; exact hE he i hi) hv
  rw [hnc, hnf, hnr] at W
  refine wp_mono W ?_
  rintro _ h2 ⟨A2, B2, C2⟩
  refine ⟨?_, hag'.trans B2 (fun q hq => Or.inl hq) (fun q hq => hq), by rw [C2, hI1]⟩
  intro M hM
  rw [A2 M hM]
  have hk : M % G.nComp < G.flat.comps.length := by rw [G.flat_length, hnc]; exact Nat.mod_lt _ (Nat.pos_of_ne_zero hG.pos)
  have hmem : G.flat.comps.getD (M % G.nComp) [] ∈ G.flat.comps := by
    rw [List.getD_eq_getElem?_getD, List.getElem?_eq_getElem hk]; exact List.getElem_mem hk
  have hMn : M / G.nComp < e.nf := Nat.div_lt_of_lt_mul (by rw [Nat.mul_comm]; exact hM)
  have := compValF_eq (stg := stg) (ζ := ζ) (R := R) (fac := fac) hR ha hb hDa hG.len (hG.terms _ hmem) (p (M / G.nComp)) (hdeg _ hMn) hΛ
  have hE2 : (∑ r ∈ Finset.range e.nrys_roots, goutVal D (powTab Λ D.R) G.flat ws (p (M / G.nComp)) r (M % G.nComp)) =
      fac * genWF stg ζ d D ws (G.flat.comps.getD (M % G.nComp) []) (fun c => p (M/G.nComp) c 0) (fun c => p (M/G.nComp) c 1)
        (fun c => p (M/G.nComp) c 2) (fun c => p (M/G.nComp) c 3) := this
  beta_reduce
  rw [show flatP ![G.ng.i, G.ng.j, G.ng.k, G.ng.l] (2^G.gbits + 1) G.prog = G.flat from rfl, hE2]

end Verif.Lemmas

namespace Verif.Props
open Verif Verif.Model Verif.Prog Verif.Lemmas Verif.Spec MeasureTheory Polynomial

theorem slabF (li lj lk ll : Nat) (ng : Inc) (order : Nat) :
    SlabOK4 (initF12 li lj lk ll ng order) (li + ng.i) (lj + ng.j) (lk + ng.k) (ll + ng.l)
      (initF12 li lj lk ll ng order).nrys_roots :=
  slabOK4_of (A := dimA (li+ng.i) (lj+ng.j)) (B := dimB (li+ng.i) (lj+ng.j))
    (K := dimA (lk+ng.k) (ll+ng.l)) (L := dimB (lk+ng.k) (ll+ng.l)) rfl rfl rfl rfl rfl
    (dimA_gt _ _) (dimB_gt _ _) (dimA_gt _ _) (dimB_gt _ _)

theorem gen2_evalF {G : Gen2e} {ws : List (Nat → List (GOp × Fin 4))} (hG : Gen2e.OK G ws) {L : MathLib ℝ} {O : Nat → ℝ} {s : CallF ℝ}
    {R : RysF ℝ} (hp : PosExpF s) (hR : RysFOK R (s.env (G.int O)).nrys_roots) :
    EvalOKF R realK L (G.int O) s (fun _ _ _ _ => true)
      (fun ip jp kp lp M => genWF s.stg s.zeta (s.g2 (G.int O) L ip jp kp lp)
        { a := ![s.si.a ip, s.sj.a jp, s.sk.a kp, s.sl.a lp], R := ![s.si.r, s.sj.r, s.sk.r, s.sl.r], O := O } ws
        (G.flat.comps.getD (M % G.nComp) []) (fun c => i4 (s.env (G.int O)) c (M / G.nComp))
        (fun c => j4 (s.env (G.int O)) c (M / G.nComp)) (fun c => k4 (s.env (G.int O)) c (M / G.nComp))
        (fun c => l4 (s.env (G.int O)) c (M / G.nComp))) := by
  intro ip jp kp lp g idx T hip hjp hkp hlp hT
  let e := s.env (G.int O)
  have hnf : e.nf = ncart s.sj.l * ncart s.sl.l * ncart s.sk.l * ncart s.si.l := by
    show lenCart s.si.l * lenCart s.sk.l * lenCart s.sl.l * lenCart s.sj.l = _
    simp only [lenCart_eq]; ring
  have dig : ∀ n, n < e.nf → n % ncart s.si.l < ncart s.si.l ∧ n / ncart s.si.l % ncart s.sk.l < ncart s.sk.l ∧
      n / ncart s.si.l / ncart s.sk.l % ncart s.sl.l < ncart s.sl.l ∧
      n / ncart s.si.l / ncart s.sk.l / ncart s.sl.l < ncart s.sj.l := by
    intro n hn
    rw [hnf] at hn
    refine ⟨Nat.mod_lt _ (ncart_pos _), Nat.mod_lt _ (ncart_pos _), Nat.mod_lt _ (ncart_pos _), ?_⟩
    rw [Nat.div_lt_iff_lt_mul (ncart_pos _), Nat.div_lt_iff_lt_mul (ncart_pos _), Nat.div_lt_iff_lt_mul (ncart_pos _)]
    exact hn
  have S := slabF s.si.l s.sj.l s.sk.l s.sl.l G.ng s.order
  have es : ∀ (m : Fin 4 → Nat) r, slabM e m r = slab4 e (m 0) (m 1) (m 2) (m 3) r := by
    intro m r; unfold slabM slab4; ring
  have C : StepCtx true e ![e.li_ceil, e.lj_ceil, e.lk_ceil, e.ll_ceil] e.nrys_roots (2^G.gbits+1) (s.leng (G.int O)) := by
    refine ⟨⟨?_, ?_⟩, ?_, fun _ => rfl, fun h => Bool.noConfusion h, fun h => Bool.noConfusion h⟩
    · intro m r hm hr'
      rw [es]
      exact S.range _ _ _ _ _ (hm 0) (hm 1) (hm 2) (hm 3) hr'
    · intro m r m' r' hm hr1 hm' hr2 h
      rw [es, es] at h
      have := S.inj _ _ _ _ _ _ _ _ _ _ (hm 0) (hm 1) (hm 2) (hm 3) hr1 (hm' 0) (hm' 1) (hm' 2) (hm' 3) hr2 h
      refine ⟨?_, this.2.2.2.2⟩
      funext t
      fin_cases t
      · exact this.1
      · exact this.2.1
      · exact this.2.2.1
      · exact this.2.2.2.1
    · show (2^G.gbits+1) * (3 * e.g_size) ≤ e.g_size * 3 * (2^G.gbits + 1)
      exact le_of_eq (by ring)
  refine gen2_kernelF (stg := s.stg) (ζ := s.zeta) (R := R) (e := e) (d := s.g2 (G.int O) L ip jp kp lp) (leng := s.leng (G.int O))
    (D := { a := ![s.si.a ip, s.sj.a jp, s.sk.a kp, s.sl.a lp], R := ![s.si.r, s.sj.r, s.sk.r, s.sl.r], O := O })
    (κ := fun m => m 2) (l := fun m => m 3)
    (p := fun n c => ![i4 e c n, j4 e c n, k4 e c n, l4 e c n]) (ad := adr4 e (i4 e) (j4 e) (k4 e) (l4 e))
    hG ⟨rfl, rfl, rfl, rfl, rfl, rfl, rfl⟩ rfl rfl rfl C (fun t => by fin_cases t <;> exact le_refl _)
      hR (hp.ij ip jp hip hjp) (hp.kl kp lp hkp hlp) rfl rfl rfl
      (fun m hm => ⟨hm 0, hm 1, hm 2, hm 3, es m, fun c _ => rfl⟩)
      (fun n c _ _ => by rw [es]; rfl)
      (fun n c t hn hc => by
        obtain ⟨d1, d2, d3, d4⟩ := dig n hn
        fin_cases t
        · exact pw_le d1
        · exact pw_le d4
        · exact pw_le d2
        · exact pw_le d3)
      (fun n hn => by
        obtain ⟨d1, d2, d3, d4⟩ := dig n hn
        have e1 : ∑ c : Fin 3, i4 e c n = s.si.l := pw_sum d1
        have e2 : ∑ c : Fin 3, j4 e c n = s.sj.l := pw_sum d4
        have e3 : ∑ c : Fin 3, k4 e c n = s.sk.l := pw_sum d2
        have e4 : ∑ c : Fin 3, l4 e c n = s.sl.l := pw_sum d3
        show (∑ c : Fin 3, i4 e c n + ∑ c : Fin 3, j4 e c n) + (∑ c : Fin 3, k4 e c n + ∑ c : Fin 3, l4 e c n) + _ + 1 <
          2 * ((s.si.l + G.ng.i + (s.sj.l + G.ng.j) + (s.sk.l + G.ng.k) + (s.sl.l + G.ng.l) + 3)/2)
        rw [e1, e2, e3, e4]
        omega) hT

/-! ### Screening -/

/-- estimate for the primitive pair of the first electron; `li`, `lj` are the angular momenta increased by the operators -/
noncomputable def estIJXF (L : MathLib ℝ) (s : CallF ℝ) (ng : Inc) (mi mj : Nat → ℝ) (ip jp : Nat) : ℝ :=
  est L s.si s.sj mi mj (rr2 s.si.r s.sj.r) s.omega (s.si.l + ng.i + (s.sj.l + ng.j)) ip jp

/-- estimate for the primitive pair of the second electron -/
noncomputable def estKLXF (L : MathLib ℝ) (s : CallF ℝ) (X : Int2e ℝ) (mk ml : Nat → ℝ) (kp lp : Nat) : ℝ :=
  prodExponent (s.sk.a kp) (s.sl.a lp) (rr2 s.sk.r s.sl.r) - s.logRRkl X L - L.log (mk kp) - L.log (ml lp)

/-- The primitive quartet survives the screening of integral `X` (compare `Kept4`). -/
structure KeptXF (L : MathLib ℝ) (X : Int2e ℝ) (s : CallF ℝ) (mi mj mk ml : Nat → ℝ) (ip jp kp lp : Nat) : Prop where
  pair : estIJXF L s X.ng mi mj ip jp < cutoffF s.envCut
  kl : estKLXF L s X mk ml kp lp ≤ s.cutoff X L
  ij : estIJXF L s X.ng mi mj ip jp ≤ s.cutoff X L - estKLXF L s X mk ml kp lp

section
variable {L : MathLib ℝ} {s : CallF ℝ} {X : Int2e ℝ} {mi mj mk ml : Nat → ℝ} {ip jp kp lp : Nat}

theorem ccekl_eqXF (hk : MaxCoeff s.sk mk) (hl : MaxCoeff s.sl ml) (hkp : kp < s.sk.nprim) (hlp : lp < s.sl.nprim) :
    s.ccekl X L kp lp = estKLXF L s X mk ml kp lp := by
  unfold CallF.ccekl estKLXF logMaxC CallF.expKL prodExponent
  rw [isMaxAbs_unique (maxAbsC_spec s.sk kp) (hk kp hkp), isMaxAbs_unique (maxAbsC_spec s.sl lp) (hl lp hlp)]
  ring

theorem pairXF (hL : L.exp = Real.exp) (hi : MaxCoeff s.si mi) (hj : MaxCoeff s.sj mj)
    (hip : ip < s.si.nprim) (hjp : jp < s.sj.nprim) (h0 : 0 < s.si.a ip + s.sj.a jp) :
    pairVal L (s.pairArgs X) ip jp 4 = estIJXF L s X.ng mi mj ip jp ∧
    (estIJXF L s X.ng mi mj ip jp < cutoffF s.envCut →
      pairVal L (s.pairArgs X) ip jp 3 = Real.exp (-(s.si.a ip * s.sj.a jp/(s.si.a ip + s.sj.a jp)) *
        ∑ k, (centre s.si k - centre s.sj k)^2) ∧
      ∀ c, c < 3 → pairVal L (s.pairArgs X) ip jp c =
        (s.si.a ip * s.si.r c + s.sj.a jp * s.sj.r c)/(s.si.a ip + s.sj.a jp)) ∧
    (¬ estIJXF L s X.ng mi mj ip jp < cutoffF s.envCut → pairVal L (s.pairArgs X) ip jp 3 = 0) := by
  have hE : pairCC L (s.pairArgs X) ip jp = estIJXF L s X.ng mi mj ip jp := pairCC_eq (p := s.pairArgs X) hi hj hip hjp
  have hcut : (s.pairArgs X).cutoff = cutoffF s.envCut := rfl
  obtain ⟨h1, h2, _⟩ := pairVal_entry (L := L) (p := s.pairArgs X) hi hj hip hjp h0.ne'
  refine ⟨h1, fun hk => ?_, fun hk => ?_⟩
  · obtain ⟨h3, h4⟩ := h2 hk
    refine ⟨?_, fun c hc => h3 c hc⟩
    dsimp only at h4
    rw [h4, hL]
    congr 1
    unfold prodExponent centre
    show -(s.si.a ip * s.sj.a jp / (s.si.a ip + s.sj.a jp) * rr2 s.si.r s.sj.r) = _
    rw [Fin.sum_univ_three]
    unfold rr2
    simp only [Fin.val_zero, Fin.val_one, Fin.val_two]
    ring
  · have hk' : ¬ pairCC L (s.pairArgs X) ip jp < (s.pairArgs X).cutoff := by rw [hE, hcut]; exact hk
    unfold pairVal; simp [hk']

theorem loopValF_gen {R : RysF ℝ} {w : Nat → Nat → Nat → Nat → Nat → ℝ} {Z : Nat → Nat → Nat → Nat → ℝ}
    (hL : L.exp = Real.exp) (hi : MaxCoeff s.si mi) (hj : MaxCoeff s.sj mj) (hk : MaxCoeff s.sk mk) (hl : MaxCoeff s.sl ml)
    (hp : PosExpF s) {comp ic jc kc lc N : Nat}
    (hZ : ∀ ip jp kp lp, ip < s.si.nprim → jp < s.sj.nprim → kp < s.sk.nprim → lp < s.sl.nprim →
      KeptXF L X s mi mj mk ml ip jp kp lp →
      (∀ c, c < 3 → pairVal L (s.pairArgs X) ip jp c = (s.si.a ip * s.si.r c + s.sj.a jp * s.sj.r c)/(s.si.a ip + s.sj.a jp)) →
      Real.exp (-(s.si.a ip * s.sj.a jp/(s.si.a ip + s.sj.a jp)) * ∑ k, (centre s.si k - centre s.sj k)^2) *
      Real.exp (-(s.sk.a kp * s.sl.a lp/(s.sk.a kp + s.sl.a lp)) * ∑ k, (centre s.sk k - centre s.sl k)^2) *
        (w ip jp kp lp (N * X.nComp + comp) * (2 / Real.sqrt Real.pi * Real.pi^3)) = Z ip jp kp lp) :
    loopValF R realK L X s (fun _ _ _ _ => true) w comp ic jc kc lc N =
    X.common * (spNorm s.si.l * spNorm s.sj.l * spNorm s.sk.l * spNorm s.sl.l) *
      contract4 s.si.nprim s.sj.nprim s.sk.nprim s.sl.nprim s.si.c s.sj.c s.sk.c s.sl.c (fun ip jp kp lp =>
        open Classical in if KeptXF L X s mi mj mk ml ip jp kp lp then Z ip jp kp lp else 0) ic jc kc lc := by
  classical
  unfold loopValF expected
  have hcom : (s.quartet X R realK L ⟨⟨0,0⟩,⟨0,0⟩,⟨0,0⟩,⟨0,0⟩,⟨0,0⟩⟩).common =
      X.common * (spNorm s.si.l * spNorm s.sj.l * spNorm s.sk.l * spNorm s.sl.l) * (2 / Real.sqrt Real.pi * Real.pi^3) := by
    show X.common * (Real.pi * Real.pi * Real.pi * 2 / Real.sqrt Real.pi * commonFacSp s.si.l * commonFacSp s.sj.l *
      commonFacSp s.sk.l * commonFacSp s.sl.l) = _
    rw [spNorm_eq, spNorm_eq, spNorm_eq, spNorm_eq]
    ring
  rw [hcom, mul_assoc]
  congr 1
  unfold contract4
  rw [Finset.mul_sum]
  refine Finset.sum_congr rfl (fun lp hlp => ?_)
  rw [Finset.mul_sum]
  refine Finset.sum_congr rfl (fun kp hkp => ?_)
  rw [Finset.mul_sum]
  refine Finset.sum_congr rfl (fun jp hjp => ?_)
  rw [Finset.mul_sum]
  refine Finset.sum_congr rfl (fun ip hip => ?_)
  have hip : ip < s.si.nprim := Finset.mem_range.1 hip
  have hjp : jp < s.sj.nprim := Finset.mem_range.1 hjp
  have hkp : kp < s.sk.nprim := Finset.mem_range.1 hkp
  have hlp : lp < s.sl.nprim := Finset.mem_range.1 hlp
  rw [mul_comm (2 / Real.sqrt Real.pi * Real.pi^3), mul_assoc]
  show s.sl.c (s.sl.nprim*lc+lp) * s.sk.c (s.sk.nprim*kc+kp) * s.sj.c (s.sj.nprim*jc+jp) * s.si.c (s.si.nprim*ic+ip) * _ = _
  congr 1
  obtain ⟨p4, pv, pd⟩ := pairXF (X := X) hL hi hj hip hjp (hp.ij ip jp hip hjp)
  have ckl := ccekl_eqXF (X := X) (L := L) hk hl hkp hlp
  show (if survives (s.quartet X R realK L _) _ ip jp kp lp then pairVal L (s.pairArgs X) ip jp 3 *
    L.exp (-s.expKL kp lp) * w ip jp kp lp (N * X.nComp + comp) else 0) * (2 / Real.sqrt Real.pi * Real.pi^3) = if KeptXF L X s mi mj mk ml ip jp kp lp then Z ip jp kp lp else 0
  have hsur : ∀ A, survives (s.quartet X R realK L A) (fun _ _ _ _ => true) ip jp kp lp = true ↔
      (estKLXF L s X mk ml kp lp ≤ s.cutoff X L ∧ estIJXF L s X.ng mi mj ip jp ≤ s.cutoff X L - estKLXF L s X mk ml kp lp) := by
    intro A
    unfold survives
    show (!decide (s.ccekl X L kp lp > s.cutoff X L) &&
      (!decide (pairVal L (s.pairArgs X) ip jp 4 > s.eijcutoff X L kp lp) && true)) = true ↔ _
    unfold CallF.eijcutoff
    rw [p4, ckl]
    simp only [Bool.and_eq_true, Bool.not_eq_true', decide_eq_false_iff_not, not_lt, gt_iff_lt, and_true]
  by_cases hv : estIJXF L s X.ng mi mj ip jp < cutoffF s.envCut
  · obtain ⟨pe, pc⟩ := pv hv
    have hiff : survives (s.quartet X R realK L ⟨⟨0,0⟩,⟨0,0⟩,⟨0,0⟩,⟨0,0⟩,⟨0,0⟩⟩) (fun _ _ _ _ => true) ip jp kp lp = true ↔
        KeptXF L X s mi mj mk ml ip jp kp lp := by
      rw [hsur]
      exact ⟨fun ⟨a, b⟩ => ⟨hv, a, b⟩, fun ⟨_, a, b⟩ => ⟨a, b⟩⟩
    by_cases hkp' : KeptXF L X s mi mj mk ml ip jp kp lp
    · rw [if_pos (hiff.2 hkp'), if_pos hkp', ← hZ ip jp kp lp hip hjp hkp hlp hkp' pc]
      have ekl : L.exp (-s.expKL kp lp) = Real.exp (-(s.sk.a kp * s.sl.a lp/(s.sk.a kp + s.sl.a lp)) *
          ∑ k, (centre s.sk k - centre s.sl k)^2) := by
        rw [hL]
        congr 1
        unfold CallF.expKL centre rr2
        rw [Fin.sum_univ_three]
        simp only [Fin.val_zero, Fin.val_one, Fin.val_two]
        ring
      rw [pe, ekl, mul_assoc]
    · rw [if_neg (fun x => hkp' (hiff.1 x)), if_neg hkp', zero_mul]
  · rw [if_neg (fun x : KeptXF L X s mi mj mk ml ip jp kp lp => hv x.pair), pd hv]
    simp
end

/-- digits of the position of an element -/
theorem pos4_digitsF {s : CallF ℝ} {X : Int2e ℝ} {i j k l : Nat} (h1 : i < ncart s.si.l) (h3 : k < ncart s.sk.l)
    (h4 : l < ncart s.sl.l) (c : Nat) :
    i4 (s.env X) c (pos4c (ncar (CallF.ls s)) i j k l) = pw s.si.l c i ∧
    j4 (s.env X) c (pos4c (ncar (CallF.ls s)) i j k l) = pw s.sj.l c j ∧
    k4 (s.env X) c (pos4c (ncar (CallF.ls s)) i j k l) = pw s.sk.l c k ∧
    l4 (s.env X) c (pos4c (ncar (CallF.ls s)) i j k l) = pw s.sl.l c l := by
  have hx : pos4c (ncar (CallF.ls s)) i j k l = ((j*ncart s.sl.l + l)*ncart s.sk.l + k)*ncart s.si.l + i := by
    unfold pos4c ncar
    show i + ncart s.si.l * (k + ncart s.sk.l * (l + ncart s.sl.l * j)) = _
    ring
  rw [hx]
  refine ⟨?_, ?_, ?_, ?_⟩
  · show pw s.si.l c (_ % ncart s.si.l) = _
    rw [(digit h1).2]
  · show pw s.sj.l c (_ / ncart s.si.l / ncart s.sk.l / ncart s.sl.l) = _
    rw [(digit h1).1, (digit h3).1, (digit h4).1]
  · show pw s.sk.l c (_ / ncart s.si.l % ncart s.sk.l) = _
    rw [(digit h1).1, (digit h3).2]
  · show pw s.sl.l c (_ / ncart s.si.l / ncart s.sk.l % ncart s.sl.l) = _
    rw [(digit h1).1, (digit h3).1, (digit h4).2]

/-- the operator of component `comp` between four primitive functions of a call -/
noncomputable def primValF (s : CallF ℝ) (O : Nat → ℝ) (P : Op2) (i j k l ip jp kp lp : Nat) : ℂ :=
  Op2.val (VF s.stg s.zeta) (fun c => O c) (centre s.si) (centre s.sj) (centre s.sk) (centre s.sl)
    (gto (s.si.a ip) (centre s.si) (powers s.si.l i)) (gto (s.sj.a jp) (centre s.sj) (powers s.sj.l j))
    (gto (s.sk.a kp) (centre s.sk) (powers s.sk.l k)) (gto (s.sl.a lp) (centre s.sl) (powers s.sl.l l)) P

/-- the primitive integral behind the value computed -/
theorem gen_primF {G : Gen2e} {ws} {D : Def2e} {L : MathLib ℝ} {s : CallF ℝ} {ip jp kp lp : Nat} {O : Nat → ℝ}
    {comp i j k l : Nat} (hp : PosExpF s) (hip : ip < s.si.nprim) (hjp : jp < s.sj.nprim) (hkp : kp < s.sk.nprim) (hlp : lp < s.sl.nprim)
    (hm : sameQ (progSum2 ws (G.flat.comps.getD comp [])) (opRe2 (D.out.getD comp [])) = true)
    (hm' : zeroQ (opIm2 (D.out.getD comp [])) = true) (hc : comp < G.nComp)
    (h1 : i < ncart s.si.l) (h3 : k < ncart s.sk.l) (h4 : l < ncart s.sl.l)
    (pc : ∀ c, c < 3 → pairVal L (s.pairArgs (G.int O)) ip jp c = (s.si.a ip * s.si.r c + s.sj.a jp * s.sj.r c)/(s.si.a ip + s.sj.a jp)) :
    primValF s O (D.out.getD comp []) i j k l ip jp kp lp =
      ((Real.exp (-(s.si.a ip * s.sj.a jp/(s.si.a ip + s.sj.a jp)) * ∑ k, (centre s.si k - centre s.sj k)^2) *
      Real.exp (-(s.sk.a kp * s.sl.a lp/(s.sk.a kp + s.sl.a lp)) * ∑ k, (centre s.sk k - centre s.sl k)^2) *
        ((fun M => genWF s.stg s.zeta (s.g2 (G.int O) L ip jp kp lp)
        { a := ![s.si.a ip, s.sj.a jp, s.sk.a kp, s.sl.a lp], R := ![s.si.r, s.sj.r, s.sk.r, s.sl.r], O := O } ws
        (G.flat.comps.getD (M % G.nComp) []) (fun c => i4 (s.env (G.int O)) c (M / G.nComp))
        (fun c => j4 (s.env (G.int O)) c (M / G.nComp)) (fun c => k4 (s.env (G.int O)) c (M / G.nComp))
        (fun c => l4 (s.env (G.int O)) c (M / G.nComp))) (pos4c (ncar (CallF.ls s)) i j k l * G.nComp + comp) *
          (2 / Real.sqrt Real.pi * Real.pi^3)) : ℝ) : ℂ) := by
  dsimp only
  rw [(digit hc).1, (digit hc).2]
  have hd := fun c => pos4_digitsF (X := G.int O) (j := j) h1 h3 h4 c
  simp only [(hd _).1, (hd _).2.1, (hd _).2.2.1, (hd _).2.2.2]
  unfold genWF
  have hne : (2 / Real.sqrt Real.pi * Real.pi^3) ≠ 0 := by positivity
  rw [div_mul_cancel₀ _ hne, sameQ_val hm]
  let S : PairOf := { a := s.si.a ip, b := s.sj.a jp, A := centre s.si, B := centre s.sj, O := fun c => O c,
                      n := powers s.si.l i, m := powers s.sj.l j }
  let T : PairOf := { a := s.sk.a kp, b := s.sl.a lp, A := centre s.sk, B := centre s.sl, O := fun c => O c,
                      n := powers s.sk.l k, m := powers s.sl.l l }
  have hv := op_valF S T (hp.ij ip jp hip hjp) (hp.kl kp lp hkp hlp) rfl s.stg s.zeta (D.out.getD comp [])
  rw [zeroQ_val hm', mul_zero, Complex.ofReal_zero, mul_zero, add_zero] at hv
  refine hv.trans ?_
  congr 1
  have hcen : S.cen = fun k : Fin 3 => (s.g2 (G.int O) L ip jp kp lp).rij k := by
    funext k
    show _ = pairVal L (s.pairArgs (G.int O)) ip jp k
    rw [pc k k.isLt]
    rfl
  have hcen' : T.cen = fun k : Fin 3 => (s.g2 (G.int O) L ip jp kp lp).rkl k := rfl
  rw [hcen, hcen']
  rfl

/-- no primitive quartet of the call is screened -/
def AllKeptXF (L : MathLib ℝ) (X : Int2e ℝ) (s : CallF ℝ) : Prop :=
  ∃ mi mj mk ml, MaxCoeff s.si mi ∧ MaxCoeff s.sj mj ∧ MaxCoeff s.sk mk ∧ MaxCoeff s.sl ml ∧
    ∀ ip jp kp lp, ip < s.si.nprim → jp < s.sj.nprim → kp < s.sk.nprim → lp < s.sl.nprim → KeptXF L X s mi mj mk ml ip jp kp lp

theorem integrable_actF_cfun {s : CallF ℝ} (hp : PosExpF s) (O : Pt) (ic jc kc lc a b c d : ℕ) (v w v' w' : Word) (stg : Bool) (ζ : ℝ) :
    Integrable fun z : Pt × Pt => (Word.act O (centre s.si) v (cfun s.si ic a) z.1 * Word.act O (centre s.sj) w (cfun s.sj jc b) z.1) *
      VF stg ζ z.1 z.2 *
      (Word.act O (centre s.sk) v' (cfun s.sk kc c) z.2 * Word.act O (centre s.sl) w' (cfun s.sl lc d) z.2) := by
  have key := (repulsion_sum (V := VF stg ζ) (Finset.range s.si.nprim ×ˢ Finset.range s.sj.nprim)
    (Finset.range s.sk.nprim ×ˢ Finset.range s.sl.nprim)
    (fun p => s.si.c (s.si.nprim*ic+p.1) * s.sj.c (s.sj.nprim*jc+p.2)) (fun p => s.sk.c (s.sk.nprim*kc+p.1) * s.sl.c (s.sl.nprim*lc+p.2))
    (f := fun p r => Word.act O (centre s.si) v (gto (s.si.a p.1) (centre s.si) (powers s.si.l a)) r *
      Word.act O (centre s.sj) w (gto (s.sj.a p.2) (centre s.sj) (powers s.sj.l b)) r)
    (g := fun p r => Word.act O (centre s.sk) v' (gto (s.sk.a p.1) (centre s.sk) (powers s.sk.l c)) r *
      Word.act O (centre s.sl) w' (gto (s.sl.a p.2) (centre s.sl) (powers s.sl.l d)) r) (fun a ha b hb => by
    rw [Finset.mem_product, Finset.mem_range, Finset.mem_range] at ha hb
    exact Verif.Lemmas.integrable_actF (hp.ij _ _ ha.1 ha.2) (hp.kl _ _ hb.1 hb.2) O _ _ _ _ _ _ _ _ v w v' w' stg ζ)).1
  unfold cfun
  simp_rw [act_cgto_mul]
  exact key

/-- the integral of spherical functions is the transformed integral of Cartesian functions -/
theorem op_valF_sgto {s : CallF ℝ} (hp : PosExpF s) (O : Pt) (ic jc kc lc i j k l : ℕ) (stg : Bool) (ζ : ℝ) (P : Op2) :
    Op2.val (VF stg ζ) O (centre s.si) (centre s.sj) (centre s.sk) (centre s.sl)
        (sgto s.si ic i) (sgto s.sj jc j) (sgto s.sk kc k) (sgto s.sl lc l) P =
      ∑ a ∈ Finset.range (ncart s.si.l), ∑ b ∈ Finset.range (ncart s.sj.l), ∑ c ∈ Finset.range (ncart s.sk.l),
        ∑ d ∈ Finset.range (ncart s.sl.l), ((c2sCoef s.si.l i a * c2sCoef s.sj.l j b * c2sCoef s.sk.l k c * c2sCoef s.sl.l l d : ℝ) : ℂ) *
          (((spNorm s.si.l * spNorm s.sj.l * spNorm s.sk.l * spNorm s.sl.l : ℝ) : ℂ) *
          Op2.val (VF stg ζ) O (centre s.si) (centre s.sj) (centre s.sk) (centre s.sl)
            (cfun s.si ic a) (cfun s.sj jc b) (cfun s.sk kc c) (cfun s.sl lc d) P) := by
  have ht : ∀ x : Term × Term, Op2.valT (VF stg ζ) O (centre s.si) (centre s.sj) (centre s.sk) (centre s.sl)
        (sgto s.si ic i) (sgto s.sj jc j) (sgto s.sk kc k) (sgto s.sl lc l) x =
      ∑ a ∈ Finset.range (ncart s.si.l), ∑ b ∈ Finset.range (ncart s.sj.l), ∑ c ∈ Finset.range (ncart s.sk.l),
        ∑ d ∈ Finset.range (ncart s.sl.l), ((c2sCoef s.si.l i a * c2sCoef s.sj.l j b * c2sCoef s.sk.l k c * c2sCoef s.sl.l l d : ℝ) : ℂ) *
          (((spNorm s.si.l * spNorm s.sj.l * spNorm s.sk.l * spNorm s.sl.l : ℝ) : ℂ) *
          Op2.valT (VF stg ζ) O (centre s.si) (centre s.sj) (centre s.sk) (centre s.sl)
            (cfun s.si ic a) (cfun s.sj jc b) (cfun s.sk kc c) (cfun s.sl lc d) x) := by
    intro x
    unfold Op2.valT
    simp_rw [act_sgto_mul]
    rw [(repulsion_sum (V := VF stg ζ) _ _ _ _ (fun a ha b hb =>
      integrable_actF_cfun hp O ic jc kc lc a.1 a.2 b.1 b.2 x.1.bra x.1.ket x.2.bra x.2.ket stg ζ)).2]
    rw [Finset.sum_product]
    push_cast
    rw [Finset.mul_sum, Finset.mul_sum]
    refine Finset.sum_congr rfl fun a _ => ?_
    rw [Finset.mul_sum, Finset.mul_sum]
    refine Finset.sum_congr rfl fun b _ => ?_
    rw [Finset.sum_product, Finset.mul_sum, Finset.mul_sum]
    refine Finset.sum_congr rfl fun c _ => ?_
    rw [Finset.mul_sum, Finset.mul_sum]
    refine Finset.sum_congr rfl fun d _ => ?_
    ring
  induction P with
  | nil => simp [Op2.val]
  | cons x P ih =>
    have h1 : ∀ f g h k, Op2.val (VF stg ζ) O (centre s.si) (centre s.sj) (centre s.sk) (centre s.sl) f g h k (x :: P) =
        Op2.valT (VF stg ζ) O (centre s.si) (centre s.sj) (centre s.sk) (centre s.sl) f g h k x +
        Op2.val (VF stg ζ) O (centre s.si) (centre s.sj) (centre s.sk) (centre s.sl) f g h k P := by
      intro f g h k; simp [Op2.val]
    simp_rw [h1]
    rw [ih, ht]
    simp_rw [mul_add, Finset.sum_add_distrib]


end Verif.Props
