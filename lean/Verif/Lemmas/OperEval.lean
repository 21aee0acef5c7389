import Verif.Lemmas.OperSum
import Verif.Lemmas.Ovlp
import Verif.Lemmas.Drv1e
import Mathlib.LinearAlgebra.Multilinear.Basis

/-! The generated one-electron integrals evaluate sums of operators. -/
namespace Verif.Lemmas
open Verif Verif.Model Verif.Spec Verif.Prog Verif.Props MeasureTheory Polynomial

/-- the moment as a linear functional -/
noncomputable def momentL {p : ℝ} (hp : 0 < p) (P : ℝ) : ℝ[X] →ₗ[ℝ] ℝ where
  toFun := moment p P
  map_add' := moment_add hp P
  map_smul' := fun c q => by rw [smul_eq_C_mul, moment_C_mul]; rfl

/-- overlap intermediates as a functional of the polynomials of the functions -/
noncomputable def ovlpL (fac : ℝ) {p : ℝ} (hp : 0 < p) (P : Nat → ℝ) (c _r : Nat) :
    MultilinearMap ℝ (fun _ : Fin 4 => ℝ[X]) ℝ :=
  (slabFac fac p c • momentL hp (P c)).compMultilinearMap (MultilinearMap.mkPiAlgebra ℝ (Fin 4) ℝ[X])

theorem ovlpL_apply (fac : ℝ) {p : ℝ} (hp : 0 < p) (P : Nat → ℝ) (c r : Nat) (q : Fin 4 → ℝ[X]) :
    ovlpL fac hp P c r q = slabFac fac p c * moment p (P c) (q 0 * q 1 * q 2 * q 3) := by
  unfold ovlpL
  rw [LinearMap.compMultilinearMap_apply, MultilinearMap.mkPiAlgebra_apply, Fin.prod_univ_four]
  rfl

/-- the pair of primitives behind a set of intermediates -/
def pairOf (d : G1 ℝ) (O : Pt) (n m : Fin 3 → ℕ) : PairOf where
  a := d.ai
  b := d.aj
  A := fun k => d.ri k
  B := fun k => d.rj k
  O := O
  n := n
  m := m

def opData (d : G1 ℝ) (O : Nat → ℝ) : OpData ℝ :=
  { a := ![d.ai, d.aj, 0, 0], R := ![d.ri, d.rj, fun _ => 0, fun _ => 0], O := O }

/-- powers of the two functions along direction `c` -/
def pows (n m : Nat → Nat) (c : Nat) : Fin 4 → Nat := ![n c, m c, 0, 0]

theorem onIdx_none {t : Fin 4} {w : List (GOp × Fin 4)} (h : ∀ o ∈ w, o.2 ≠ t) : onIdx t w = [] := by
  unfold onIdx
  rw [List.filter_eq_nil_iff.2 (fun o ho => by simpa using h o ho)]
  rfl

theorem compVal_eq {d : G1 ℝ} {O : Nat → ℝ} {fac : ℝ} (hp : 0 < d.ai + d.aj) {P : GoutProg}
    {ws : List (Nat → List (GOp × Fin 4))} (h2 : ws.all twoIdx = true)
    {terms : List (Int × List Nat × Nat)} (ht : ∀ t ∈ terms, t.2.2 < ws.length ∧ ∀ n ∈ t.2.1, n < 3) (n m : Nat → Nat) :
    compVal (opData d O) terms (fun i => (ws.map fun W =>
        symVal (opData d O) (powTab (ovlpL fac hp d.rij) (opData d O).R) (W 0) 0 (pows n m 0) 0 *
        symVal (opData d O) (powTab (ovlpL fac hp d.rij) (opData d O).R) (W 1) 1 (pows n m 1) 0 *
        symVal (opData d O) (powTab (ovlpL fac hp d.rij) (opData d O).R) (W 2) 2 (pows n m 2) 0).getD i 0) =
      fac * sumVal ((pairOf d (fun k => O k) (fun k => n k) (fun k => m k)).key fun k => moment (d.ai + d.aj) (d.rij k))
        (progSum ws terms) := by
  unfold compVal sumVal progSum
  rw [List.map_map]
  rw [← List.sum_map_mul_left]
  congr 1
  refine List.map_congr_left (fun t htm => ?_)
  obtain ⟨h3, h4⟩ := ht t htm
  obtain ⟨c, geo, i⟩ := t
  dsimp only at h3 h4 ⊢
  show _ = fac * ((c : ℝ) * (pairOf d (fun k => O k) (fun k => n k) (fun k => m k)).key _ (progKey geo (ws.getD i fun _ => [])))
  have hw : ws.getD i (fun _ => []) = ws[i] := by
    rw [List.getD_eq_getElem?_getD, List.getElem?_eq_getElem h3]; rfl
  rw [hw, List.getD_eq_getElem?_getD, List.getElem?_map, List.getElem?_eq_getElem h3]
  show (c : ℝ) * _ * (symVal _ _ (ws[i] 0) 0 _ 0 * symVal _ _ (ws[i] 1) 1 _ 0 * symVal _ _ (ws[i] 2) 2 _ 0) = _
  have hg : (geo.map (geoFac (opData d O))).prod =
      (pairOf d (fun k => O k) (fun k => n k) (fun k => m k)).geo (geoCount (geo.map toFin3)) := by
    rw [← PairOf.geo_list, List.map_map]
    congr 1
    refine List.map_congr_left (fun x hx => ?_)
    have := h4 x hx
    unfold geoFac
    rw [if_pos this]
    show d.ri x - d.rj x = d.ri (toFin3 x) - d.rj (toFin3 x)
    have : ((toFin3 x : Fin 3) : Nat) = x := by
      unfold toFin3
      rcases x with _ | _ | _ | x <;> simp <;> omega
    rw [this]
  have hm : ws[i] ∈ ws := List.getElem_mem h3
  have htw : twoIdx ws[i] = true := (List.all_eq_true.1 h2) _ hm
  have key : ∀ c : Fin 3, symVal (opData d O) (powTab (ovlpL fac hp d.rij) (opData d O).R) (ws[i] c) c (pows n m c) 0 =
      slabFac fac (d.ai+d.aj) c * (pairOf d (fun k => O k) (fun k => n k) (fun k => m k)).dir
        (fun k => moment (d.ai + d.aj) (d.rij k)) c (onIdx 0 (ws[i] c)) (onIdx 1 (ws[i] c)) := by
    intro c
    have htc : ∀ o ∈ ws[i] c, o.2 = 0 ∨ o.2 = 1 := by
      unfold twoIdx at htw
      rw [List.all_eq_true] at htw
      have := htw c (by unfold dirs; fin_cases c <;> simp)
      rw [List.all_eq_true] at this
      intro o ho
      simpa using this o ho
    rw [symVal_poly]
    unfold wordTab
    rw [ovlpL_apply]
    have e2 : onIdx 2 (ws[i] c) = [] := onIdx_none (fun o ho h => by rcases htc o ho with h' | h' <;> rw [h'] at h <;> exact absurd h (by decide))
    have e3 : onIdx 3 (ws[i] c) = [] := onIdx_none (fun o ho h => by rcases htc o ho with h' | h' <;> rw [h'] at h <;> exact absurd h (by decide))
    rw [e2, e3]
    show _ * moment _ _ (wordE d.ai (d.ri c) (O c) _ ((X - C (d.ri c))^n c) * wordE d.aj (d.rj c) (O c) _ ((X - C (d.rj c))^m c) *
      (X - C 0)^0 * (X - C 0)^0) = _
    rw [pow_zero, mul_one, mul_one]
    rfl
  rw [hg]
  have k0 := key 0; have k1 := key 1; have k2 := key 2
  simp only [Fin.val_zero, Fin.val_one, Fin.val_two] at k0 k1 k2
  rw [k0, k1, k2]
  have hf := slabFac_prod (fac := fac) hp
  unfold PairOf.key
  show _ = fac * (c * (PairOf.geo _ (geoCount (geo.map toFin3)) * (PairOf.dir _ _ 0 (onIdx 0 (ws[i] 0)) (onIdx 1 (ws[i] 0)) *
    PairOf.dir _ _ 1 (onIdx 0 (ws[i] 1)) (onIdx 1 (ws[i] 1)) * PairOf.dir _ _ 2 (onIdx 0 (ws[i] 2)) (onIdx 1 (ws[i] 2)))))
  generalize PairOf.geo _ _ = x0
  generalize PairOf.dir _ _ 0 _ _ = x1
  generalize PairOf.dir _ _ 1 _ _ = x2
  generalize PairOf.dir _ _ 2 _ _ = x3
  linear_combination c * x0 * x1 * x2 * x3 * hf

/-! ### In the driver -/

structure Gen1e.OK (G : Gen1e) (ws : List (Nat → List (GOp × Fin 4))) : Prop where
  sym : symRun ![G.ng.i, G.ng.j, 0, 0] (2^G.gbits + 1) G.prog = some ws
  rys : G.ng.rys = 1
  two : ws.all twoIdx = true
  ncomp : G.prog.comps.length = G.nComp
  pos : G.nComp ≠ 0
  terms : ∀ c ∈ G.prog.comps, ∀ t ∈ c, t.2.2 < ws.length ∧ ∀ n ∈ t.2.1, n < 3

/-- what the generated integral evaluates for a pair of primitives, without the prefactor -/
noncomputable def genVal (G : Gen1e) (ws : List (Nat → List (GOp × Fin 4))) (L : MathLib ℝ) (O : Nat → ℝ) (s : Call ℝ)
    (ip jp N : Nat) : ℝ :=
  let d := s.g1 (G.int O) L ip jp
  let n := N / G.nComp
  sumVal ((pairOf d (fun k => O k) (fun k => pw s.si.l k (n % ncart s.si.l)) (fun k => pw s.sj.l k (n / ncart s.si.l))).key
    fun k => moment (d.ai + d.aj) (d.rij k)) (progSum ws (G.prog.comps.getD (N % G.nComp) []))

theorem gen_eval {G : Gen1e} {ws : List (Nat → List (GOp × Fin 4))} (hG : Gen1e.OK G ws) {L : MathLib ℝ} {O : Nat → ℝ} {s : Call ℝ}
    (hpos : ∀ ip jp, ip < s.si.nprim → jp < s.sj.nprim → 0 < s.si.a ip + s.sj.a jp) :
    EvalOK realK L (G.int O) s (genVal G ws L O s) := by
  have hnf : (s.env (G.int O)).nf = (s.env (G.int O)).nfj * (s.env (G.int O)).nfi := Nat.mul_comm _ _
  have B := baseOK_int1e s.si.l s.sj.l G.ng
  have S := (C07_slab_int1e s.si.l s.sj.l G.ng)
  have hr : (s.env (G.int O)).nrys_roots = 1 := by
    show (if G.ng.rys > 0 then G.ng.rys else _) = 1
    rw [hG.rys]; rfl
  have hsi : (s.env (G.int O)).g_stride_i = 1 := hr
  let e := s.env (G.int O)
  have C : StepCtx false e ![e.li_ceil, e.lj_ceil, 0, 0] 1 (2^G.gbits+1) (s.leng (G.int O)) := by
    refine ⟨⟨?_, ?_⟩, ?_, fun h => Bool.noConfusion h, fun _ => ⟨rfl, hsi⟩, fun _ => rfl⟩
    · intro m r hm hr'
      have m2 : m 2 = 0 := Nat.le_zero.1 (hm 2)
      have m3 : m 3 = 0 := Nat.le_zero.1 (hm 3)
      have := S.range (m 0) (m 1) r (hm 0) (hm 1) (hr.symm ▸ hr')
      unfold slabM
      rw [m2, m3]
      simp only [Nat.mul_zero, Nat.add_zero]
      exact this
    · intro m r m' r' hm hr1 hm' hr2 h
      have m2 : m 2 = 0 := Nat.le_zero.1 (hm 2)
      have m3 : m 3 = 0 := Nat.le_zero.1 (hm 3)
      have m2' : m' 2 = 0 := Nat.le_zero.1 (hm' 2)
      have m3' : m' 3 = 0 := Nat.le_zero.1 (hm' 3)
      unfold slabM at h
      rw [m2, m3, m2', m3'] at h
      simp only [Nat.mul_zero, Nat.add_zero] at h
      have := S.inj (m 0) (m 1) r (m' 0) (m' 1) r' (hm 0) (hm 1) (hr.symm ▸ hr1) (hm' 0) (hm' 1)
        (hr.symm ▸ hr2) h
      refine ⟨?_, this.2.2⟩
      funext t
      fin_cases t
      · exact this.1
      · exact this.2.1
      · exact m2.trans m2'.symm
      · exact m3.trans m3'.symm
    · show (2^G.gbits+1) * (3 * e.g_size) ≤ e.g_size * 3 * (2^G.gbits + 1)
      exact le_of_eq (by ring)
  have := evalOK_of_list (K := realK) (L := L) (X := G.int O) (s := s) (ws := fun ip jp => [genVal G ws L O s ip jp])
    (fun _ _ _ _ => List.cons_ne_nil _ _) (fun ip jp g idx T hip hjp hT => by
      refine List.Forall₂.cons ?_ List.Forall₂.nil
      let d := s.g1 (G.int O) L ip jp
      have hp : 0 < d.ai + d.aj := hpos ip jp hip hjp
      show KernelSpec T (g1eOvlp realK e d g) (fun _ gout em => goutOvlp e (opData d O) G.prog idx g gout em)
        (Blk g (s.leng (G.int O))) (e.nf * G.nComp) true _
      intro fac gout em u h hR hGs hA hd hE
      have hl3 : 3 * e.g_size ≤ s.leng (G.int O) := by
        show 3 * e.g_size ≤ e.g_size * 3 * (2^G.gbits + 1)
        rw [Nat.mul_comm 3]
        exact Nat.le_mul_of_pos_right _ (Nat.succ_pos _)
      refine wp_mono (ovlp_table B hl3 hGs hp) ?_
      rintro r h1 ⟨hr1, hal, hag, hI, hT1⟩
      refine ⟨hr1, hag, hI, fun _ => ?_⟩
      have hne : ∀ i, i < e.nf * G.nComp → ¬ Blk g (s.leng (G.int O)) (gout + i) := hd
      -- the table of intermediates
      have hv : TabM h1 g e (fun t => angOf e t + (![G.ng.i, G.ng.j, 0, 0] : Fin 4 → Nat) t) 1
          (powTab (ovlpL fac hp d.rij) (opData d O).R) := by
        intro c m r hc hm hr'
        have m0 : m 0 ≤ e.li_ceil := hm 0
        have m1 : m 1 ≤ e.lj_ceil := hm 1
        have m2 : m 2 = 0 := Nat.le_zero.1 (hm 2)
        have m3 : m 3 = 0 := Nat.le_zero.1 (hm 3)
        have r0 : r = 0 := by omega
        have := hT1 c (m 0) (m 1) hc m0 m1
        have es : slabM e m r = slab2 e (m 0) (m 1) 0 := by
          unfold slabM slab2; rw [m2, m3, r0]; simp
        rw [es, this]
        unfold powTab
        rw [ovlpL_apply, m2, m3]
        rw [pow_zero, pow_zero, mul_one, mul_one]
        rfl
      have hnc := hG.ncomp
      have hpw : ∀ n, n < e.nf → n % e.nfi < e.nfi ∧ n / e.nfi < e.nfj := by
        intro n hn
        have hn' : n < e.nfj * e.nfi := by rw [← hnf]; exact hn
        have : 0 < e.nfi := by
          rcases Nat.eq_zero_or_pos e.nfi with h0 | h0
          · rw [h0, Nat.mul_zero] at hn'; omega
          · exact h0
        exact ⟨Nat.mod_lt _ this, (Nat.div_lt_iff_lt_mul this).2 hn'⟩
      have W := goutOvlp_wp (D := opData d O) (v0 := powTab (ovlpL fac hp d.rij) (opData d O).R) C hG.sym (Nat.succ_pos _)
        (fun t => by fin_cases t <;> exact le_refl _) (idx := idx) (gout := gout) (em := em) (T := T) (ad := adr2 e)
        (m := fun n => pows (fun c => pw s.si.l c (n % e.nfi)) (fun c => pw s.sj.l c (n / e.nfi))) (u := u) (h := h1) (g := g)
        (fun n c _ _ => by
          unfold adr2 slabM slab2 pows
          simp only [Matrix.cons_val_zero, Matrix.cons_val_one, Matrix.cons_val, Nat.mul_zero, Nat.add_zero]
          rfl)
        (fun n c t hn hc => by
          obtain ⟨q1, q2⟩ := hpw n hn
          fin_cases t
          · exact pw_le q1
          · exact pw_le q2
          · exact le_refl _
          · exact le_refl _)
        (fun q x hq => by rw [hI]; exact hR q x hq) hT
        (fun i hi => by rw [hnc] at hi; rw [hag _ (hne i hi)]; exact hA i hi) hal
        (fun i hi => by rw [hnc] at hi; exact hne i hi)
        (fun he i hi => by rw [hnc] at hi; rw [hag _ (hne i hi)]; exact hE he i hi) hv
      rw [hnc] at W
      refine wp_mono W ?_
      rintro _ h2 ⟨A2, B2, C2⟩
      refine ⟨?_, hag.trans B2 (fun q hq => Or.inl hq) (fun q hq => hq), by rw [C2, hI]⟩
      intro N hN
      rw [A2 N hN]
      have hk : N % G.nComp < G.prog.comps.length := by rw [hnc]; exact Nat.mod_lt _ (Nat.pos_of_ne_zero hG.pos)
      have hmem : G.prog.comps.getD (N % G.nComp) [] ∈ G.prog.comps := by
        rw [List.getD_eq_getElem?_getD, List.getElem?_eq_getElem hk]; exact List.getElem_mem hk
      have := compVal_eq (O := O) (fac := fac) hp (P := G.prog) hG.two (hG.terms _ hmem)
        (fun c => pw s.si.l c ((N/G.nComp) % e.nfi)) (fun c => pw s.sj.l c ((N/G.nComp) / e.nfi))
      have hE2 : goutVal (opData d O) (powTab (ovlpL fac hp d.rij) (opData d O).R) G.prog ws
          (pows (fun c => pw s.si.l c (N / G.nComp % e.nfi)) fun c => pw s.sj.l c (N / G.nComp / e.nfi)) 0 (N % G.nComp) =
          fac * genVal G ws L O s ip jp N := this
      beta_reduce
      rw [hE2])
  simpa using this

end Verif.Lemmas
