import Verif.Lemmas.Oper2Drv
import Verif.Lemmas.Oper2Match

/-!
C51 — the generated two-electron integrals are the repulsion integrals of the functions the operators they are named after have
acted on.
-/
namespace Verif.Props
open Verif Verif.Model Verif.Prog Verif.Lemmas Verif.Spec MeasureTheory Polynomial

theorem all_names2 : Auto2e.all2e.map (·.1) = defs2e.map (·.1) := by decide +kernel

theorem names_nodup2 : (defs2e.map (·.1)).Nodup := by decide +kernel

theorem matches2_of {name : String} {G : Gen2e} {D : Def2e} (hG : (name, G) ∈ Auto2e.all2e) (hD : (name, D) ∈ defs2e) :
    matches2e G D = true := by
  obtain ⟨i, hi, ei⟩ := List.mem_iff_getElem.1 hG
  obtain ⟨j, hj, ej⟩ := List.mem_iff_getElem.1 hD
  have hlen : Auto2e.all2e.length = defs2e.length := by
    have := congrArg List.length all_names2; simpa using this
  have e1 : (defs2e.map (·.1))[i]'(by simp; omega) = name := by
    have : (Auto2e.all2e.map (·.1))[i]'(by simp; omega) = name := by rw [List.getElem_map, ei]
    rw [← this]
    exact (List.getElem_of_eq all_names2 _).symm
  have e2 : (defs2e.map (·.1))[j]'(by simp; omega) = name := by rw [List.getElem_map, ej]
  have hij : i = j := (List.Nodup.getElem_inj_iff names_nodup2).1 (e1.trans e2.symm)
  subst hij
  have hz : (Auto2e.all2e.zip defs2e)[i]'(by rw [List.length_zip]; omega) = ((name, G), (name, D)) := by
    rw [List.getElem_zip, ei, ej]
  have := List.forall_iff_forall_mem.1 all_match2 _
    (List.getElem_mem (by rw [List.length_zip]; omega : i < (Auto2e.all2e.zip defs2e).length))
  rw [hz] at this
  exact this

/-- what `matches2e` checks -/
theorem matches2_unfold {G : Gen2e} {D : Def2e} (h : matches2e G D = true) :
    ∃ ws, Gen2e.OK G ws ∧ G.num = D.num ∧ G.den = D.den ∧ G.nComp = D.out.length ∧
      ∀ k, k < G.nComp → sameQ (progSum2 ws (G.flat.comps.getD k [])) (opRe2 (D.out.getD k [])) = true ∧
        zeroQ (opIm2 (D.out.getD k [])) = true := by
  unfold matches2e at h
  cases hs : runWords ![G.ng.i, G.ng.j, G.ng.k, G.ng.l] (2^G.gbits + 1) G.prog with
  | none => rw [hs] at h; cases h
  | some ws =>
    rw [hs] at h
    dsimp only at h
    rw [Bool.and_eq_true, Bool.and_eq_true, Bool.and_eq_true, decide_eq_true_eq] at h
    obtain ⟨⟨⟨⟨_, h2, h3, h4, h5, h6, h7⟩, hlen⟩, h11⟩, h12⟩ := h
    refine ⟨ws, ⟨hs, ?_, h7, h5, ?_⟩, h2, h3, h6, ?_⟩
    · intro W hW
      simpa using List.all_eq_true.1 hlen W hW
    · intro c hc t ht
      have := List.all_eq_true.1 (List.all_eq_true.1 h11 c hc) t ht
      rw [Bool.and_eq_true, decide_eq_true_eq, List.all_eq_true] at this
      exact ⟨this.1, fun n hn => by simpa using this.2 n hn⟩
    · intro k hk
      have k1 : k < G.flat.comps.length := by rw [G.flat_length]; omega
      have k2 : k < D.out.length := by omega
      have kz : k < (G.flat.comps.zip D.out).length := by rw [List.length_zip, G.flat_length]; omega
      have := List.all_eq_true.1 h12 _ (List.getElem_mem kz)
      rw [List.getElem_zip] at this
      dsimp only at this
      rw [Bool.and_eq_true] at this
      rw [List.getD_eq_getElem?_getD, List.getElem?_eq_getElem k1, List.getD_eq_getElem?_getD, List.getElem?_eq_getElem k2]
      exact this

/-- the operator of component `comp` between four primitive functions of a call -/
noncomputable def primVal2 (s : Call2 ℝ) (O : Nat → ℝ) (P : Op2) (i j k l ip jp kp lp : Nat) : ℂ :=
  Op2.val (interaction s.omega) (fun c => O c) (centre s.si) (centre s.sj) (centre s.sk) (centre s.sl)
    (gto (s.si.a ip) (centre s.si) (powers s.si.l i)) (gto (s.sj.a jp) (centre s.sj) (powers s.sj.l j))
    (gto (s.sk.a kp) (centre s.sk) (powers s.sk.l k)) (gto (s.sl.a lp) (centre s.sl) (powers s.sl.l l)) P

/-- the primitive integral behind the value computed -/
theorem gen_prim2 {G : Gen2e} {ws} {D : Def2e} {L : MathLib ℝ} {s : Call2 ℝ} {ip jp kp lp : Nat} {O : Nat → ℝ}
    {comp i j k l : Nat} (hp : PosExp s) (hip : ip < s.si.nprim) (hjp : jp < s.sj.nprim) (hkp : kp < s.sk.nprim) (hlp : lp < s.sl.nprim)
    (hm : sameQ (progSum2 ws (G.flat.comps.getD comp [])) (opRe2 (D.out.getD comp [])) = true)
    (hm' : zeroQ (opIm2 (D.out.getD comp [])) = true) (hc : comp < G.nComp)
    (h1 : i < ncart s.si.l) (h3 : k < ncart s.sk.l) (h4 : l < ncart s.sl.l)
    (pc : ∀ c, c < 3 → pairVal L (s.pairArgs (G.int O)) ip jp c = (s.si.a ip * s.si.r c + s.sj.a jp * s.sj.r c)/(s.si.a ip + s.sj.a jp)) :
    primVal2 s O (D.out.getD comp []) i j k l ip jp kp lp =
      ((Real.exp (-(s.si.a ip * s.sj.a jp/(s.si.a ip + s.sj.a jp)) * ∑ k, (centre s.si k - centre s.sj k)^2) *
      Real.exp (-(s.sk.a kp * s.sl.a lp/(s.sk.a kp + s.sl.a lp)) * ∑ k, (centre s.sk k - centre s.sl k)^2) *
        ((fun M => genW (s.g2 (G.int O) L ip jp kp lp)
        { a := ![s.si.a ip, s.sj.a jp, s.sk.a kp, s.sl.a lp], R := ![s.si.r, s.sj.r, s.sk.r, s.sl.r], O := O } ws
        (G.flat.comps.getD (M % G.nComp) []) (fun c => i4 (s.env (G.int O)) c (M / G.nComp))
        (fun c => j4 (s.env (G.int O)) c (M / G.nComp)) (fun c => k4 (s.env (G.int O)) c (M / G.nComp))
        (fun c => l4 (s.env (G.int O)) c (M / G.nComp))) (pos4c (ncar (Call2.ls s)) i j k l * G.nComp + comp) *
          (2 / Real.sqrt Real.pi * Real.pi^3)) : ℝ) : ℂ) := by
  dsimp only
  rw [(digit hc).1, (digit hc).2]
  have hd := fun c => pos4_digits (X := G.int O) (j := j) h1 h3 h4 c
  simp only [(hd _).1, (hd _).2.1, (hd _).2.2.1, (hd _).2.2.2]
  unfold genW
  have hne : (2 / Real.sqrt Real.pi * Real.pi^3) ≠ 0 := by positivity
  rw [div_mul_cancel₀ _ hne, sameQ_val hm]
  let S : PairOf := { a := s.si.a ip, b := s.sj.a jp, A := centre s.si, B := centre s.sj, O := fun c => O c,
                      n := powers s.si.l i, m := powers s.sj.l j }
  let T : PairOf := { a := s.sk.a kp, b := s.sl.a lp, A := centre s.sk, B := centre s.sl, O := fun c => O c,
                      n := powers s.sk.l k, m := powers s.sl.l l }
  have hv := op_val2 S T (hp.ij ip jp hip hjp) (hp.kl kp lp hkp hlp) rfl s.omega (D.out.getD comp [])
  rw [zeroQ_val hm', mul_zero, Complex.ofReal_zero, mul_zero, add_zero] at hv
  refine hv.trans ?_
  congr 1
  have hcen : S.cen = fun k : Fin 3 => (s.g2 (G.int O) L ip jp kp lp).rij k := by
    funext k
    show _ = pairVal L (s.pairArgs (G.int O)) ip jp k
    rw [pc k k.isLt]
    rfl
  have hcen' : T.cen = fun k : Fin 3 => (s.g2 (G.int O) L ip jp kp lp).rkl k := rfl
  rw [hcen, hcen']
  rfl

theorem contract4_ofReal (ni nj nk nl : ℕ) (ci cj ck cl : ℕ → ℝ) (f : ℕ → ℕ → ℕ → ℕ → ℝ) (ic jc kc lc : ℕ) :
    ((contract4 ni nj nk nl ci cj ck cl f ic jc kc lc : ℝ) : ℂ) =
      contract4C ni nj nk nl ci cj ck cl (fun ip jp kp lp => (f ip jp kp lp : ℂ)) ic jc kc lc := by
  unfold contract4 contract4C
  push_cast
  rfl

/-- any function that computes the operators of a definition -/
theorem gen2_repulsion {G : Gen2e} {D : Def2e} (hm : matches2e G D = true)
    {L : MathLib ℝ} {s : Call2 ℝ} {R : Rys2 ℝ} {O : Nat → ℝ} {mi mj mk ml : Nat → ℝ} (A : CartMem4 (G.int O) s)
    (hL : L.exp = Real.exp) (hi : MaxCoeff s.si mi) (hj : MaxCoeff s.sj mj) (hk : MaxCoeff s.sk mk) (hl : MaxCoeff s.sl ml)
    (hp : PosExp s) (hR : Rys2OK R (s.env (G.int O)).nrys_roots) (h15 : LOK s) :
    ∃ has h', CartEnds4 A R realK L has h' ∧
      ∀ comp ic jc kc lc i j k l (hc : comp < D.out.length), ic < s.si.nctr → jc < s.sj.nctr → kc < s.sk.nctr → lc < s.sl.nctr →
        i < ncart s.si.l → j < ncart s.sj.l → k < ncart s.sk.l → l < ncart s.sl.l →
        ∃ v : ℝ, A.elem h' comp ic i jc j kc k lc l = .val v ∧
          (v : ℂ) = ((D.num : ℂ) / (D.den : ℂ)) * ((spNorm s.si.l * spNorm s.sj.l * spNorm s.sk.l * spNorm s.sl.l : ℝ) : ℂ) *
            contract4C s.si.nprim s.sj.nprim s.sk.nprim s.sl.nprim s.si.c s.sj.c s.sk.c s.sl.c (fun ip jp kp lp =>
              open Classical in if Kept4X L (G.int O) s mi mj mk ml ip jp kp lp then
                Op2.val (interaction s.omega) (fun c => O c) (centre s.si) (centre s.sj) (centre s.sk) (centre s.sl)
                  (gto (s.si.a ip) (centre s.si) (powers s.si.l i)) (gto (s.sj.a jp) (centre s.sj) (powers s.sj.l j))
                  (gto (s.sk.a kp) (centre s.sk) (powers s.sk.l k)) (gto (s.sl.a lp) (centre s.sl) (powers s.sl.l l)) D.out[comp]
              else 0) ic jc kc lc := by
  obtain ⟨ws, hOK, hnum, hden, hnc, hcomp⟩ := matches2_unfold (hm)
  obtain ⟨has, h', hr, hv, _⟩ := drv2e_cart A.M A.hsize A.hs A.O (gen2_eval hOK (L := L) (O := O) hp hR) (Nat.pos_of_ne_zero hOK.pos) h15
  refine ⟨has, h', hr, fun comp ic jc kc lc i j k l hc a2 a3 a4 a5 a6 a7 a8 a9 => ?_⟩
  have hc' : comp < G.nComp := by omega
  refine ⟨_, hv comp ic jc kc lc i j k l hc' a2 a3 a4 a5 a6 a7 a8 a9, ?_⟩
  have hget : D.out[comp] = D.out.getD comp [] := by
    rw [List.getD_eq_getElem?_getD, List.getElem?_eq_getElem hc]; rfl
  rw [loopVal2_gen (X := G.int O) (Z := fun ip jp kp lp => (primVal2 s O (D.out.getD comp []) i j k l ip jp kp lp).re) hL hi hj hk hl hp (by
    intro ip jp kp lp b1 b2 b3 b4 _ pc
    rw [gen_prim2 (G := G) (ws := ws) (L := L) hp b1 b2 b3 b4 (hcomp comp hc').1 (hcomp comp hc').2 hc' a6 a8 a9 pc, Complex.ofReal_re]
    rfl)]
  have hcom : ((G.int O).common : ℝ) = (D.num : ℝ) / (D.den : ℝ) := by rw [← hnum, ← hden]; rfl
  rw [hcom, Complex.ofReal_mul, Complex.ofReal_mul, contract4_ofReal]
  refine congrArg₂ (· * ·) (by push_cast; ring) ?_
  unfold contract4C
  refine Finset.sum_congr rfl fun lp b4 => Finset.sum_congr rfl fun kp b3 => Finset.sum_congr rfl fun jp b2 =>
    Finset.sum_congr rfl fun ip b1 => ?_
  rw [Finset.mem_range] at b1 b2 b3 b4
  congr 1
  beta_reduce
  by_cases hkp : Kept4X L (G.int O) s mi mj mk ml ip jp kp lp
  · rw [if_pos hkp, if_pos hkp, hget]
    have pc := ((pair2X (X := G.int O) hL hi hj b1 b2 (hp.ij ip jp b1 b2)).2.1 hkp.pair).2
    have := gen_prim2 (G := G) (ws := ws) (L := L) (j := j) hp b1 b2 b3 b4 (hcomp comp hc').1 (hcomp comp hc').2 hc' a6 a8 a9 pc
    rw [this, Complex.ofReal_re, ← this]
    rfl
  · rw [if_neg hkp, if_neg hkp, Complex.ofReal_zero]

/-- **C51** Every integral of the catalogue `Auto2e.all2e` (the four-centre integrals of src/autocode), any shells with positive
exponents and angular momenta up to ANG_MAX, any interaction (Coulomb, long range, short range), any contents of memory: component
`comp` of the element for four functions is the factor of the definition times the contraction, over all primitive quartets that
survive the screening, of the repulsion integrals of the functions the operators have acted on.  The root finder is assumed to
return the roots and weights of Rys quadrature. -/
theorem C51_repulsion {name : String} {G : Gen2e} {D : Def2e} (hG : (name, G) ∈ Auto2e.all2e) (hD : (name, D) ∈ defs2e)
    {L : MathLib ℝ} {s : Call2 ℝ} {R : Rys2 ℝ} {O : Nat → ℝ} {mi mj mk ml : Nat → ℝ} (A : CartMem4 (G.int O) s)
    (hL : L.exp = Real.exp) (hi : MaxCoeff s.si mi) (hj : MaxCoeff s.sj mj) (hk : MaxCoeff s.sk mk) (hl : MaxCoeff s.sl ml)
    (hp : PosExp s) (hR : Rys2OK R (s.env (G.int O)).nrys_roots) (h15 : LOK s) :
    ∃ has h', CartEnds4 A R realK L has h' ∧
      ∀ comp ic jc kc lc i j k l (hc : comp < D.out.length), ic < s.si.nctr → jc < s.sj.nctr → kc < s.sk.nctr → lc < s.sl.nctr →
        i < ncart s.si.l → j < ncart s.sj.l → k < ncart s.sk.l → l < ncart s.sl.l →
        ∃ v : ℝ, A.elem h' comp ic i jc j kc k lc l = .val v ∧
          (v : ℂ) = ((D.num : ℂ) / (D.den : ℂ)) * ((spNorm s.si.l * spNorm s.sj.l * spNorm s.sk.l * spNorm s.sl.l : ℝ) : ℂ) *
            contract4C s.si.nprim s.sj.nprim s.sk.nprim s.sl.nprim s.si.c s.sj.c s.sk.c s.sl.c (fun ip jp kp lp =>
              open Classical in if Kept4X L (G.int O) s mi mj mk ml ip jp kp lp then
                Op2.val (interaction s.omega) (fun c => O c) (centre s.si) (centre s.sj) (centre s.sk) (centre s.sl)
                  (gto (s.si.a ip) (centre s.si) (powers s.si.l i)) (gto (s.sj.a jp) (centre s.sj) (powers s.sj.l j))
                  (gto (s.sk.a kp) (centre s.sk) (powers s.sk.l k)) (gto (s.sl.a lp) (centre s.sl) (powers s.sl.l l)) D.out[comp]
              else 0) ic jc kc lc :=
  gen2_repulsion (matches2_of hG hD) A hL hi hj hk hl hp hR h15

/-- no primitive quartet of the call is screened -/
def AllKeptX (L : MathLib ℝ) (X : Int2e ℝ) (s : Call2 ℝ) : Prop :=
  ∃ mi mj mk ml, MaxCoeff s.si mi ∧ MaxCoeff s.sj mj ∧ MaxCoeff s.sk mk ∧ MaxCoeff s.sl ml ∧
    ∀ ip jp kp lp, ip < s.si.nprim → jp < s.sj.nprim → kp < s.sk.nprim → lp < s.sl.nprim → Kept4X L X s mi mj mk ml ip jp kp lp

/-- any function that computes the operators of a definition -/
theorem gen2_repulsion_exact {G : Gen2e} {D : Def2e} (hm : matches2e G D = true)
    {L : MathLib ℝ} {s : Call2 ℝ} {R : Rys2 ℝ} {O : Nat → ℝ} (A : CartMem4 (G.int O) s)
    (hL : L.exp = Real.exp) (hkept : AllKeptX L (G.int O) s)
    (hp : PosExp s) (hR : Rys2OK R (s.env (G.int O)).nrys_roots) (h15 : LOK s) :
    ∃ has h', CartEnds4 A R realK L has h' ∧
      ∀ comp ic jc kc lc i j k l (hc : comp < D.out.length), ic < s.si.nctr → jc < s.sj.nctr → kc < s.sk.nctr → lc < s.sl.nctr →
        i < ncart s.si.l → j < ncart s.sj.l → k < ncart s.sk.l → l < ncart s.sl.l →
        ∃ v : ℝ, A.elem h' comp ic i jc j kc k lc l = .val v ∧
          (v : ℂ) = ((D.num : ℂ) / (D.den : ℂ)) * ((spNorm s.si.l * spNorm s.sj.l * spNorm s.sk.l * spNorm s.sl.l : ℝ) : ℂ) *
            Op2.val (interaction s.omega) (fun c => O c) (centre s.si) (centre s.sj) (centre s.sk) (centre s.sl)
              (cfun s.si ic i) (cfun s.sj jc j) (cfun s.sk kc k) (cfun s.sl lc l) D.out[comp] := by
  obtain ⟨mi, mj, mk, ml, hi, hj, hk, hl, hkp⟩ := hkept
  obtain ⟨has, h', hr, hv⟩ := gen2_repulsion hm (O := O) A hL hi hj hk hl hp hR h15
  refine ⟨has, h', hr, fun comp ic jc kc lc i j k l hc a2 a3 a4 a5 a6 a7 a8 a9 => ?_⟩
  obtain ⟨v, e1, e2⟩ := hv comp ic jc kc lc i j k l hc a2 a3 a4 a5 a6 a7 a8 a9
  refine ⟨v, e1, e2.trans (congrArg₂ (· * ·) rfl ?_)⟩
  unfold cfun
  rw [op_val2_cgto _ _ hp.ij hp.kl]
  unfold contract4C
  refine Finset.sum_congr rfl fun lp b1 => Finset.sum_congr rfl fun kp b2 => Finset.sum_congr rfl fun jp b3 =>
    Finset.sum_congr rfl fun ip b4 => ?_
  rw [Finset.mem_range] at b1 b2 b3 b4
  dsimp only
  rw [if_pos (hkp ip jp kp lp b4 b3 b2 b1)]

/-- **C51**, nothing screened: exactly the integral over the four contracted functions. -/
theorem C51_repulsion_exact {name : String} {G : Gen2e} {D : Def2e} (hG : (name, G) ∈ Auto2e.all2e) (hD : (name, D) ∈ defs2e)
    {L : MathLib ℝ} {s : Call2 ℝ} {R : Rys2 ℝ} {O : Nat → ℝ} (A : CartMem4 (G.int O) s)
    (hL : L.exp = Real.exp) (hkept : AllKeptX L (G.int O) s)
    (hp : PosExp s) (hR : Rys2OK R (s.env (G.int O)).nrys_roots) (h15 : LOK s) :
    ∃ has h', CartEnds4 A R realK L has h' ∧
      ∀ comp ic jc kc lc i j k l (hc : comp < D.out.length), ic < s.si.nctr → jc < s.sj.nctr → kc < s.sk.nctr → lc < s.sl.nctr →
        i < ncart s.si.l → j < ncart s.sj.l → k < ncart s.sk.l → l < ncart s.sl.l →
        ∃ v : ℝ, A.elem h' comp ic i jc j kc k lc l = .val v ∧
          (v : ℂ) = ((D.num : ℂ) / (D.den : ℂ)) * ((spNorm s.si.l * spNorm s.sj.l * spNorm s.sk.l * spNorm s.sl.l : ℝ) : ℂ) *
            Op2.val (interaction s.omega) (fun c => O c) (centre s.si) (centre s.sj) (centre s.sk) (centre s.sl)
              (cfun s.si ic i) (cfun s.sj jc j) (cfun s.sk kc k) (cfun s.sl lc l) D.out[comp] :=
  gen2_repulsion_exact (matches2_of hG hD) A hL hkept hp hR h15

/-! ### Spherical functions -/

/-- the product of two spherical functions with operators on them -/
theorem act_sgto_mul {O : Pt} (t u : PShell ℝ) (ic i jc j : ℕ) (v w : Word) (r : Pt) :
    Word.act O (centre t) v (sgto t ic i) r * Word.act O (centre u) w (sgto u jc j) r =
      ∑ p ∈ Finset.range (ncart t.l) ×ˢ Finset.range (ncart u.l), (spNorm t.l * c2sCoef t.l i p.1 * (spNorm u.l * c2sCoef u.l j p.2)) *
        (Word.act O (centre t) v (cfun t ic p.1) r * Word.act O (centre u) w (cfun u jc p.2) r) := by
  have hc : ∀ (t : PShell ℝ) (ic a : ℕ), cfun t ic a = fun r => ∑ ip ∈ Finset.range t.nprim, t.c (t.nprim*ic+ip) *
      gP (t.a ip) (centre t) (fun k => (X - C (centre t k))^powers t.l a k) r := by
    intro t ic a
    funext r
    unfold cfun cgto
    simp_rw [gto_gP]
  have hs : ∀ (t : PShell ℝ) (ic i : ℕ), sgto t ic i = fun r => ∑ x ∈ Finset.range (ncart t.l) ×ˢ Finset.range t.nprim,
      (spNorm t.l * c2sCoef t.l i x.1 * t.c (t.nprim*ic+x.2)) *
      gP (t.a x.2) (centre t) (fun k => (X - C (centre t k))^powers t.l x.1 k) r := by
    intro t ic i
    funext r
    rw [Finset.sum_product]
    refine Finset.sum_congr rfl fun a _ => ?_
    refine (congrArg₂ (· * ·) rfl (congrFun (hc t ic a) r)).trans ?_
    rw [Finset.mul_sum]
    refine Finset.sum_congr rfl fun b _ => ?_
    ring
  have ha : ∀ (t : PShell ℝ) (ic i : ℕ) (v : Word), Word.act O (centre t) v (sgto t ic i) r =
      ∑ a ∈ Finset.range (ncart t.l), spNorm t.l * c2sCoef t.l i a * Word.act O (centre t) v (cfun t ic a) r := by
    intro t ic i v
    rw [hs, act_sum]
    dsimp only
    rw [Finset.sum_product]
    refine Finset.sum_congr rfl fun a _ => ?_
    rw [hc, act_sum, Finset.mul_sum]
    refine Finset.sum_congr rfl fun b _ => ?_
    ring
  rw [ha, ha, Finset.sum_mul_sum, Finset.sum_product]
  refine Finset.sum_congr rfl fun i _ => Finset.sum_congr rfl fun j _ => ?_
  ring

theorem integrable_act_cfun {s : Call2 ℝ} (hp : PosExp s) (O : Pt) (ic jc kc lc a b c d : ℕ) (v w v' w' : Word) (omega : ℝ) :
    Integrable fun z : Pt × Pt => (Word.act O (centre s.si) v (cfun s.si ic a) z.1 * Word.act O (centre s.sj) w (cfun s.sj jc b) z.1) *
      interaction omega z.1 z.2 *
      (Word.act O (centre s.sk) v' (cfun s.sk kc c) z.2 * Word.act O (centre s.sl) w' (cfun s.sl lc d) z.2) := by
  have key := (repulsion_sum (V := interaction omega) (Finset.range s.si.nprim ×ˢ Finset.range s.sj.nprim)
    (Finset.range s.sk.nprim ×ˢ Finset.range s.sl.nprim)
    (fun p => s.si.c (s.si.nprim*ic+p.1) * s.sj.c (s.sj.nprim*jc+p.2)) (fun p => s.sk.c (s.sk.nprim*kc+p.1) * s.sl.c (s.sl.nprim*lc+p.2))
    (f := fun p r => Word.act O (centre s.si) v (gto (s.si.a p.1) (centre s.si) (powers s.si.l a)) r *
      Word.act O (centre s.sj) w (gto (s.sj.a p.2) (centre s.sj) (powers s.sj.l b)) r)
    (g := fun p r => Word.act O (centre s.sk) v' (gto (s.sk.a p.1) (centre s.sk) (powers s.sk.l c)) r *
      Word.act O (centre s.sl) w' (gto (s.sl.a p.2) (centre s.sl) (powers s.sl.l d)) r) (fun a ha b hb => by
    rw [Finset.mem_product, Finset.mem_range, Finset.mem_range] at ha hb
    exact Verif.Lemmas.integrable_act (hp.ij _ _ ha.1 ha.2) (hp.kl _ _ hb.1 hb.2) O _ _ _ _ _ _ _ _ v w v' w' omega)).1
  unfold cfun
  simp_rw [act_cgto_mul]
  exact key

/-- the integral of spherical functions is the transformed integral of Cartesian functions -/
theorem op_val2_sgto {s : Call2 ℝ} (hp : PosExp s) (O : Pt) (ic jc kc lc i j k l : ℕ) (omega : ℝ) (P : Op2) :
    Op2.val (interaction omega) O (centre s.si) (centre s.sj) (centre s.sk) (centre s.sl)
        (sgto s.si ic i) (sgto s.sj jc j) (sgto s.sk kc k) (sgto s.sl lc l) P =
      ∑ a ∈ Finset.range (ncart s.si.l), ∑ b ∈ Finset.range (ncart s.sj.l), ∑ c ∈ Finset.range (ncart s.sk.l),
        ∑ d ∈ Finset.range (ncart s.sl.l), ((c2sCoef s.si.l i a * c2sCoef s.sj.l j b * c2sCoef s.sk.l k c * c2sCoef s.sl.l l d : ℝ) : ℂ) *
          (((spNorm s.si.l * spNorm s.sj.l * spNorm s.sk.l * spNorm s.sl.l : ℝ) : ℂ) *
          Op2.val (interaction omega) O (centre s.si) (centre s.sj) (centre s.sk) (centre s.sl)
            (cfun s.si ic a) (cfun s.sj jc b) (cfun s.sk kc c) (cfun s.sl lc d) P) := by
  have ht : ∀ x : Term × Term, Op2.valT (interaction omega) O (centre s.si) (centre s.sj) (centre s.sk) (centre s.sl)
        (sgto s.si ic i) (sgto s.sj jc j) (sgto s.sk kc k) (sgto s.sl lc l) x =
      ∑ a ∈ Finset.range (ncart s.si.l), ∑ b ∈ Finset.range (ncart s.sj.l), ∑ c ∈ Finset.range (ncart s.sk.l),
        ∑ d ∈ Finset.range (ncart s.sl.l), ((c2sCoef s.si.l i a * c2sCoef s.sj.l j b * c2sCoef s.sk.l k c * c2sCoef s.sl.l l d : ℝ) : ℂ) *
          (((spNorm s.si.l * spNorm s.sj.l * spNorm s.sk.l * spNorm s.sl.l : ℝ) : ℂ) *
          Op2.valT (interaction omega) O (centre s.si) (centre s.sj) (centre s.sk) (centre s.sl)
            (cfun s.si ic a) (cfun s.sj jc b) (cfun s.sk kc c) (cfun s.sl lc d) x) := by
    intro x
    unfold Op2.valT
    simp_rw [act_sgto_mul]
    rw [(repulsion_sum (V := interaction omega) _ _ _ _ (fun a ha b hb =>
      integrable_act_cfun hp O ic jc kc lc a.1 a.2 b.1 b.2 x.1.bra x.1.ket x.2.bra x.2.ket omega)).2]
    rw [Finset.sum_product]
    push_cast
    rw [Finset.mul_sum, Finset.mul_sum]
    refine Finset.sum_congr rfl fun a _ => ?_
    rw [Finset.mul_sum, Finset.mul_sum]
    refine Finset.sum_congr rfl fun b _ => ?_
    rw [Finset.sum_product, Finset.mul_sum, Finset.mul_sum]
    refine Finset.sum_congr rfl fun c _ => ?_
    rw [Finset.mul_sum, Finset.mul_sum]
    refine Finset.sum_congr rfl fun d _ => ?_
    ring
  induction P with
  | nil => simp [Op2.val]
  | cons x P ih =>
    have h1 : ∀ f g h k, Op2.val (interaction omega) O (centre s.si) (centre s.sj) (centre s.sk) (centre s.sl) f g h k (x :: P) =
        Op2.valT (interaction omega) O (centre s.si) (centre s.sj) (centre s.sk) (centre s.sl) f g h k x +
        Op2.val (interaction omega) O (centre s.si) (centre s.sj) (centre s.sk) (centre s.sl) f g h k P := by
      intro f g h k; simp [Op2.val]
    simp_rw [h1]
    rw [ih, ht]
    simp_rw [mul_add, Finset.sum_add_distrib]

/-- spherical output of an integral that matches its definition -/
theorem gen2_spherical {G : Gen2e} {D : Def2e} (hm : matches2e G D = true)
    {L : MathLib ℝ} {s : Call2 ℝ} {R : Rys2 ℝ} {O : Nat → ℝ} (B : SphMem4 (G.int O) s)
    (hL : L.exp = Real.exp) (hkept : AllKeptX L (G.int O) s)
    (hp : PosExp s) (hR : Rys2OK R (s.env (G.int O)).nrys_roots) (h15 : LOK s) :
    ∃ has h', SphEnds4 B R realK L has h' ∧
      ∀ comp ic jc kc lc i j k l (hc : comp < D.out.length), ic < s.si.nctr → jc < s.sj.nctr → kc < s.sk.nctr → lc < s.sl.nctr →
        i < s.si.l*2+1 → j < s.sj.l*2+1 → k < s.sk.l*2+1 → l < s.sl.l*2+1 →
        ∃ v : ℝ, B.elem h' comp ic i jc j kc k lc l = .val v ∧
          (v : ℂ) = ((D.num : ℂ) / (D.den : ℂ)) *
            Op2.val (interaction s.omega) (fun c => O c) (centre s.si) (centre s.sj) (centre s.sk) (centre s.sl)
              (sgto s.si ic i) (sgto s.sj jc j) (sgto s.sk kc k) (sgto s.sl lc l) D.out[comp] := by
  let A := blankMem4 (G.int O) s B.hs.nctr_pos
  obtain ⟨ws, hOK, _, _, hnc, _⟩ := matches2_unfold hm
  obtain ⟨ra, ha, rb, hb, eA, eB, x, vA, vB⟩ := C19_four_centre A B (gen2_eval hOK (L := L) (O := O) hp hR) (Nat.pos_of_ne_zero hOK.pos) h15
  obtain ⟨rc, hc, eC, vC⟩ := gen2_repulsion_exact hm (R := R) A hL hkept hp hR h15
  have hAC : ha = hc := by
    have e : some (ra, ha) = some (rc, hc) := eA.symm.trans eC
    simp only [Option.some.injEq, Prod.mk.injEq] at e
    exact e.2
  refine ⟨rb, hb, eB, fun comp ic jc kc lc i j k l a1 a2 a3 a4 a5 a6 a7 a8 a9 => ?_⟩
  have a1' : comp < G.nComp := by omega
  refine ⟨_, vB comp ic jc kc lc i j k l a1' a2 a3 a4 a5 a6 a7 a8 a9, ?_⟩
  rw [op_val2_sgto hp]
  push_cast
  rw [Finset.mul_sum]
  refine Finset.sum_congr rfl fun a b1 => ?_
  rw [Finset.mul_sum]
  refine Finset.sum_congr rfl fun b b2 => ?_
  rw [Finset.mul_sum]
  refine Finset.sum_congr rfl fun c b3 => ?_
  rw [Finset.mul_sum]
  refine Finset.sum_congr rfl fun d b4 => ?_
  rw [Finset.mem_range] at b1 b2 b3 b4
  have c1 := vA comp ic jc kc lc a b c d a1' a2 a3 a4 a5 b1 b2 b3 b4
  obtain ⟨v, c2, c3⟩ := vC comp ic jc kc lc a b c d a1 a2 a3 a4 a5 b1 b2 b3 b4
  rw [← hAC] at c2
  rw [Cell.val.inj (c1.symm.trans c2), c3]
  push_cast
  ring

/-- **C51**, spherical output, nothing screened: exactly the integral over the four spherical functions. -/
theorem C51_spherical {name : String} {G : Gen2e} {D : Def2e} (hG : (name, G) ∈ Auto2e.all2e) (hD : (name, D) ∈ defs2e)
    {L : MathLib ℝ} {s : Call2 ℝ} {R : Rys2 ℝ} {O : Nat → ℝ} (B : SphMem4 (G.int O) s)
    (hL : L.exp = Real.exp) (hkept : AllKeptX L (G.int O) s)
    (hp : PosExp s) (hR : Rys2OK R (s.env (G.int O)).nrys_roots) (h15 : LOK s) :
    ∃ has h', SphEnds4 B R realK L has h' ∧
      ∀ comp ic jc kc lc i j k l (hc : comp < D.out.length), ic < s.si.nctr → jc < s.sj.nctr → kc < s.sk.nctr → lc < s.sl.nctr →
        i < s.si.l*2+1 → j < s.sj.l*2+1 → k < s.sk.l*2+1 → l < s.sl.l*2+1 →
        ∃ v : ℝ, B.elem h' comp ic i jc j kc k lc l = .val v ∧
          (v : ℂ) = ((D.num : ℂ) / (D.den : ℂ)) *
            Op2.val (interaction s.omega) (fun c => O c) (centre s.si) (centre s.sj) (centre s.sk) (centre s.sl)
              (sgto s.si ic i) (sgto s.sj jc j) (sgto s.sk kc k) (sgto s.sl lc l) D.out[comp] :=
  gen2_spherical (matches2_of hG hD) B hL hkept hp hR h15

/-! ### The catalogue -/

/-- **C51** Every generated integral has a definition: the catalogues have the same names, each once. -/
theorem C51_catalogue : Auto2e.all2e.map (·.1) = defs2e.map (·.1) ∧ (defs2e.map (·.1)).Nodup := ⟨all_names2, names_nodup2⟩

theorem defs_geo_ij (x : String × Def2e) (hx : x ∈ defs2e) (hs : x.1 ∈ Auto2e.shortcutIJ) :
    (x.2.out.all fun P => P.all fun t => !decide (t.1.geo = [])) = true := by
  have h : ((defs2e.filter fun x => decide (x.1 ∈ Auto2e.shortcutIJ)).all fun x =>
    x.2.out.all fun P => P.all fun t => !decide (t.1.geo = [])) = true := by decide +kernel
  exact List.all_eq_true.1 h x (List.mem_filter.2 ⟨hx, by simpa using hs⟩)

theorem defs_geo_kl (x : String × Def2e) (hx : x ∈ defs2e) (hs : x.1 ∈ Auto2e.shortcutKL) :
    (x.2.out.all fun P => P.all fun t => !decide (t.2.geo = [])) = true := by
  have h : ((defs2e.filter fun x => decide (x.1 ∈ Auto2e.shortcutKL)).all fun x =>
    x.2.out.all fun P => P.all fun t => !decide (t.2.geo = [])) = true := by decide +kernel
  exact List.all_eq_true.1 h x (List.mem_filter.2 ⟨hx, by simpa using hs⟩)

theorem same_centre_prod {A : Pt} {g : List (Fin 3)} (h : (!decide (g = [])) = true) : (g.map fun k => A k - A k).prod = 0 := by
  simp only [Bool.not_eq_true', decide_eq_false_iff_not] at h
  rw [List.prod_eq_zero_iff]
  obtain ⟨k, l, hl⟩ := List.exists_cons_of_ne_nil h
  rw [hl]; simp

/-- **C51**, the wrappers that return zeros when the first two shells are the same shell: the integral they skip is zero. -/
theorem C51_same_shell {name : String} {D : Def2e} (hD : (name, D) ∈ defs2e) (hs : name ∈ Auto2e.shortcutIJ)
    (V : Pt → Pt → ℝ) (O A B C : Pt) (f g h k : Pt → ℝ) {P : Op2} (hP : P ∈ D.out) : Op2.val V O A A B C f g h k P = 0 := by
  have h1 := List.all_eq_true.1 (defs_geo_ij _ hD hs) _ hP
  unfold Op2.val
  refine List.sum_eq_zero (fun x hx => ?_)
  obtain ⟨t, ht, rfl⟩ := List.mem_map.1 hx
  unfold Op2.valT
  rw [same_centre_prod (List.all_eq_true.1 h1 t ht), zero_mul, zero_mul, Complex.ofReal_zero, mul_zero]

/-- **C51**, likewise for the last two shells. -/
theorem C51_same_shell_kl {name : String} {D : Def2e} (hD : (name, D) ∈ defs2e) (hs : name ∈ Auto2e.shortcutKL)
    (V : Pt → Pt → ℝ) (O A B C : Pt) (f g h k : Pt → ℝ) {P : Op2} (hP : P ∈ D.out) : Op2.val V O B C A A f g h k P = 0 := by
  have h1 := List.all_eq_true.1 (defs_geo_kl _ hD hs) _ hP
  unfold Op2.val
  refine List.sum_eq_zero (fun x hx => ?_)
  obtain ⟨t, ht, rfl⟩ := List.mem_map.1 hx
  unfold Op2.valT
  rw [same_centre_prod (List.all_eq_true.1 h1 t ht), mul_zero, zero_mul, Complex.ofReal_zero, mul_zero]

/-! ### The hypotheses can be met -/
namespace Oper2Demo
open EriDemo OvlpDemo

theorem allKeptX (G : Gen2e) (O : Nat → ℝ) (o : ℝ) : AllKeptX lib (G.int O) (call4 o) := by
  refine ⟨fun _ => 1, fun _ => 1, fun _ => 1, fun _ => 1, one_max 1, one_max 2, one_max 0, one_max 1, fun ip jp kp lp _ _ _ _ => ?_⟩
  have hb := base_nonpos
  have hl := log_shift (o := o) (a := 1+1) (by norm_num)
  have h1 : estIJX lib (call4 o) G.ng (fun _ => 1) (fun _ => 1) ip jp ≤ 0 := by
    unfold estIJX est pairEstimate logBound prodExponent rr2 lib call4
    simp only [sub_zero, mul_zero, add_zero, Real.sqrt_zero, Real.log_one]
    have hn : (0:ℝ) ≤ ((1 + G.ng.i + (2 + G.ng.j) : ℕ) : ℝ) := Nat.cast_nonneg _
    have := mul_nonneg hn hl
    split_ifs <;> simp only [zero_add, Real.log_one, mul_zero] at * <;> linarith
  have h2 : estKLX lib (call4 o) (G.int O) (fun _ => 1) (fun _ => 1) kp lp ≤ 0 := by
    have hn : (0:ℝ) ≤ ((((call4 o).env (G.int O)).lk_ceil + ((call4 o).env (G.int O)).ll_ceil : ℕ) : ℝ) := Nat.cast_nonneg _
    have := mul_nonneg hn hl
    unfold estKLX Call2.logRRkl prodExponent rr2 lib
    simp only [call4] at this ⊢
    simp only [sub_zero, mul_zero, add_zero, Real.sqrt_zero, Real.log_one]
    split_ifs <;> simp only [zero_add, Real.log_one, mul_zero] at * <;> linarith
  have hc : cutoff2e (call4 o).envCut = 60 := if_pos rfl
  have h3 : 60 ≤ (call4 o).cutoff (G.int O) lib := by
    unfold Call2.cutoff
    dsimp only
    rw [hc]
    split
    · have : (0:ℝ) ≤ ((((call4 o).env (G.int O)).li_ceil + ((call4 o).env (G.int O)).lj_ceil : ℕ) : ℝ) := Nat.cast_nonneg _
      have := mul_nonneg this hl
      unfold rr2 lib
      simp only [call4] at this ⊢
      simp only [sub_zero, mul_zero, add_zero, Real.sqrt_zero, zero_add, div_one] at *
      linarith
    · exact le_refl _
  have hs : srExp (call4 o) ip jp kp lp = 0 := by
    unfold srExp call4
    simp
  have hx : (G.int O : Int2e ℝ).ng = G.ng := rfl
  refine ⟨by rw [hc, hx]; linarith, by linarith, by rw [hx]; linarith, fun _ => ⟨by rw [hs]; norm_num, by rw [hs, hx]; linarith⟩⟩

/-- int2e_ip1: `(∂_y i, j | k l)` with the short-range interaction, for p_y (second contraction), d_xz, s and p_z -/
example : ∃ R has h', CartEnds4 (blankMem4 (Auto2e.int2e_ip1.int fun _ => 0) (call4 (-1/2)) (EriDemo.ctr_pos _)) R realK lib has h' ∧
    (blankMem4 (Auto2e.int2e_ip1.int fun _ => 0) (call4 (-1/2)) (EriDemo.ctr_pos _)).elem h' 1 1 1 0 2 1 0 0 2 =
      .val (spNorm 1 * spNorm 2 * spNorm 0 * spNorm 1 *
      repulsion (interaction (-1/2))
        (fun r => Word.act (fun _ => 0) (fun _ => 0) [(.d, 1)] (cfun (call4 (-1/2)).si 1 1) r * cfun (call4 (-1/2)).sj 0 2 r)
        (fun r => cfun (call4 (-1/2)).sk 1 0 r * cfun (call4 (-1/2)).sl 0 2 r)) := by
  obtain ⟨R, hR⟩ := exists_rys2
  have hG : ("int2e_ip1", Auto2e.int2e_ip1) ∈ Auto2e.all2e := by
    unfold Auto2e.all2e; simp
  have hD : ("int2e_ip1", EriDefs.ip1) ∈ defs2e := by
    unfold defs2e; simp
  have hlen : EriDefs.ip1.out.length = 3 := by decide +kernel
  obtain ⟨has, h', h1, h2⟩ := C51_repulsion_exact hG hD (L := lib) (R := R) (O := fun _ => 0)
    (blankMem4 (Auto2e.int2e_ip1.int fun _ => 0) (call4 (-1/2)) (EriDemo.ctr_pos _)) rfl (allKeptX _ _ _) (posExp _) (hR _) (lok _)
  refine ⟨R, has, h', h1, ?_⟩
  obtain ⟨v, e1, e2⟩ := h2 1 1 0 1 0 1 2 0 2 (by rw [hlen]; decide) (by show 1 < 2; omega) (by show 0 < 2; omega) (by show 1 < 2; omega)
    (by show 0 < 2; omega) (by show 1 < ncart 1; decide) (by show 2 < ncart 2; decide) (by show 0 < ncart 0; decide)
    (by show 2 < ncart 1; decide)
  refine e1.trans (congrArg Cell.val (Complex.ofReal_injective (e2.trans ?_)))
  have ho : EriDefs.ip1.out[1]'(by rw [hlen]; decide) = [(⟨1, 0, [], [(.d, 1)], []⟩, ⟨1, 0, [], [], []⟩)] := by
    have : EriDefs.ip1.out.getD 1 [] = [(⟨1, 0, [], [(.d, 1)], []⟩, ⟨1, 0, [], [], []⟩)] := by decide +kernel
    rw [List.getD_eq_getElem?_getD, List.getElem?_eq_getElem (by rw [hlen]; decide)] at this
    exact this
  rw [ho]
  unfold Op2.val Op2.valT Term.coef
  simp only [List.map_cons, List.map_nil, List.sum_cons, List.sum_nil, List.prod_nil]
  show (((1 : Int) : ℂ) / ((1 : Nat) : ℂ)) * ((spNorm 1 * spNorm 2 * spNorm 0 * spNorm 1 : ℝ) : ℂ) * _ = _
  push_cast
  simp only [mul_zero, add_zero, one_mul, div_one]
  rfl

/-- the components of int2e_ig1 for two functions at the same centre -/
example (V : Pt → Pt → ℝ) (O A B C : Pt) (f g h k : Pt → ℝ) : EriDefs.ig1.out.length = 3 ∧
    ∀ P ∈ EriDefs.ig1.out, Op2.val V O A A B C f g h k P = 0 :=
  ⟨by decide +kernel, fun _ hP => C51_same_shell (name := "int2e_ig1") (by unfold defs2e; simp)
    (by unfold Auto2e.shortcutIJ; simp) V O A B C f g h k hP⟩

/-- and of int2e_g1g2 for the last two -/
example (V : Pt → Pt → ℝ) (O A B C : Pt) (f g h k : Pt → ℝ) : EriDefs.g1g2.out.length = 9 ∧
    ∀ P ∈ EriDefs.g1g2.out, Op2.val V O B C A A f g h k P = 0 :=
  ⟨by decide +kernel, fun _ hP => C51_same_shell_kl (name := "int2e_g1g2") (by unfold defs2e; simp)
    (by unfold Auto2e.shortcutKL; simp) V O A B C f g h k hP⟩

end Oper2Demo

end Verif.Props
