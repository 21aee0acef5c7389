import Verif.Lemmas.OperEval
import Verif.Props.Ovlp

/-!
C25 — int1e_kin is minus one half of the Laplacian.
C43 — the generated one-electron integrals are the integrals of the operators they are named after.
-/
namespace Verif.Props
open Verif Verif.Model Verif.Prog Verif.Lemmas Verif.Spec MeasureTheory

set_option maxRecDepth 100000 in
/-- every generated program against every definition of the same name -/
theorem all_match : ((Auto.all1e.zip defs1e).all fun x => decide (x.1.1 = x.2.1) && matches1e x.1.2 x.2.2) = true := by
  decide +kernel

theorem all_names : Auto.all1e.map (·.1) = defs1e.map (·.1) := by decide +kernel

theorem names_nodup : (defs1e.map (·.1)).Nodup := by decide +kernel

theorem matches_of {name : String} {G : Gen1e} {D : Def1e} (hG : (name, G) ∈ Auto.all1e) (hD : (name, D) ∈ defs1e) :
    matches1e G D = true := by
  obtain ⟨i, hi, ei⟩ := List.mem_iff_getElem.1 hG
  obtain ⟨j, hj, ej⟩ := List.mem_iff_getElem.1 hD
  have hlen : Auto.all1e.length = defs1e.length := by
    have := congrArg List.length all_names; simpa using this
  have e1 : (defs1e.map (·.1))[i]'(by simp; omega) = name := by
    have : (Auto.all1e.map (·.1))[i]'(by simp; omega) = name := by rw [List.getElem_map, ei]
    rw [← this]
    exact (List.getElem_of_eq all_names _).symm
  have e2 : (defs1e.map (·.1))[j]'(by simp; omega) = name := by rw [List.getElem_map, ej]
  have hij : i = j := (List.Nodup.getElem_inj_iff names_nodup).1 (e1.trans e2.symm)
  subst hij
  have hz : (Auto.all1e.zip defs1e)[i]'(by rw [List.length_zip]; omega) = ((name, G), (name, D)) := by
    rw [List.getElem_zip, ei, ej]
  have := List.all_eq_true.1 all_match _ (List.getElem_mem (by rw [List.length_zip]; omega : i < (Auto.all1e.zip defs1e).length))
  rw [hz] at this
  simpa using this

/-- what `matches1e` checks -/
theorem matches_unfold {G : Gen1e} {D : Def1e} (h : matches1e G D = true) :
    ∃ ws, Gen1e.OK G ws ∧ G.num = D.num ∧ G.den = D.den ∧ G.den ≠ 0 ∧ G.nComp = D.out.length ∧
      ∀ k, k < G.nComp → sameInt (progSum ws (G.prog.comps.getD k [])) (opRe (D.out.getD k [])) = true ∧
        sameInt [] (opIm (D.out.getD k [])) = true := by
  unfold matches1e at h
  cases hs : symRun ![G.ng.i, G.ng.j, 0, 0] (2^G.gbits + 1) G.prog with
  | none => rw [hs] at h; cases h
  | some ws =>
    rw [hs] at h
    dsimp only at h
    rw [Bool.and_eq_true, Bool.and_eq_true, Bool.and_eq_true, decide_eq_true_eq] at h
    obtain ⟨⟨⟨⟨_, _, h3, h4, h5, h6, h7, h8, h9⟩, h10⟩, h11⟩, h12⟩ := h
    refine ⟨ws, ⟨hs, h3, h10, h9, h7, ?_⟩, h4, h5, h6, h8, ?_⟩
    · intro c hc t ht
      have := List.all_eq_true.1 (List.all_eq_true.1 h11 c hc) t ht
      rw [Bool.and_eq_true, decide_eq_true_eq, List.all_eq_true] at this
      exact ⟨this.1, fun n hn => by simpa using this.2 n hn⟩
    · intro k hk
      have k1 : k < G.prog.comps.length := by omega
      have k2 : k < D.out.length := by omega
      have kz : k < (G.prog.comps.zip D.out).length := by rw [List.length_zip]; omega
      have := List.all_eq_true.1 h12 _ (List.getElem_mem kz)
      rw [List.getElem_zip] at this
      dsimp only at this
      rw [Bool.and_eq_true] at this
      rw [List.getD_eq_getElem?_getD, List.getElem?_eq_getElem k1, List.getD_eq_getElem?_getD, List.getElem?_eq_getElem k2]
      exact this

/-- the primitive integral behind the value computed -/
theorem gen_prim {G : Gen1e} {ws} {D : Def1e} {L : MathLib ℝ} {s : Call ℝ} {mi mj : Nat → ℝ} {ip jp : Nat} {O : Nat → ℝ}
    {comp i j : Nat} (hL : L.exp = Real.exp) (hi : MaxCoeff s.si mi) (hj : MaxCoeff s.sj mj)
    (hip : ip < s.si.nprim) (hjp : jp < s.sj.nprim) (h0 : 0 < s.si.a ip + s.sj.a jp)
    (hk : Kept L s mi mj (s.si.l + G.ng.i + (s.sj.l + G.ng.j)) ip jp)
    (hm : sameInt (progSum ws (G.prog.comps.getD comp [])) (opRe (D.out.getD comp [])) = true)
    (hm' : sameInt [] (opIm (D.out.getD comp [])) = true) (hc : comp < G.nComp) (hii : i < ncart s.si.l) :
    Op.val (fun k => O k) (centre s.si) (centre s.sj) (gto (s.si.a ip) (centre s.si) (powers s.si.l i))
        (gto (s.sj.a jp) (centre s.sj) (powers s.sj.l j)) (D.out.getD comp []) =
      ((pairVal L (s.pairArgs (G.int O)) ip jp 3 * genVal G ws L O s ip jp ((j*ncart s.si.l+i)*G.nComp + comp) : ℝ) : ℂ) := by
  obtain ⟨p1, p2⟩ := pair_kept (X := G.int O) hL hi hj hip hjp h0 hk
  let S : PairOf := { a := s.si.a ip, b := s.sj.a jp, A := centre s.si, B := centre s.sj, O := fun k => O k,
                      n := powers s.si.l i, m := powers s.sj.l j }
  have hv := op_val S h0 (D.out.getD comp [])
  have hfull : ∀ (f : Term → Int) (P : Op), ∀ x ∈ P.map (fun t => (f t, termKey t)), x.2.Full := by
    intro f P x hx
    obtain ⟨t, _, rfl⟩ := List.mem_map.1 hx
    exact termKey_full t
  have him : sumVal (S.key S.mu) (opIm (D.out.getD comp [])) = 0 := by
    rw [← sameInt_val (S := S) (parts_mu (S := S) h0) (fun _ h => by cases h) (m := opIm (D.out.getD comp [])) (hfull _ _) hm']
    rfl
  have hre := sameInt_val (parts_mu (S := S) h0) (fun x hx => by
    obtain ⟨t, _, rfl⟩ := List.mem_map.1 hx
    exact progKey_full _ _) (m := opRe (D.out.getD comp [])) (hfull _ _) hm
  rw [him, mul_zero, Complex.ofReal_zero, mul_zero, add_zero, ← hre] at hv
  refine hv.trans ?_
  congr 1
  rw [p1]
  congr 1
  unfold genVal
  have hd : ((j*ncart s.si.l+i)*G.nComp + comp) / G.nComp = j*ncart s.si.l+i ∧
      ((j*ncart s.si.l+i)*G.nComp + comp) % G.nComp = comp := ⟨(digit hc).1, (digit hc).2⟩
  dsimp only
  rw [hd.1, hd.2, (digit hii).1, (digit hii).2]
  have hmu : S.mu = fun k : Fin 3 => moment (s.si.a ip + s.sj.a jp) (pairVal L (s.pairArgs (G.int O)) ip jp k) := by
    funext k
    rw [p2 k k.isLt]
    rfl
  rw [hmu]
  rfl

/-- **C43** Every integral of the catalogue `Auto.all1e` (the integrals of src/autocode evaluated from overlap
intermediates), any shells with positive exponents and angular momenta up to ANG_MAX, any contents of memory: component
`comp` of the element for functions `(ic,i)`, `(jc,j)` is the factor of the definition times the contraction of the integrals
of the defining operator over all primitive pairs that survive the screening. -/
theorem C43_operators {name : String} {G : Gen1e} {D : Def1e} (hG : (name, G) ∈ Auto.all1e) (hD : (name, D) ∈ defs1e)
    {L : MathLib ℝ} {s : Call ℝ} {mi mj : Nat → ℝ} {h : Heap ℝ} {fpd buf size : Nat}
    {fl loc counts out : Ptr} {dims : Option Ptr} {nd : Nat → Nat} {O : Nat → ℝ} (hL : L.exp = Real.exp)
    (hi : MaxCoeff s.si mi) (hj : MaxCoeff s.sj mj)
    (hpos : ∀ ip jp, ip < s.si.nprim → jp < s.sj.nprim → 0 < s.si.a ip + s.sj.a jp)
    (hli : s.si.l ≤ 15) (hlj : s.sj.l ≤ 15)
    (hs : Sizes 2 (two (ncart s.si.l) (ncart s.sj.l)) (two s.si.nctr s.sj.nctr) nd)
    (M : CallMem h fpd buf size fl loc counts) (hsize : cacheSize1e (G.int O) s ≤ size)
    (A : OutArg h nd (fun t => two (ncart s.si.l) (ncart s.sj.l) t * two s.si.nctr s.sj.nctr t) D.out.length out dims
      buf fl loc counts) :
    ∃ has h', run (drv1e (G.int O) s realK L fpd (fun _ _ => pure) (two (ncart s.si.l) (ncart s.sj.l)) out dims
        buf 0 fl loc counts) h = some (has, h') ∧
      ∀ comp ic jc i j (hc : comp < D.out.length), ic < s.si.nctr → jc < s.sj.nctr → i < ncart s.si.l → j < ncart s.sj.l →
        ∃ v : ℝ, h'.D (out + outAt nd comp (ic*ncart s.si.l+i) (jc*ncart s.sj.l+j) 0 0) = .val v ∧
          (v : ℂ) = ((D.num : ℂ) / (D.den : ℂ)) * ((spNorm s.si.l * spNorm s.sj.l : ℝ) : ℂ) *
            ∑ jp ∈ Finset.range s.sj.nprim, ∑ ip ∈ Finset.range s.si.nprim,
              ((s.sj.c (s.sj.nprim*jc+jp) : ℝ) : ℂ) * (((s.si.c (s.si.nprim*ic+ip) : ℝ) : ℂ) *
                open Classical in if Kept L s mi mj (s.si.l + G.ng.i + (s.sj.l + G.ng.j)) ip jp then
                  Op.val (fun k => O k) (centre s.si) (centre s.sj) (gto (s.si.a ip) (centre s.si) (powers s.si.l i))
                    (gto (s.sj.a jp) (centre s.sj) (powers s.sj.l j)) D.out[comp] else 0) := by
  obtain ⟨ws, hOK, hnum, hden, hd0, hnc, hcomp⟩ := matches_unfold (matches_of hG hD)
  rw [← hnc] at A
  obtain ⟨has, h', hr, hv, _⟩ := drv1e_cart M hsize hs A (gen_eval hOK (L := L) hpos) (Nat.pos_of_ne_zero hOK.pos) hli hlj
  refine ⟨has, h', hr, fun comp ic jc i j hc h1 h2 h3 h4 => ⟨_, hv comp ic jc i j (by rw [← hnc] at hc; exact hc) h1 h2 h3 h4, ?_⟩⟩
  unfold loopVal contract2
  rw [spNorm_eq, spNorm_eq]
  have hcom : ((G.int O).common : ℝ) = (D.num : ℝ) / (D.den : ℝ) := by rw [← hnum, ← hden]; rfl
  rw [hcom]
  push_cast
  rw [← mul_assoc ((D.num : ℂ) / (D.den : ℂ))]
  congr 1
  refine Finset.sum_congr rfl (fun jp hjp => Finset.sum_congr rfl (fun ip hip => ?_))
  rw [Finset.mem_range] at hjp hip
  rw [mul_assoc]
  congr 2
  by_cases hk : Kept L s mi mj (s.si.l + G.ng.i + (s.sj.l + G.ng.j)) ip jp
  · rw [if_pos hk]
    have hc' : comp < G.nComp := by omega
    have := gen_prim (j := j) (O := O) hL hi hj hip hjp (hpos ip jp hip hjp) hk (hcomp comp hc').1 (hcomp comp hc').2 hc' h3
    rw [List.getD_eq_getElem?_getD, List.getElem?_eq_getElem hc] at this
    exact (by rw [← Complex.ofReal_mul]; exact this.symm)
  · rw [if_neg hk, pair_dropped (X := G.int O) hi hj hip hjp hk, Complex.ofReal_zero, zero_mul]

/-- **C43**, no primitive pair screened: exactly the integral of the defining operator over the two contracted functions. -/
theorem C43_operators_exact {name : String} {G : Gen1e} {D : Def1e} (hG : (name, G) ∈ Auto.all1e) (hD : (name, D) ∈ defs1e)
    {L : MathLib ℝ} {s : Call ℝ} {mi mj : Nat → ℝ} {h : Heap ℝ} {fpd buf size : Nat}
    {fl loc counts out : Ptr} {dims : Option Ptr} {nd : Nat → Nat} {O : Nat → ℝ} (hL : L.exp = Real.exp)
    (hi : MaxCoeff s.si mi) (hj : MaxCoeff s.sj mj)
    (hpos : ∀ ip jp, ip < s.si.nprim → jp < s.sj.nprim → 0 < s.si.a ip + s.sj.a jp)
    (hkept : ∀ ip jp, ip < s.si.nprim → jp < s.sj.nprim →
      Kept L s mi mj (s.si.l + G.ng.i + (s.sj.l + G.ng.j)) ip jp)
    (hli : s.si.l ≤ 15) (hlj : s.sj.l ≤ 15)
    (hs : Sizes 2 (two (ncart s.si.l) (ncart s.sj.l)) (two s.si.nctr s.sj.nctr) nd)
    (M : CallMem h fpd buf size fl loc counts) (hsize : cacheSize1e (G.int O) s ≤ size)
    (A : OutArg h nd (fun t => two (ncart s.si.l) (ncart s.sj.l) t * two s.si.nctr s.sj.nctr t) D.out.length out dims
      buf fl loc counts) :
    ∃ has h', run (drv1e (G.int O) s realK L fpd (fun _ _ => pure) (two (ncart s.si.l) (ncart s.sj.l)) out dims
        buf 0 fl loc counts) h = some (has, h') ∧
      ∀ comp ic jc i j (hc : comp < D.out.length), ic < s.si.nctr → jc < s.sj.nctr → i < ncart s.si.l → j < ncart s.sj.l →
        ∃ v : ℝ, h'.D (out + outAt nd comp (ic*ncart s.si.l+i) (jc*ncart s.sj.l+j) 0 0) = .val v ∧
          (v : ℂ) = ((D.num : ℂ) / (D.den : ℂ)) * ((spNorm s.si.l * spNorm s.sj.l : ℝ) : ℂ) *
            Op.val (fun k => O k) (centre s.si) (centre s.sj)
              (cgto s.si.nprim s.si.a s.si.c (centre s.si) ic (powers s.si.l i))
              (cgto s.sj.nprim s.sj.a s.sj.c (centre s.sj) jc (powers s.sj.l j)) D.out[comp] := by
  obtain ⟨has, h', hr, hv⟩ := C43_operators hG hD (O := O) hL hi hj hpos hli hlj hs M hsize A
  refine ⟨has, h', hr, fun comp ic jc i j hc h1 h2 h3 h4 => ?_⟩
  obtain ⟨v, hv1, hv2⟩ := hv comp ic jc i j hc h1 h2 h3 h4
  refine ⟨v, hv1, ?_⟩
  rw [hv2, op_val_cgto _ hpos]
  congr 1
  refine Finset.sum_congr rfl (fun jp hjp => Finset.sum_congr rfl (fun ip hip => ?_))
  rw [Finset.mem_range] at hjp hip
  rw [if_pos (hkept ip jp hip hjp)]

/-- **C43** Every generated integral has a definition: the catalogues have the same names, each once. -/
theorem C43_catalogue : Auto.all1e.map (·.1) = defs1e.map (·.1) ∧ (defs1e.map (·.1)).Nodup := ⟨all_names, names_nodup⟩

set_option maxRecDepth 100000 in
theorem shortcut_geo : (defs1e.all fun x => !decide (x.1 ∈ Auto.shortcut1e) || x.2.out.all fun P => P.all fun t => !decide (t.geo = [])) = true := by
  decide +kernel

/-- **C43**, the wrappers that return zeros when both shells are the same shell: the integral they skip is zero. -/
theorem C43_same_shell {name : String} {D : Def1e} (hD : (name, D) ∈ defs1e) (hs : name ∈ Auto.shortcut1e)
    (O A : Pt) (f g : Pt → ℝ) {P : Op} (hP : P ∈ D.out) : Op.val O A A f g P = 0 := by
  have h := List.all_eq_true.1 shortcut_geo _ hD
  simp only [Bool.or_eq_true, Bool.not_eq_true', decide_eq_false_iff_not, hs, not_true_eq_false, false_or] at h
  have h2 := List.all_eq_true.1 h _ hP
  unfold Op.val
  refine List.sum_eq_zero (fun x hx => ?_)
  obtain ⟨t, ht, rfl⟩ := List.mem_map.1 hx
  have h3 := List.all_eq_true.1 h2 t ht
  simp only [Bool.not_eq_true', decide_eq_false_iff_not] at h3
  unfold Term.val
  have : (t.geo.map fun k => A k - A k).prod = 0 := by
    rw [List.prod_eq_zero_iff]
    obtain ⟨k, l, hl⟩ := List.exists_cons_of_ne_nil h3
    rw [hl]; simp
  rw [this, zero_mul, Complex.ofReal_zero, mul_zero]

/-- **C43** int1e_spsp returns one number: the three components of `⟨σ·p f|σ·p g⟩` with a Pauli matrix vanish. -/
theorem C43_spsp_spin_part {a b : ℝ} (hab : 0 < a + b) (O A B : Pt) (n m : Fin 3 → ℕ) (k : Nat) (hk : k < 3) :
    Op.val O A B (gto a A n) (gto b B m) (({ spsp with spin := true } : Def1e).out.getD k []) = 0 := by
  have hv := op_val ⟨a, b, A, B, O, n, m⟩ hab (({ spsp with spin := true } : Def1e).out.getD k [])
  have hfull : ∀ (f : Term → Int) (P : Op), ∀ x ∈ P.map (fun t => (f t, termKey t)), x.2.Full := by
    intro f P x hx
    obtain ⟨t, _, rfl⟩ := List.mem_map.1 hx
    exact termKey_full t
  have hc : ∀ k : Fin 3, sameInt [] (opRe (({ spsp with spin := true } : Def1e).out.getD k [])) = true ∧
      sameInt [] (opIm (({ spsp with spin := true } : Def1e).out.getD k [])) = true := by decide +kernel
  obtain ⟨h1, h2⟩ := hc ⟨k, hk⟩
  have e1 := sameInt_val (parts_mu (S := ⟨a, b, A, B, O, n, m⟩) hab) (fun _ h => by cases h)
    (m := opRe (({ spsp with spin := true } : Def1e).out.getD k [])) (hfull _ _) h1
  have e2 := sameInt_val (parts_mu (S := ⟨a, b, A, B, O, n, m⟩) hab) (fun _ h => by cases h)
    (m := opIm (({ spsp with spin := true } : Def1e).out.getD k [])) (hfull _ _) h2
  rw [← e1, ← e2] at hv
  refine hv.trans ?_
  simp [sumVal]

/-! ### C25 -/

theorem integrable_act {O A B : Pt} {ni nj : ℕ} {ai ci aj cj : ℕ → ℝ} {n m : Fin 3 → ℕ} {ic jc : ℕ} (w v : Word)
    (h : ∀ ip jp, ip < ni → jp < nj → 0 < ai ip + aj jp) :
    Integrable fun r => Word.act O A w (cgto ni ai ci A ic n) r * Word.act O B v (cgto nj aj cj B jc m) r := by
  have hc : ∀ (np : ℕ) (a c : ℕ → ℝ) (R : Pt) (ic : ℕ) (n : Fin 3 → ℕ), cgto np a c R ic n =
      fun r => ∑ ip ∈ Finset.range np, c (np*ic+ip) * gP (a ip) R (fun k => (Polynomial.X - Polynomial.C (R k))^n k) r := by
    intro np a c R ic n
    funext r
    unfold cgto
    simp_rw [gto_gP]
  rw [hc, hc, act_sum, act_sum]
  simp_rw [Finset.sum_mul_sum]
  refine integrable_finsetSum _ (fun i hi => integrable_finsetSum _ (fun j hj => ?_))
  have := (integrable_gP (h i j (Finset.mem_range.1 hi) (Finset.mem_range.1 hj)) A B (fun k => wordE (ai i) (A k) (O k) (along k w)
    ((Polynomial.X - Polynomial.C (A k))^n k)) (fun k => wordE (aj j) (B k) (O k) (along k v)
    ((Polynomial.X - Polynomial.C (B k))^m k))).const_mul (ci (ni*ic+i) * cj (nj*jc+j))
  refine this.congr (Filter.Eventually.of_forall fun r => ?_)
  show _ = _
  ring

theorem laplacian_eq (O A : Pt) (f : Pt → ℝ) :
    laplacian f = fun r => ∑ k, Word.act O A [(.d, k), (.d, k)] f r := by
  funext r
  unfold laplacian
  refine Finset.sum_congr rfl (fun k _ => ?_)
  show _ = deriv (fun x => deriv (fun y => f (Function.update (Function.update r k x) k y)) (Function.update r k x k)) (r k)
  simp

theorem kin_out (O A B : Pt) (f g : Pt → ℝ) : kin.out.length = 1 ∧
    Op.val O A B f g (kin.out.getD 0 []) = ((-∑ k, braket f (Word.act O B [(.d, k), (.d, k)] g) : ℝ) : ℂ) := by
  refine ⟨by decide +kernel, ?_⟩
  have : kin.out.getD 0 [] = [⟨-1, 0, [], [], [(.d, 0), (.d, 0)]⟩, ⟨-1, 0, [], [], [(.d, 1), (.d, 1)]⟩,
    ⟨-1, 0, [], [], [(.d, 2), (.d, 2)]⟩] := by decide +kernel
  rw [this, Fin.sum_univ_three]
  unfold Op.val Term.val
  simp only [List.map_cons, List.map_nil, List.sum_cons, List.sum_nil, List.prod_nil]
  have hb : Word.act O A [] f = f := rfl
  rw [hb]
  push_cast
  ring

/-- **C25** int1e_kin_cart, no primitive pair screened: `-½ ∫ f ∇²g` for the two contracted functions. -/
theorem C25_kinetic {L : MathLib ℝ} {s : Call ℝ} {mi mj : Nat → ℝ} {h : Heap ℝ} {fpd buf size : Nat}
    {fl loc counts out : Ptr} {dims : Option Ptr} {nd : Nat → Nat} {O : Nat → ℝ} (hL : L.exp = Real.exp)
    (hi : MaxCoeff s.si mi) (hj : MaxCoeff s.sj mj)
    (hpos : ∀ ip jp, ip < s.si.nprim → jp < s.sj.nprim → 0 < s.si.a ip + s.sj.a jp)
    (hkept : ∀ ip jp, ip < s.si.nprim → jp < s.sj.nprim → Kept L s mi mj (s.si.l + (s.sj.l + 2)) ip jp)
    (hli : s.si.l ≤ 15) (hlj : s.sj.l ≤ 15)
    (hs : Sizes 2 (two (ncart s.si.l) (ncart s.sj.l)) (two s.si.nctr s.sj.nctr) nd)
    (M : CallMem h fpd buf size fl loc counts) (hsize : cacheSize1e (Auto.int1e_kin.int O) s ≤ size)
    (A : OutArg h nd (fun t => two (ncart s.si.l) (ncart s.sj.l) t * two s.si.nctr s.sj.nctr t) 1 out dims
      buf fl loc counts) :
    ∃ has h', run (drv1e (Auto.int1e_kin.int O) s realK L fpd (fun _ _ => pure) (two (ncart s.si.l) (ncart s.sj.l)) out dims
        buf 0 fl loc counts) h = some (has, h') ∧
      ∀ ic jc i j, ic < s.si.nctr → jc < s.sj.nctr → i < ncart s.si.l → j < ncart s.sj.l →
        h'.D (out + outAt nd 0 (ic*ncart s.si.l+i) (jc*ncart s.sj.l+j) 0 0) =
          .val (spNorm s.si.l * spNorm s.sj.l * (-(1/2) *
            braket (cgto s.si.nprim s.si.a s.si.c (centre s.si) ic (powers s.si.l i))
              (laplacian (cgto s.sj.nprim s.sj.a s.sj.c (centre s.sj) jc (powers s.sj.l j))))) := by
  have hG : ("int1e_kin", Auto.int1e_kin) ∈ Auto.all1e := by
    unfold Auto.all1e
    iterate 11 apply List.mem_cons_of_mem
    exact List.mem_cons_self
  have hD : ("int1e_kin", kin) ∈ defs1e := by
    unfold defs1e
    iterate 11 apply List.mem_cons_of_mem
    exact List.mem_cons_self
  have hlen : kin.out.length = 1 := by decide +kernel
  obtain ⟨has, h', hr, hv⟩ := C43_operators_exact hG hD (O := O) hL hi hj hpos hkept hli hlj hs M hsize
    (by rw [hlen]; exact A)
  refine ⟨has, h', hr, fun ic jc i j h1 h2 h3 h4 => ?_⟩
  obtain ⟨v, hv1, hv2⟩ := hv 0 ic jc i j (by rw [hlen]; exact Nat.zero_lt_one) h1 h2 h3 h4
  rw [hv1]
  congr 1
  have ho : kin.out[0]'(by rw [hlen]; exact Nat.zero_lt_one) = kin.out.getD 0 [] := by
    rw [List.getD_eq_getElem?_getD, List.getElem?_eq_getElem (by rw [hlen]; exact Nat.zero_lt_one)]; rfl
  rw [ho, (kin_out _ _ _ _ _).2] at hv2
  apply Complex.ofReal_injective
  rw [hv2, laplacian_eq (fun k => O k) (centre s.sj)]
  have hb : ∀ f g : Pt → ℝ, (∀ k, Integrable fun r => f r * Word.act (fun k => O k) (centre s.sj) [(.d, k), (.d, k)] g r) →
      braket f (fun r => ∑ k, Word.act (fun k => O k) (centre s.sj) [(.d, k), (.d, k)] g r) =
        ∑ k, braket f (Word.act (fun k => O k) (centre s.sj) [(.d, k), (.d, k)] g) := by
    intro f g hfg
    unfold braket
    simp_rw [Finset.mul_sum]
    exact integral_finsetSum _ (fun k _ => hfg k)
  rw [hb _ _ (fun k => by exact integrable_act (O := fun k => O k) [] [(.d, k), (.d, k)] hpos)]
  show (((1 : Int) : ℂ) / ((2 : Nat) : ℂ)) * _ * _ = _
  push_cast
  ring

/-! ### The hypotheses can be met -/
namespace OperDemo
open OvlpDemo

theorem kept' (l ip jp : Nat) (hl : l ≠ 0) : Kept lib call (fun _ => 1) (fun _ => 1) l ip jp := by
  unfold Kept est pairEstimate logBound prodExponent setijCutoff rr2 lib call
  simp only [sub_zero, mul_zero, add_zero, if_true, Real.sqrt_zero, zero_add, Real.log_one, lt_self_iff_false,
    if_false]
  rw [if_neg hl]
  have h2 : (1:ℝ) + 1 = 2 := by norm_num
  rw [h2]
  have := Real.log_le_sub_one_of_pos (show (0:ℝ) < 2 by norm_num)
  linarith

/-- the kinetic energy of the second contraction of p_y with the first contraction of d_xz -/
example : ∃ has h', run (drv1e (Auto.int1e_kin.int fun _ => 0) call realK lib 2 (fun _ _ => pure) (two (ncart 1) (ncart 2))
    ⟨5, 0⟩ none 0 0 ⟨1, 0⟩ ⟨2, 0⟩ ⟨3, 0⟩) blank = some (has, h') ∧
    h'.D ((⟨5, 0⟩ : Ptr) + outAt (two 6 12) 0 (1*3+1) (0*6+2) 0 0) = .val (spNorm 1 * spNorm 2 * (-(1/2) *
      braket (cgto 2 (fun _ => 1) (fun _ => 1) (fun _ => 0) 1 (powers 1 1))
        (laplacian (cgto 2 (fun _ => 1) (fun _ => 1) (fun _ => 0) 0 (powers 2 2))))) := by
  obtain ⟨has, h', h1, h2⟩ := C25_kinetic (L := lib) (s := call) (O := fun _ => 0) rfl maxc.1 maxc.2
    (fun _ _ _ _ => by show (0:ℝ) < 1 + 1; norm_num) (fun ip jp _ _ => kept' _ ip jp (by decide)) (by decide) (by decide) sizes
    (mem _) (le_refl _) outArg
  exact ⟨has, h', h1, h2 1 0 1 2 (by decide) (by decide) (by decide) (by decide)⟩

/-- the three components of int1e_govlp for two functions at the same centre -/
example (O A : Pt) (f g : Pt → ℝ) : govlp.out.length = 3 ∧ ∀ P ∈ govlp.out, Op.val O A A f g P = 0 :=
  ⟨by decide +kernel, fun _ hP => C43_same_shell (name := "int1e_govlp") (by unfold defs1e; simp) (by unfold Auto.shortcut1e; simp) O A f g hP⟩

/-- an s function and a p function: the σ_y part of σ·p … σ·p -/
example : Op.val (fun _ => 0) (fun _ => 0) ![0, 1, 2] (gto 1 (fun _ => 0) (fun _ => 0)) (gto 2 ![0, 1, 2] ![0, 0, 1])
    (({ spsp with spin := true } : Def1e).out.getD 1 []) = 0 :=
  C43_spsp_spin_part (by norm_num) _ _ _ _ _ 1 (by decide)
end OperDemo

end Verif.Props
