import Verif.Lemmas.OperVEval
import Verif.Props.Oper

/-!
C50 — the generated one-electron integrals with the potential of one charge or of all the nuclei are the integrals of the
operators they are named after.
-/
namespace Verif.Props
open Verif Verif.Model Verif.Prog Verif.Lemmas Verif.Spec MeasureTheory

set_option maxRecDepth 100000 in
/-- every generated program against the definition of the same name -/
theorem all_matchV : ((AutoNuc.allV.zip defsV).all fun x => decide (x.1.1 = x.2.1) && matchesV x.1.2.2 x.2.2.2) = true := by
  decide +kernel

theorem all_namesV : AutoNuc.allV.map (fun x => (x.1, x.2.1)) = defsV.map (fun x => (x.1, x.2.1)) := by decide +kernel

theorem names_nodupV : (defsV.map (·.1)).Nodup := by decide +kernel

theorem all_namesV1 : AutoNuc.allV.map (·.1) = defsV.map (·.1) := by
  have := congrArg (List.map Prod.fst) all_namesV
  rw [List.map_map, List.map_map] at this
  exact this

theorem matchesV_of {name : String} {b b' : Bool} {G : Gen1e} {D : Def1e} (hG : (name, b, G) ∈ AutoNuc.allV)
    (hD : (name, b', D) ∈ defsV) : b = b' ∧ matchesV G D = true := by
  obtain ⟨i, hi, ei⟩ := List.mem_iff_getElem.1 hG
  obtain ⟨j, hj, ej⟩ := List.mem_iff_getElem.1 hD
  have hlen : AutoNuc.allV.length = defsV.length := by
    have := congrArg List.length all_namesV; simpa using this
  have e1 : (defsV.map (·.1))[i]'(by simp; omega) = name := by
    have : (AutoNuc.allV.map (·.1))[i]'(by simp; omega) = name := by rw [List.getElem_map, ei]
    rw [← this]
    exact (List.getElem_of_eq all_namesV1 _).symm
  have e2 : (defsV.map (·.1))[j]'(by simp; omega) = name := by rw [List.getElem_map, ej]
  have hij : i = j := (List.Nodup.getElem_inj_iff names_nodupV).1 (e1.trans e2.symm)
  subst hij
  have hz : (AutoNuc.allV.zip defsV)[i]'(by rw [List.length_zip]; omega) = ((name, b, G), (name, b', D)) := by
    rw [List.getElem_zip, ei, ej]
  have := List.all_eq_true.1 all_matchV _ (List.getElem_mem (by rw [List.length_zip]; omega : i < (AutoNuc.allV.zip defsV).length))
  rw [hz] at this
  refine ⟨?_, by simpa using this⟩
  have h3 : (AutoNuc.allV.map (fun x => (x.1, x.2.1)))[i]'(by simp; omega) = (name, b) := by rw [List.getElem_map, ei]
  have h4 : (defsV.map (fun x => (x.1, x.2.1)))[i]'(by simp; omega) = (name, b') := by rw [List.getElem_map, ej]
  have h5 := h3.symm.trans ((List.getElem_of_eq all_namesV _).trans h4)
  exact (Prod.mk.inj h5).2

/-- what `matchesV` checks -/
theorem matchesV_unfold {G : Gen1e} {D : Def1e} (h : matchesV G D = true) :
    ∃ ws, Gen1e.OKV G ws ∧ G.num = D.num ∧ G.den = D.den ∧ G.den ≠ 0 ∧ G.nComp = D.out.length ∧
      ∀ k, k < G.nComp → sameSum (progSum ws (G.flat.comps.getD k [])) (opRe (D.out.getD k [])) = true ∧
        sameSum [] (opIm (D.out.getD k [])) = true := by
  unfold matchesV at h
  cases hs : runWords ![G.ng.i, G.ng.j, 0, 0] (2^G.gbits + 1) G.prog with
  | none => rw [hs] at h; cases h
  | some ws =>
    rw [hs] at h
    dsimp only at h
    rw [Bool.and_eq_true, Bool.and_eq_true, Bool.and_eq_true, Bool.and_eq_true, decide_eq_true_eq] at h
    obtain ⟨⟨⟨⟨⟨h1, h2, h3, h4, h5, h6, h7, h8, h9⟩, h10⟩, hlen⟩, h11⟩, h12⟩ := h
    refine ⟨ws, ⟨hs, h3, ⟨h1, h2⟩, h10, ?_, h9, h7, ?_⟩, h4, h5, h6, h8, ?_⟩
    · intro W hW
      simpa using List.all_eq_true.1 hlen W hW
    · intro c hc t ht
      have := List.all_eq_true.1 (List.all_eq_true.1 h11 c hc) t ht
      rw [Bool.and_eq_true, decide_eq_true_eq, List.all_eq_true] at this
      exact ⟨this.1, fun n hn => by simpa using this.2 n hn⟩
    · intro k hk
      have k1 : k < G.flat.comps.length := by rw [G.flat_length]; omega
      have k2 : k < D.out.length := by omega
      have kz : k < (G.flat.comps.zip D.out).length := by rw [List.length_zip, G.flat_length]; omega
      have := List.all_eq_true.1 h12 _ (List.getElem_mem kz)
      rw [List.getElem_zip] at this
      dsimp only at this
      rw [Bool.and_eq_true] at this
      rw [List.getD_eq_getElem?_getD, List.getElem?_eq_getElem k1, List.getD_eq_getElem?_getD, List.getElem?_eq_getElem k2]
      exact this

/-- the potential of a call: `1/|r - C|` (of a Gaussian charge if `zeta > 0`), or the attraction of all the nuclei -/
noncomputable def potOf : NucCall ℝ → Pt → ℝ
  | .rinv z r => potential z (fun k => r k)
  | .nuc atoms => attraction atoms

/-- the potential of an integral: with `nuc` the attraction of all the nuclei, else `1/|r - c|` (of a Gaussian charge if
`z > 0`) -/
noncomputable def potV (nuc : Bool) (z : ℝ) (c : Pt) (atoms : List (Atom ℝ)) : Pt → ℝ :=
  if nuc then attraction atoms else potential z c

theorem potOf_ofType (b : Bool) (z : ℝ) (c : Nat → ℝ) (atoms : List (Atom ℝ)) :
    potOf (.ofType b z c atoms) = potV b z (fun k => c k) atoms := by
  cases b <;> rfl

theorem srcPotential_pot (N : NucCall ℝ) : srcPotential N.srcs = potOf N := by
  cases N with
  | nuc atoms => exact srcPotential_nuc atoms
  | rinv z r =>
    funext x
    unfold srcPotential potOf NucCall.srcs rinvSrc
    simp

/-- the primitive integral behind the value computed -/
theorem gen_primV {G : Gen1e} {ws} {D : Def1e} {L : MathLib ℝ} {s : Call ℝ} {mi mj : Nat → ℝ} {ip jp : Nat} {O : Nat → ℝ}
    {R : Rys ℝ} {N : NucCall ℝ}
    {comp i j : Nat} (hL : L.exp = Real.exp) (hi : MaxCoeff s.si mi) (hj : MaxCoeff s.sj mj)
    (hip : ip < s.si.nprim) (hjp : jp < s.sj.nprim) (h0 : 0 < s.si.a ip + s.sj.a jp)
    (hk : Kept L s mi mj (s.si.l + G.ng.i + (s.sj.l + G.ng.j)) ip jp)
    (hm : sameSum (progSum ws (G.flat.comps.getD comp [])) (opRe (D.out.getD comp [])) = true)
    (hm' : sameSum [] (opIm (D.out.getD comp [])) = true) (hc : comp < G.nComp) (hii : i < ncart s.si.l) :
    Op.valV (potOf N) (fun k => O k) (centre s.si) (centre s.sj) (gto (s.si.a ip) (centre s.si) (powers s.si.l i))
        (gto (s.sj.a jp) (centre s.sj) (powers s.sj.l j)) (D.out.getD comp []) =
      ((pairVal L (s.pairArgs (G.intV R N O)) ip jp 3 * ((N.srcs.map fun S => genVal1 G ws L R N O s S ip jp).map fun w =>
        w ((j*ncart s.si.l+i)*G.nComp + comp)).sum : ℝ) : ℂ) := by
  obtain ⟨p1, p2⟩ := pair_kept (X := G.intV R N O) hL hi hj hip hjp h0 hk
  let S : PairOf := { a := s.si.a ip, b := s.sj.a jp, A := centre s.si, B := centre s.sj, O := fun k => O k,
                      n := powers s.si.l i, m := powers s.sj.l j }
  have hv := op_valV S h0 N.srcs (D.out.getD comp [])
  have him : sumVal (S.keyV (srcInt N.srcs (S.a+S.b) S.cen)) (opIm (D.out.getD comp [])) = 0 := by
    rw [← sameSum_val hm']
    rfl
  rw [him, mul_zero, Complex.ofReal_zero, mul_zero, add_zero, ← sameSum_val hm, srcPotential_pot] at hv
  refine hv.trans ?_
  congr 1
  rw [p1]
  congr 1
  rw [List.map_map, ← srcInt_keys]
  congr 1
  refine List.map_congr_left (fun Sr _ => ?_)
  unfold genVal1 Function.comp
  have hd : ((j*ncart s.si.l+i)*G.nComp + comp) / G.nComp = j*ncart s.si.l+i ∧
      ((j*ncart s.si.l+i)*G.nComp + comp) % G.nComp = comp := ⟨(digit hc).1, (digit hc).2⟩
  dsimp only
  rw [hd.1, hd.2, (digit hii).1, (digit hii).2]
  have hcen : S.cen = fun k : Fin 3 => pairVal L (s.pairArgs (G.intV R N O)) ip jp k := by
    funext k
    rw [p2 k k.isLt]
    rfl
  rw [hcen]
  rfl

/-- **C50** Every integral of the catalogue `AutoNuc.allV` (the integrals of src/autocode with the potential of one charge, or
of all the nuclei), any shells with positive exponents and angular momenta up to ANG_MAX, any position and charge model, any
contents of memory: component `comp` of the element for functions `(ic,i)`, `(jc,j)` is the factor of the definition times the
contraction, over all primitive pairs that survive the screening, of the integrals of the potential between the functions the
operators have acted on.  The root finder is assumed to return the roots and weights of Rys quadrature. -/
theorem C50_potential {name : String} {b b' : Bool} {G : Gen1e} {D : Def1e} (hG : (name, b, G) ∈ AutoNuc.allV)
    (hD : (name, b', D) ∈ defsV)
    {L : MathLib ℝ} {s : Call ℝ} {mi mj : Nat → ℝ} {h : Heap ℝ} {fpd buf size : Nat}
    {fl loc counts out : Ptr} {dims : Option Ptr} {nd : Nat → Nat} {O : Nat → ℝ} {R : Rys ℝ} {z : ℝ} {c : Nat → ℝ}
    {atoms : List (Atom ℝ)}
    (hL : L.exp = Real.exp) (hi : MaxCoeff s.si mi) (hj : MaxCoeff s.sj mj)
    (hpos : ∀ ip jp, ip < s.si.nprim → jp < s.sj.nprim → 0 < s.si.a ip + s.sj.a jp)
    (hN : b = true → atoms ≠ []) (hR : RysOK R ((s.si.l + G.ng.i + (s.sj.l + G.ng.j))/2 + 1))
    (hli : s.si.l ≤ 15) (hlj : s.sj.l ≤ 15)
    (hs : Sizes 2 (two (ncart s.si.l) (ncart s.sj.l)) (two s.si.nctr s.sj.nctr) nd)
    (M : CallMem h fpd buf size fl loc counts) (hsize : cacheSize1e (G.intV R (.ofType b z c atoms) O) s ≤ size)
    (A : OutArg h nd (fun t => two (ncart s.si.l) (ncart s.sj.l) t * two s.si.nctr s.sj.nctr t) D.out.length out dims
      buf fl loc counts) :
    ∃ has h', run (drv1e (G.intV R (.ofType b z c atoms) O) s realK L fpd (fun _ _ => pure) (two (ncart s.si.l) (ncart s.sj.l)) out dims
        buf 0 fl loc counts) h = some (has, h') ∧
      ∀ comp ic jc i j (hc : comp < D.out.length), ic < s.si.nctr → jc < s.sj.nctr → i < ncart s.si.l → j < ncart s.sj.l →
        ∃ v : ℝ, h'.D (out + outAt nd comp (ic*ncart s.si.l+i) (jc*ncart s.sj.l+j) 0 0) = .val v ∧
          (v : ℂ) = ((D.num : ℂ) / (D.den : ℂ)) * ((spNorm s.si.l * spNorm s.sj.l : ℝ) : ℂ) *
            ∑ jp ∈ Finset.range s.sj.nprim, ∑ ip ∈ Finset.range s.si.nprim,
              ((s.sj.c (s.sj.nprim*jc+jp) : ℝ) : ℂ) * (((s.si.c (s.si.nprim*ic+ip) : ℝ) : ℂ) *
                open Classical in if Kept L s mi mj (s.si.l + G.ng.i + (s.sj.l + G.ng.j)) ip jp then
                  Op.valV (potV b' z (fun k => c k) atoms) (fun k => O k) (centre s.si) (centre s.sj) (gto (s.si.a ip) (centre s.si) (powers s.si.l i))
                    (gto (s.sj.a jp) (centre s.sj) (powers s.sj.l j)) D.out[comp] else 0) := by
  obtain ⟨ws, hOK, hnum, hden, hd0, hnc, hcomp⟩ := matchesV_unfold (matchesV_of hG hD).2
  obtain rfl := (matchesV_of hG hD).1
  rw [← potOf_ofType]
  have hN' : (NucCall.ofType b z c atoms).srcs ≠ [] := by
    cases b with
    | false => exact List.cons_ne_nil _ _
    | true => exact fun h => hN rfl (List.map_eq_nil_iff.1 h)
  rw [← hnc] at A
  obtain ⟨has, h', hr, hv, _⟩ := drv1e_cart M hsize hs A (gen_evalV hOK (L := L) hpos hN' hR) (Nat.pos_of_ne_zero hOK.pos) hli hlj
  refine ⟨has, h', hr, fun comp ic jc i j hc h1 h2 h3 h4 => ⟨_, hv comp ic jc i j (by rw [← hnc] at hc; exact hc) h1 h2 h3 h4, ?_⟩⟩
  unfold loopVal contract2
  rw [spNorm_eq, spNorm_eq]
  have hcom : ((G.intV R (.ofType b z c atoms) O).common : ℝ) = (D.num : ℝ) / (D.den : ℝ) := by rw [← hnum, ← hden]; rfl
  rw [hcom]
  push_cast
  rw [← mul_assoc ((D.num : ℂ) / (D.den : ℂ))]
  congr 1
  refine Finset.sum_congr rfl (fun jp hjp => Finset.sum_congr rfl (fun ip hip => ?_))
  rw [Finset.mem_range] at hjp hip
  rw [mul_assoc]
  congr 2
  by_cases hk : Kept L s mi mj (s.si.l + G.ng.i + (s.sj.l + G.ng.j)) ip jp
  · rw [if_pos hk]
    have hc' : comp < G.nComp := by omega
    have := gen_primV (j := j) (O := O) (R := R) (N := .ofType b z c atoms) hL hi hj hip hjp (hpos ip jp hip hjp) hk (hcomp comp hc').1
      (hcomp comp hc').2 hc' h3
    rw [List.getD_eq_getElem?_getD, List.getElem?_eq_getElem hc] at this
    exact (by rw [← Complex.ofReal_mul]; exact this.symm)
  · rw [if_neg hk, pair_dropped (X := G.intV R (.ofType b z c atoms) O) hi hj hip hjp hk, Complex.ofReal_zero, zero_mul]

/-- **C50**, no primitive pair screened: exactly the integral over the two contracted functions. -/
theorem C50_potential_exact {name : String} {b b' : Bool} {G : Gen1e} {D : Def1e} (hG : (name, b, G) ∈ AutoNuc.allV)
    (hD : (name, b', D) ∈ defsV)
    {L : MathLib ℝ} {s : Call ℝ} {mi mj : Nat → ℝ} {h : Heap ℝ} {fpd buf size : Nat}
    {fl loc counts out : Ptr} {dims : Option Ptr} {nd : Nat → Nat} {O : Nat → ℝ} {R : Rys ℝ} {z : ℝ} {c : Nat → ℝ}
    {atoms : List (Atom ℝ)}
    (hL : L.exp = Real.exp) (hi : MaxCoeff s.si mi) (hj : MaxCoeff s.sj mj)
    (hpos : ∀ ip jp, ip < s.si.nprim → jp < s.sj.nprim → 0 < s.si.a ip + s.sj.a jp)
    (hkept : ∀ ip jp, ip < s.si.nprim → jp < s.sj.nprim →
      Kept L s mi mj (s.si.l + G.ng.i + (s.sj.l + G.ng.j)) ip jp)
    (hN : b = true → atoms ≠ []) (hR : RysOK R ((s.si.l + G.ng.i + (s.sj.l + G.ng.j))/2 + 1))
    (hli : s.si.l ≤ 15) (hlj : s.sj.l ≤ 15)
    (hs : Sizes 2 (two (ncart s.si.l) (ncart s.sj.l)) (two s.si.nctr s.sj.nctr) nd)
    (M : CallMem h fpd buf size fl loc counts) (hsize : cacheSize1e (G.intV R (.ofType b z c atoms) O) s ≤ size)
    (A : OutArg h nd (fun t => two (ncart s.si.l) (ncart s.sj.l) t * two s.si.nctr s.sj.nctr t) D.out.length out dims
      buf fl loc counts) :
    ∃ has h', run (drv1e (G.intV R (.ofType b z c atoms) O) s realK L fpd (fun _ _ => pure) (two (ncart s.si.l) (ncart s.sj.l)) out dims
        buf 0 fl loc counts) h = some (has, h') ∧
      ∀ comp ic jc i j (hc : comp < D.out.length), ic < s.si.nctr → jc < s.sj.nctr → i < ncart s.si.l → j < ncart s.sj.l →
        ∃ v : ℝ, h'.D (out + outAt nd comp (ic*ncart s.si.l+i) (jc*ncart s.sj.l+j) 0 0) = .val v ∧
          (v : ℂ) = ((D.num : ℂ) / (D.den : ℂ)) * ((spNorm s.si.l * spNorm s.sj.l : ℝ) : ℂ) *
            Op.valV (potV b' z (fun k => c k) atoms) (fun k => O k) (centre s.si) (centre s.sj)
              (cgto s.si.nprim s.si.a s.si.c (centre s.si) ic (powers s.si.l i))
              (cgto s.sj.nprim s.sj.a s.sj.c (centre s.sj) jc (powers s.sj.l j)) D.out[comp] := by
  obtain ⟨has, h', hr, hv⟩ := C50_potential hG hD (O := O) hL hi hj hpos hN hR hli hlj hs M hsize A
  refine ⟨has, h', hr, fun comp ic jc i j hc h1 h2 h3 h4 => ?_⟩
  obtain ⟨v, hv1, hv2⟩ := hv comp ic jc i j hc h1 h2 h3 h4
  refine ⟨v, hv1, ?_⟩
  obtain rfl := (matchesV_of hG hD).1
  rw [hv2, ← potOf_ofType, ← srcPotential_pot, op_valV_cgto _ _ hpos]
  congr 1
  refine Finset.sum_congr rfl (fun jp hjp => Finset.sum_congr rfl (fun ip hip => ?_))
  rw [Finset.mem_range] at hjp hip
  rw [if_pos (hkept ip jp hip hjp)]

/-- **C50** Every generated integral has a definition: the catalogues have the same names with the same kind of potential, each
name once. -/
theorem C50_catalogue : AutoNuc.allV.map (fun x => (x.1, x.2.1)) = defsV.map (fun x => (x.1, x.2.1)) ∧
    (defsV.map (·.1)).Nodup := ⟨all_namesV, names_nodupV⟩

set_option maxRecDepth 100000 in
theorem shortcut_geoV : (defsV.all fun x => !decide (x.1 ∈ AutoNuc.shortcutV) ||
    x.2.2.out.all fun P => P.all fun t => !decide (t.geo = [])) = true := by
  decide +kernel

/-- **C50**, the wrappers that return zeros when both shells are the same shell: the integral they skip is zero. -/
theorem C50_same_shell {name : String} {b : Bool} {D : Def1e} (hD : (name, b, D) ∈ defsV) (hs : name ∈ AutoNuc.shortcutV)
    (V : Pt → ℝ) (O A : Pt) (f g : Pt → ℝ) {P : Op} (hP : P ∈ D.out) : Op.valV V O A A f g P = 0 := by
  have h := List.all_eq_true.1 shortcut_geoV _ hD
  simp only [Bool.or_eq_true, Bool.not_eq_true', decide_eq_false_iff_not, hs, not_true_eq_false, false_or] at h
  have h2 := List.all_eq_true.1 h _ hP
  unfold Op.valV
  refine List.sum_eq_zero (fun x hx => ?_)
  obtain ⟨t, ht, rfl⟩ := List.mem_map.1 hx
  have h3 := List.all_eq_true.1 h2 t ht
  simp only [Bool.not_eq_true', decide_eq_false_iff_not] at h3
  unfold Term.valV
  have : (t.geo.map fun k => A k - A k).prod = 0 := by
    rw [List.prod_eq_zero_iff]
    obtain ⟨k, l, hl⟩ := List.exists_cons_of_ne_nil h3
    rw [hl]; simp
  rw [this, zero_mul, Complex.ofReal_zero, mul_zero]

/-! ### The hypotheses can be met -/
namespace OperVDemo
open OvlpDemo

/-- int1e_ipnuc with three nuclei of different kinds: `⟨∂_y f|V|g⟩` for the second contraction of p_y with the first
contraction of d_xz -/
example : ∃ R : Rys ℝ, ∃ has h', run (drv1e (AutoNuc.int1e_ipnuc.intV R (.ofType true 0 (fun _ => 0) NucDemo.atoms) fun _ => 0) call
    realK lib 2 (fun _ _ => pure) (two (ncart 1) (ncart 2)) ⟨5, 0⟩ none 0 0 ⟨1, 0⟩ ⟨2, 0⟩ ⟨3, 0⟩) blank = some (has, h') ∧
    h'.D ((⟨5, 0⟩ : Ptr) + outAt (two 6 12) 1 (1*3+1) (0*6+2) 0 0) = .val (spNorm 1 * spNorm 2 *
      braketV (attraction NucDemo.atoms)
        (Word.act (fun _ => 0) (fun _ => 0) [(.d, 1)] (cgto 2 (fun _ => 1) (fun _ => 1) (fun _ => 0) 1 (powers 1 1)))
        (cgto 2 (fun _ => 1) (fun _ => 1) (fun _ => 0) 0 (powers 2 2))) := by
  obtain ⟨R, hR⟩ := NucDemo.rys
  have hG : ("int1e_ipnuc", true, AutoNuc.int1e_ipnuc) ∈ AutoNuc.allV := by
    unfold AutoNuc.allV
    iterate 8 apply List.mem_cons_of_mem
    exact List.mem_cons_self
  have hD : ("int1e_ipnuc", true, PotDefs.ipv) ∈ defsV := by
    unfold defsV
    iterate 8 apply List.mem_cons_of_mem
    exact List.mem_cons_self
  have hlen : PotDefs.ipv.out.length = 3 := by decide +kernel
  obtain ⟨has, h', h1, h2⟩ := C50_potential_exact hG hD (L := lib) (s := call) (O := fun _ => 0) (R := R) (z := 0) (c := fun _ => 0)
    (atoms := NucDemo.atoms) (h := blank) (out := ⟨5, 0⟩) (dims := none) (nd := two 6 12) rfl maxc.1 maxc.2
    (fun _ _ _ _ => by show (0:ℝ) < 1 + 1; norm_num) (fun ip jp _ _ => OperDemo.kept' _ ip jp (by decide))
    (fun _ => by unfold NucDemo.atoms; simp) (hR _) (by decide) (by decide) sizes
    (mem _) (le_refl _) ⟨outArg.h_dims, outArg.h_dims2, outArg.h_dbuf, fun m _ => by simp [blank], by decide⟩
  refine ⟨R, has, h', h1, ?_⟩
  obtain ⟨v, e1, e2⟩ := h2 1 1 0 1 2 (by rw [hlen]; decide) (by decide) (by decide) (by decide) (by decide)
  refine e1.trans (congrArg Cell.val (Complex.ofReal_injective (e2.trans ?_)))
  have ho : PotDefs.ipv.out[1]'(by rw [hlen]; decide) = [⟨1, 0, [], [(.d, 1)], []⟩] := by
    have : PotDefs.ipv.out.getD 1 [] = [⟨1, 0, [], [(.d, 1)], []⟩] := by decide +kernel
    rw [List.getD_eq_getElem?_getD, List.getElem?_eq_getElem (by rw [hlen]; decide)] at this
    exact this
  rw [ho]
  unfold Op.valV Term.valV
  simp only [List.map_cons, List.map_nil, List.sum_cons, List.sum_nil, List.prod_nil]
  show (((1 : Int) : ℂ) / ((1 : Nat) : ℂ)) * ((spNorm 1 * spNorm 2 : ℝ) : ℂ) * ((((1 : Int) : ℂ) + Complex.I * ((0 : Int) : ℂ)) * _ + 0) = _
  push_cast
  rw [mul_zero, add_zero, add_zero, one_mul, one_mul, div_one, one_mul]
  rfl

/-- the components of int1e_gnuc for two functions at the same centre -/
example (V : Pt → ℝ) (O A : Pt) (f g : Pt → ℝ) : PotDefs.gv.out.length = 3 ∧ ∀ P ∈ PotDefs.gv.out, Op.valV V O A A f g P = 0 :=
  ⟨by decide +kernel, fun _ hP => C50_same_shell (name := "int1e_gnuc") (b := true) (by unfold defsV; simp)
    (by unfold AutoNuc.shortcutV; simp) V O A f g hP⟩

end OperVDemo

end Verif.Props
