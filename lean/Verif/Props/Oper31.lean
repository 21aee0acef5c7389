import Verif.Lemmas.Oper31
import Verif.Lemmas.Oper31Match
import Verif.Props.Oper3

/-!
C54 — the generated one-electron integrals over three functions are the integrals of the product of the functions the operators they
are named after have acted on (times the potential of the charge for iprinv).
-/
namespace Verif.Props
open Verif Verif.Model Verif.Prog Verif.Lemmas Verif.Spec MeasureTheory Polynomial

/-- what stands between the functions: the potential of the charge at `orig` with width `zeta`, or nothing -/
noncomputable def between (rinv : Bool) (zeta : ℝ) (orig : Nat → ℝ) : Pt → ℝ :=
  if rinv then potential zeta (fun k => orig k) else fun _ => 1

theorem between_eq (rinv : Bool) (zeta : ℝ) (orig : Nat → ℝ) : between rinv zeta orig = opPot (opOf31 rinv zeta orig) := by
  cases rinv <;> rfl

theorem between_eq' (rinv : Bool) (zeta : ℝ) (orig : Nat → ℝ) : between rinv zeta orig = opPotential (opOf31 rinv zeta orig) := by
  cases rinv <;> rfl

theorem matches31_unfold {x : Bool × Gen2e} {y : Bool × Def2e} (h : matches31 x y = true) :
    matches2e x.2 y.2 = true ∧ (x.2.ng.l = 0 ∧ x.2.prog.more = []) ∧ (∀ P ∈ y.2.out, ∀ t ∈ P, Lone t) ∧ x.1 = y.1 := by
  unfold matches31 at h
  rw [Bool.and_eq_true, Bool.and_eq_true, Bool.and_eq_true, beq_iff_eq, List.isEmpty_iff] at h
  obtain ⟨⟨⟨h1, h2⟩, h3⟩, h4⟩ := h
  unfold onThree at h2
  rw [Bool.and_eq_true, decide_eq_true_eq] at h2
  refine ⟨h1, ⟨h2.1, h4⟩, fun P hP t ht => ?_, h3⟩
  have := List.all_eq_true.1 (List.all_eq_true.1 h2.2 P hP) t ht
  rw [Bool.and_eq_true, List.isEmpty_iff, List.isEmpty_iff] at this
  exact this

theorem matches31_of {name : String} {b b' : Bool} {G : Gen2e} {D : Def2e} (hG : (name, b, G) ∈ Auto3c1e.all31)
    (hD : (name, b', D) ∈ defs31) (hn : name ≠ "int3c1e_ip1_r6_origk") : matches31 (b, G) (b', D) = true :=
  all_match31 _ (zip_of_name all_names31 names_nodup31 hG hD) hn

/-- the root finder returns the roots and weights of Rys quadrature for the number of roots this call needs -/
theorem eval31g {L : MathLib ℝ} {s : Call3 ℝ} {R : Rys ℝ} {op : Op3c1e ℝ} {G : Gen2e} {O : Nat → ℝ} {ws} (hG : Gen2e.OK G ws)
    (hGl : G.ng.l = 0 ∧ G.prog.more = []) (hp : PosExp31 s) (hR : RysOK R (s.env1 (G.int31 O)).nrys_roots) :
    EvalOK1 R realK L op (G.int31 O) s (fun _ _ _ => true) (w31 G ws O op s) := by
  refine evalOK_31 hG hGl hp fun ip jp kp h1 h2 h3 => ?_
  cases op with
  | ovlp => trivial
  | rinv zeta orig => exact hR _ (nucX_nonneg (hp ip jp kp h1 h2 h3) _ _)

/-- the operator of a component between three primitive functions of a call -/
noncomputable def primVal31 (V : Pt → ℝ) (s : Call3 ℝ) (O : Nat → ℝ) (P : Op2) (i j k ip jp kp : Nat) : ℂ :=
  Op2.val31 V (fun c => O c) (centre s.si) (centre s.sj) (centre s.sk)
    (gto (s.si.a ip) (centre s.si) (powers s.si.l i)) (gto (s.sj.a jp) (centre s.sj) (powers s.sj.l j))
    (gto (s.sk.a kp) (centre s.sk) (powers s.sk.l k)) P

theorem gen_prim31 {G : Gen2e} {ws} {P : Op2} {s : Call3 ℝ} {ip jp kp : Nat} {O : Nat → ℝ} {op : Op3c1e ℝ}
    {comp i j k : Nat} (hp : PosExp31 s) (hip : ip < s.si.nprim) (hjp : jp < s.sj.nprim) (hkp : kp < s.sk.nprim)
    (hm : sameQ (progSum2 ws (G.flat.comps.getD comp [])) (opRe2 P) = true) (hm' : zeroQ (opIm2 P) = true)
    (hP : ∀ t ∈ P, Lone t) (hc : comp < G.nComp) (h1 : i < ncart s.si.l) (h3 : k < ncart s.sk.l) :
    primVal31 (opPot op) s O P i j k ip jp kp =
      ((Real.exp (-tripleExponent (s.si.a ip) (s.sj.a jp) (s.sk.a kp) (centre s.si) (centre s.sj) (centre s.sk)) *
        w31 G ws O op s ip jp kp (pos4c (ncar (Call3.ls s)) i j k 0 * G.nComp + comp) * (Real.sqrt Real.pi * Real.pi) : ℝ) : ℂ) := by
  have hpi : (Real.sqrt Real.pi * Real.pi) ≠ 0 := by positivity
  have hx : pos4c (ncar (Call3.ls s)) i j k 0 = (j*ncart s.sk.l + k)*ncart s.si.l + i := by
    unfold pos4c ncar
    show i + ncart s.si.l * (k + ncart s.sk.l * (0 + ncart 0 * j)) = _
    rw [ncart_zero]
    ring
  have qi : ∀ c, i4 (s.env1 (G.int31 O)) c (pos4c (ncar (Call3.ls s)) i j k 0) = pw s.si.l c i := by
    intro c
    rw [hx]
    show pw s.si.l c (_ % ncart s.si.l) = _
    rw [(digit h1).2]
  have qk : ∀ c, k4 (s.env1 (G.int31 O)) c (pos4c (ncar (Call3.ls s)) i j k 0) = pw s.sk.l c k := by
    intro c
    rw [hx]
    show pw s.sk.l c (_ / ncart s.si.l % ncart s.sk.l) = _
    rw [(digit h1).1, (digit h3).2]
  have qj : ∀ c, j4 (s.env1 (G.int31 O)) c (pos4c (ncar (Call3.ls s)) i j k 0) = pw s.sj.l c j := by
    intro c
    rw [hx]
    show pw s.sj.l c (_ / ncart s.si.l / ncart s.sk.l / 1) = _
    rw [(digit h1).1, (digit h3).1, Nat.div_one]
  unfold w31 genW31
  rw [(digit hc).1, (digit hc).2, sameQ_val hm]
  simp only [qi, qj, qk]
  let S : PairOf := { a := s.si.a ip, b := s.sj.a jp, A := centre s.si, B := centre s.sj, O := fun c => O c,
                      n := powers s.si.l i, m := powers s.sj.l j }
  let T : PairOf := { a := s.sk.a kp, b := 0, A := centre s.sk, B := centre s.sk, O := fun c => O c,
                      n := powers s.sk.l k, m := fun _ => 0 }
  have hv := op_val31 (S := S) (T := T) (hp ip jp kp hip hjp hkp) rfl rfl (opPot op) hP
  rw [zeroQ_val hm', mul_zero, Complex.ofReal_zero, mul_zero, add_zero] at hv
  refine hv.trans (congrArg _ ?_)
  rw [mul_assoc]
  congr 1
  rw [mul_comm (1 / (Real.sqrt Real.pi * Real.pi)), mul_assoc, one_div, inv_mul_cancel₀ hpi, mul_one]
  rfl

/-- a call of an integral that computes what the definition says -/
theorem gen31_cart {b b' : Bool} {G : Gen2e} {D : Def2e} (hmt : matches31 (b, G) (b', D) = true)
    {L : MathLib ℝ} {s : Call3 ℝ} {R : Rys ℝ} {O : Nat → ℝ} {zeta : ℝ} {orig : Nat → ℝ} (A : CartMem31 (G.int31 O) s)
    (hL : L.exp = Real.exp) (hp : PosExp31 s) (hR : RysOK R (s.env1 (G.int31 O)).nrys_roots) (h15 : LOK3 s) :
    ∃ has h', CartEnds31 A R realK L (opOf31 b zeta orig) has h' ∧
      ∀ comp ic jc kc i j k (hc : comp < D.out.length), ic < s.si.nctr → jc < s.sj.nctr → kc < s.sk.nctr →
        i < ncart s.si.l → j < ncart s.sj.l → k < ncart s.sk.l →
        ∃ v : ℝ, A.elem h' comp ic i jc j kc k = .val v ∧
          (v : ℂ) = ((D.num : ℂ) / (D.den : ℂ)) * ((spNorm s.si.l * spNorm s.sj.l * spNorm s.sk.l : ℝ) : ℂ) *
            contract3C s.si.nprim s.sj.nprim s.sk.nprim s.si.c s.sj.c s.sk.c (fun ip jp kp =>
              open Classical in
              if tripleExponent (s.si.a ip) (s.sj.a jp) (s.sk.a kp) (centre s.si) (centre s.sj) (centre s.sk) ≤ 60 then
                Op2.val31 (between b' zeta orig) (fun c => O c) (centre s.si) (centre s.sj) (centre s.sk)
                  (gto (s.si.a ip) (centre s.si) (powers s.si.l i)) (gto (s.sj.a jp) (centre s.sj) (powers s.sj.l j))
                  (gto (s.sk.a kp) (centre s.sk) (powers s.sk.l k)) D.out[comp]
              else 0) ic jc kc := by
  classical
  obtain ⟨hm2, hl0, hlone, hb⟩ := matches31_unfold hmt
  have hb : b = b' := hb
  subst hb
  have hl0 : G.ng.l = 0 ∧ G.prog.more = [] := hl0
  obtain ⟨ws, hOK, hnum, hden, hnc, hcomp⟩ := matches2_unfold hm2
  have hnum : G.num = D.num := hnum
  have hden : G.den = D.den := hden
  have hnc : G.nComp = D.out.length := hnc
  obtain ⟨has, h', hr, hv, _⟩ := drv3c1e_cart A.M A.fits A.hsize A.hs A.O
    (eval31g (L := L) (op := opOf31 b zeta orig) hOK hl0 hp hR) (Nat.pos_of_ne_zero hOK.pos) h15
  refine ⟨has, h', hr, fun comp ic jc kc i j k hc a2 a3 a4 a6 a7 a8 => ?_⟩
  have hc' : comp < G.nComp := by omega
  refine ⟨_, hv comp ic jc kc i j k hc' a2 a3 a4 a6 a7 a8, ?_⟩
  have hget : D.out[comp] = D.out.getD comp [] := by
    rw [List.getD_eq_getElem?_getD, List.getElem?_eq_getElem hc]; rfl
  have hL1 : ∀ t ∈ D.out[comp], Lone t := hlone _ (List.getElem_mem hc)
  have hsame := (hcomp comp hc').1
  have hzero := (hcomp comp hc').2
  have hget' : (b, D).2.out.getD comp [] = D.out[comp] := hget.symm
  rw [hget'] at hsame hzero
  unfold loopVal1 expected3
  have hcom : ((s.triple1 (G.int31 O) R realK L (opOf31 b zeta orig) ⟨⟨0,0⟩,⟨0,0⟩,⟨0,0⟩⟩).common : ℝ) =
      ((D.num : ℝ) / (D.den : ℝ)) * (spNorm s.si.l * spNorm s.sj.l * spNorm s.sk.l) * (Real.sqrt Real.pi * Real.pi) := by
    rw [← hnum, ← hden]
    show ((G.num : ℝ) / (G.den : ℝ)) * (Real.sqrt Real.pi * Real.pi * commonFacSp s.si.l * commonFacSp s.sj.l * commonFacSp s.sk.l) = _
    rw [spNorm_eq, spNorm_eq, spNorm_eq]
    ring
  rw [hcom, mul_assoc, Complex.ofReal_mul]
  refine congrArg₂ (· * ·) (by push_cast; ring) ?_
  rw [Complex.ofReal_mul, Complex.ofReal_mul, contract3_ofReal]
  unfold contract3C
  rw [Finset.mul_sum]
  refine Finset.sum_congr rfl (fun kp hkp => ?_)
  rw [Finset.mul_sum]
  refine Finset.sum_congr rfl (fun jp hjp => ?_)
  rw [Finset.mul_sum]
  refine Finset.sum_congr rfl (fun ip hip => ?_)
  have hip : ip < s.si.nprim := Finset.mem_range.1 hip
  have hjp : jp < s.sj.nprim := Finset.mem_range.1 hjp
  have hkp : kp < s.sk.nprim := Finset.mem_range.1 hkp
  rw [mul_comm ((Real.sqrt Real.pi : ℂ) * (Real.pi : ℂ)), mul_assoc]
  show ((s.sk.c (s.sk.nprim*kc+kp) * s.sj.c (s.sj.nprim*jc+jp) * s.si.c (s.si.nprim*ic+ip) : ℝ) : ℂ) * _ = _
  congr 1
  show (((if decide (s.eijk ip jp kp > 60) = false ∧ true = true then
    L.exp (-(s.eijk ip jp kp)) * w31 G ws O (opOf31 b zeta orig) s ip jp kp (pos4c (ncar (Call3.ls s)) i j k 0 * G.nComp + comp) else 0 : ℝ)) : ℂ) *
      ((Real.sqrt Real.pi : ℂ) * (Real.pi : ℂ)) = _
  rw [eijk_eq]
  beta_reduce
  by_cases hk : tripleExponent (s.si.a ip) (s.sj.a jp) (s.sk.a kp) (centre s.si) (centre s.sj) (centre s.sk) ≤ 60
  · rw [if_pos ⟨by rw [decide_eq_false_iff_not]; exact not_lt.2 hk, rfl⟩, if_pos hk, between_eq]
    have := gen_prim31 (op := opOf31 b zeta orig) (j := j) (O := O) hp hip hjp hkp hsame hzero hL1 hc' a6 a8
    refine Eq.trans ?_ this.symm
    rw [hL]
    push_cast
    ring
  · rw [if_neg (fun x => hk (not_lt.1 (decide_eq_false_iff_not.1 x.1))), if_neg hk]
    simp

/-! ### Sums of primitives -/

theorem act_triple_int {a b c : ℝ} (hp : 0 < a + b + c) (O A B D : Pt) (n m l : Fin 3 → ℕ) (op : Op3c1e ℝ) (u v w : Word) :
    Integrable fun r => Word.act O A u (gto a A n) r * Word.act O B v (gto b B m) r * Word.act O D w (gto c D l) r * opPotential op r := by
  simp_rw [gto_gP, act_gP, gP_mul3 hp.ne', mul_assoc]
  exact (integrable_pg_op hp _ _ op).const_mul _

theorem act_cfun {O : Pt} (t : PShell ℝ) (ic a : ℕ) (v : Word) : Word.act O (centre t) v (cfun t ic a) = fun r =>
    ∑ ip ∈ Finset.range t.nprim, t.c (t.nprim*ic+ip) * Word.act O (centre t) v (gto (t.a ip) (centre t) (powers t.l a)) r := by
  have hc : cfun t ic a = fun r => ∑ ip ∈ Finset.range t.nprim, t.c (t.nprim*ic+ip) *
      gP (t.a ip) (centre t) (fun k => (X - C (centre t k))^powers t.l a k) r := by
    funext r
    unfold cfun cgto
    simp_rw [gto_gP]
  rw [hc, act_sum]
  simp_rw [gto_gP, act_gP]

theorem triple_act_cfun {s : Call3 ℝ} (hp : PosExp31 s) (op : Op3c1e ℝ) (O : Pt) (u v w : Word) (ic jc kc i j k : Nat) :
    (Integrable fun r => Word.act O (centre s.si) u (cfun s.si ic i) r * Word.act O (centre s.sj) v (cfun s.sj jc j) r *
      Word.act O (centre s.sk) w (cfun s.sk kc k) r * opPotential op r) ∧
    triple (opPotential op) (Word.act O (centre s.si) u (cfun s.si ic i)) (Word.act O (centre s.sj) v (cfun s.sj jc j))
      (Word.act O (centre s.sk) w (cfun s.sk kc k)) =
      contract3 s.si.nprim s.sj.nprim s.sk.nprim s.si.c s.sj.c s.sk.c (fun ip jp kp =>
        triple (opPotential op) (Word.act O (centre s.si) u (gto (s.si.a ip) (centre s.si) (powers s.si.l i)))
          (Word.act O (centre s.sj) v (gto (s.sj.a jp) (centre s.sj) (powers s.sj.l j)))
          (Word.act O (centre s.sk) w (gto (s.sk.a kp) (centre s.sk) (powers s.sk.l k)))) ic jc kc := by
  rw [act_cfun s.si, act_cfun s.sj, act_cfun s.sk]
  exact triple_sum (Finset.range s.si.nprim) (Finset.range s.sj.nprim) (Finset.range s.sk.nprim)
    (fun ip => s.si.c (s.si.nprim*ic+ip)) (fun jp => s.sj.c (s.sj.nprim*jc+jp)) (fun kp => s.sk.c (s.sk.nprim*kc+kp)) _ _ _
    (fun _ ha _ hb _ hc => act_triple_int (hp _ _ _ (Finset.mem_range.1 ha) (Finset.mem_range.1 hb) (Finset.mem_range.1 hc)) _ _ _ _ _ _ _ op _ _ _)

theorem op_val31_cfun {s : Call3 ℝ} (hp : PosExp31 s) (op : Op3c1e ℝ) (O : Pt) (P : Op2) (ic jc kc i j k : Nat) :
    Op2.val31 (opPotential op) O (centre s.si) (centre s.sj) (centre s.sk) (cfun s.si ic i) (cfun s.sj jc j) (cfun s.sk kc k) P =
      contract3C s.si.nprim s.sj.nprim s.sk.nprim s.si.c s.sj.c s.sk.c (fun ip jp kp =>
        Op2.val31 (opPotential op) O (centre s.si) (centre s.sj) (centre s.sk) (gto (s.si.a ip) (centre s.si) (powers s.si.l i))
          (gto (s.sj.a jp) (centre s.sj) (powers s.sj.l j)) (gto (s.sk.a kp) (centre s.sk) (powers s.sk.l k)) P) ic jc kc := by
  induction P with
  | nil => simp [Op2.val31, contract3C]
  | cons x P ih =>
    have h1 : ∀ f g h, Op2.val31 (opPotential op) O (centre s.si) (centre s.sj) (centre s.sk) f g h (x :: P) =
        Op2.valT31 (opPotential op) O (centre s.si) (centre s.sj) (centre s.sk) f g h x +
        Op2.val31 (opPotential op) O (centre s.si) (centre s.sj) (centre s.sk) f g h P := by
      intro f g h; simp [Op2.val31]
    simp_rw [h1]
    rw [ih]
    unfold Op2.valT31
    rw [(triple_act_cfun hp op O _ _ _ ic jc kc i j k).2]
    unfold contract3C contract3
    simp_rw [mul_add, Finset.sum_add_distrib]
    congr 1
    push_cast
    simp_rw [Finset.mul_sum]
    refine Finset.sum_congr rfl fun c _ => Finset.sum_congr rfl fun b _ => Finset.sum_congr rfl fun a _ => ?_
    ring

theorem op_val31_sgto {s : Call3 ℝ} (hp : PosExp31 s) (op : Op3c1e ℝ) (O : Pt) (P : Op2) (ic jc kc i j k : Nat) :
    Op2.val31 (opPotential op) O (centre s.si) (centre s.sj) (centre s.sk) (sgto s.si ic i) (sgto s.sj jc j) (sgto s.sk kc k) P =
      ∑ a ∈ Finset.range (ncart s.si.l), ∑ b ∈ Finset.range (ncart s.sj.l), ∑ c ∈ Finset.range (ncart s.sk.l),
        ((c2sCoef s.si.l i a * c2sCoef s.sj.l j b * c2sCoef s.sk.l k c : ℝ) : ℂ) *
          (((spNorm s.si.l * spNorm s.sj.l * spNorm s.sk.l : ℝ) : ℂ) *
          Op2.val31 (opPotential op) O (centre s.si) (centre s.sj) (centre s.sk)
            (cfun s.si ic a) (cfun s.sj jc b) (cfun s.sk kc c) P) := by
  induction P with
  | nil => simp [Op2.val31]
  | cons x P ih =>
    have h1 : ∀ f g h, Op2.val31 (opPotential op) O (centre s.si) (centre s.sj) (centre s.sk) f g h (x :: P) =
        Op2.valT31 (opPotential op) O (centre s.si) (centre s.sj) (centre s.sk) f g h x +
        Op2.val31 (opPotential op) O (centre s.si) (centre s.sj) (centre s.sk) f g h P := by
      intro f g h; simp [Op2.val31]
    simp_rw [h1]
    rw [ih]
    simp_rw [mul_add, Finset.sum_add_distrib]
    congr 1
    unfold Op2.valT31
    have ha := fun (t : PShell ℝ) ic i v => funext (act_sgto (O := O) t ic i v)
    rw [ha s.si, ha s.sj, ha s.sk]
    rw [(triple_sum (V := opPotential op) (Finset.range (ncart s.si.l)) (Finset.range (ncart s.sj.l)) (Finset.range (ncart s.sk.l))
      _ _ _ (fun a => Word.act O (centre s.si) x.1.bra (cfun s.si ic a)) (fun b => Word.act O (centre s.sj) x.1.ket (cfun s.sj jc b))
      (fun c => Word.act O (centre s.sk) x.2.bra (cfun s.sk kc c))
      (fun a _ b _ c _ => (triple_act_cfun hp op O x.1.bra x.1.ket x.2.bra ic jc kc a b c).1)).2]
    rw [Finset.sum_comm]
    simp_rw [Finset.sum_comm (s := Finset.range (ncart s.sk.l))]
    rw [Finset.sum_comm]
    push_cast
    rw [Finset.mul_sum, Finset.mul_sum]
    refine Finset.sum_congr rfl fun a _ => ?_
    rw [Finset.mul_sum, Finset.mul_sum]
    refine Finset.sum_congr rfl fun b _ => ?_
    rw [Finset.mul_sum, Finset.mul_sum]
    refine Finset.sum_congr rfl fun c _ => ?_
    ring

theorem gen31_exact {b b' : Bool} {G : Gen2e} {D : Def2e} (hmt : matches31 (b, G) (b', D) = true)
    {L : MathLib ℝ} {s : Call3 ℝ} {R : Rys ℝ} {O : Nat → ℝ} {zeta : ℝ} {orig : Nat → ℝ} (A : CartMem31 (G.int31 O) s)
    (hL : L.exp = Real.exp) (hkept : AllKept31 s) (hp : PosExp31 s) (hR : RysOK R (s.env1 (G.int31 O)).nrys_roots) (h15 : LOK3 s) :
    ∃ has h', CartEnds31 A R realK L (opOf31 b zeta orig) has h' ∧
      ∀ comp ic jc kc i j k (hc : comp < D.out.length), ic < s.si.nctr → jc < s.sj.nctr → kc < s.sk.nctr →
        i < ncart s.si.l → j < ncart s.sj.l → k < ncart s.sk.l →
        ∃ v : ℝ, A.elem h' comp ic i jc j kc k = .val v ∧
          (v : ℂ) = ((D.num : ℂ) / (D.den : ℂ)) * ((spNorm s.si.l * spNorm s.sj.l * spNorm s.sk.l : ℝ) : ℂ) *
            Op2.val31 (between b' zeta orig) (fun c => O c) (centre s.si) (centre s.sj) (centre s.sk)
              (cfun s.si ic i) (cfun s.sj jc j) (cfun s.sk kc k) D.out[comp] := by
  obtain ⟨has, h', hr, hv⟩ := gen31_cart hmt (zeta := zeta) (orig := orig) A hL hp hR h15
  refine ⟨has, h', hr, fun comp ic jc kc i j k hc a2 a3 a4 a6 a7 a8 => ?_⟩
  obtain ⟨v, e1, e2⟩ := hv comp ic jc kc i j k hc a2 a3 a4 a6 a7 a8
  refine ⟨v, e1, e2.trans (congrArg₂ (· * ·) rfl ?_)⟩
  rw [between_eq', op_val31_cfun hp]
  unfold contract3C
  refine Finset.sum_congr rfl fun kp b2 => Finset.sum_congr rfl fun jp b3 => Finset.sum_congr rfl fun ip b4 => ?_
  rw [Finset.mem_range] at b2 b3 b4
  dsimp only
  rw [if_pos (hkept ip jp kp b4 b3 b2)]

theorem gen31_spherical {b b' : Bool} {G : Gen2e} {D : Def2e} (hmt : matches31 (b, G) (b', D) = true)
    {L : MathLib ℝ} {s : Call3 ℝ} {R : Rys ℝ} {O : Nat → ℝ} {zeta : ℝ} {orig : Nat → ℝ} (B : SphMem31 (G.int31 O) s)
    (hL : L.exp = Real.exp) (hkept : AllKept31 s) (hp : PosExp31 s) (hR : RysOK R (s.env1 (G.int31 O)).nrys_roots) (h15 : LOK3 s) :
    ∃ has h', SphEnds31 B R realK L (opOf31 b zeta orig) has h' ∧
      ∀ comp ic jc kc i j k (hc : comp < D.out.length), ic < s.si.nctr → jc < s.sj.nctr → kc < s.sk.nctr →
        i < s.si.l*2+1 → j < s.sj.l*2+1 → k < s.sk.l*2+1 →
        ∃ v : ℝ, B.elem h' comp ic i jc j kc k = .val v ∧
          (v : ℂ) = ((D.num : ℂ) / (D.den : ℂ)) *
            Op2.val31 (between b' zeta orig) (fun c => O c) (centre s.si) (centre s.sj) (centre s.sk)
              (sgto s.si ic i) (sgto s.sj jc j) (sgto s.sk kc k) D.out[comp] := by
  let A := blankMem31 (G.int31 O) s B.hs.nctr_pos
  obtain ⟨hm2, hl0, _, _⟩ := matches31_unfold hmt
  have hl0 : G.ng.l = 0 ∧ G.prog.more = [] := hl0
  obtain ⟨ws, hOK, _, _, hnc, _⟩ := matches2_unfold hm2
  have hnc : G.nComp = D.out.length := hnc
  obtain ⟨ra, ha, rb, hb, eA, eB, x, vA, vB⟩ := C19_3c1e A B (eval31g (L := L) (op := opOf31 b zeta orig) hOK hl0 hp hR)
    (Nat.pos_of_ne_zero hOK.pos) h15
  obtain ⟨rc, hc, eC, vC⟩ := gen31_exact hmt (R := R) (zeta := zeta) (orig := orig) A hL hkept hp hR h15
  have hAC : ha = hc := by
    have e : some (ra, ha) = some (rc, hc) := eA.symm.trans eC
    simp only [Option.some.injEq, Prod.mk.injEq] at e
    exact e.2
  refine ⟨rb, hb, eB, fun comp ic jc kc i j k a1 a2 a3 a4 a6 a7 a8 => ?_⟩
  have a1' : comp < G.nComp := by omega
  refine ⟨_, vB comp ic jc kc i j k a1' a2 a3 a4 a6 a7 a8, ?_⟩
  rw [between_eq', op_val31_sgto hp]
  push_cast
  rw [Finset.mul_sum]
  refine Finset.sum_congr rfl fun a b1 => ?_
  rw [Finset.mul_sum]
  refine Finset.sum_congr rfl fun b' b2 => ?_
  rw [Finset.mul_sum]
  refine Finset.sum_congr rfl fun c b3 => ?_
  rw [Finset.mem_range] at b1 b2 b3
  have c1 := vA comp ic jc kc a b' c a1' a2 a3 a4 b1 b2 b3
  obtain ⟨v, c2, c3⟩ := vC comp ic jc kc a b' c a1 a2 a3 a4 b1 b2 b3
  rw [← hAC] at c2
  rw [Cell.val.inj (c1.symm.trans c2), c3, between_eq']
  push_cast
  ring

/-! ### The catalogue -/

/-- **C54** Every generated one-electron integral over three functions except int3c1e_ip1_r6_origk (see
`C54_ip1_r6_origk_depends_on_memory`), any shells whose exponents have positive sums, any contents of memory: component `comp` of the
element for three functions is the factor of the definition times the contraction, over the primitive triples with a prefactor of at
least exp(-60), of the integrals of the functions the operators have acted on.  For int3c1e_iprinv the root finder is assumed to return
the roots and weights of Rys quadrature. -/
theorem C54_cart_partial {name : String} {b b' : Bool} {G : Gen2e} {D : Def2e} (hG : (name, b, G) ∈ Auto3c1e.all31)
    (hD : (name, b', D) ∈ defs31) (hn : name ≠ "int3c1e_ip1_r6_origk")
    {L : MathLib ℝ} {s : Call3 ℝ} {R : Rys ℝ} {O : Nat → ℝ} {zeta : ℝ} {orig : Nat → ℝ} (A : CartMem31 (G.int31 O) s)
    (hL : L.exp = Real.exp) (hp : PosExp31 s) (hR : RysOK R (s.env1 (G.int31 O)).nrys_roots) (h15 : LOK3 s) :
    ∃ has h', CartEnds31 A R realK L (opOf31 b zeta orig) has h' ∧
      ∀ comp ic jc kc i j k (hc : comp < D.out.length), ic < s.si.nctr → jc < s.sj.nctr → kc < s.sk.nctr →
        i < ncart s.si.l → j < ncart s.sj.l → k < ncart s.sk.l →
        ∃ v : ℝ, A.elem h' comp ic i jc j kc k = .val v ∧
          (v : ℂ) = ((D.num : ℂ) / (D.den : ℂ)) * ((spNorm s.si.l * spNorm s.sj.l * spNorm s.sk.l : ℝ) : ℂ) *
            contract3C s.si.nprim s.sj.nprim s.sk.nprim s.si.c s.sj.c s.sk.c (fun ip jp kp =>
              open Classical in
              if tripleExponent (s.si.a ip) (s.sj.a jp) (s.sk.a kp) (centre s.si) (centre s.sj) (centre s.sk) ≤ 60 then
                Op2.val31 (between b' zeta orig) (fun c => O c) (centre s.si) (centre s.sj) (centre s.sk)
                  (gto (s.si.a ip) (centre s.si) (powers s.si.l i)) (gto (s.sj.a jp) (centre s.sj) (powers s.sj.l j))
                  (gto (s.sk.a kp) (centre s.sk) (powers s.sk.l k)) D.out[comp]
              else 0) ic jc kc :=
  gen31_cart (matches31_of hG hD hn) A hL hp hR h15

/-- **C54**, nothing screened: exactly the integral over the three contracted functions. -/
theorem C54_exact_partial {name : String} {b b' : Bool} {G : Gen2e} {D : Def2e} (hG : (name, b, G) ∈ Auto3c1e.all31)
    (hD : (name, b', D) ∈ defs31) (hn : name ≠ "int3c1e_ip1_r6_origk")
    {L : MathLib ℝ} {s : Call3 ℝ} {R : Rys ℝ} {O : Nat → ℝ} {zeta : ℝ} {orig : Nat → ℝ} (A : CartMem31 (G.int31 O) s)
    (hL : L.exp = Real.exp) (hkept : AllKept31 s) (hp : PosExp31 s) (hR : RysOK R (s.env1 (G.int31 O)).nrys_roots) (h15 : LOK3 s) :
    ∃ has h', CartEnds31 A R realK L (opOf31 b zeta orig) has h' ∧
      ∀ comp ic jc kc i j k (hc : comp < D.out.length), ic < s.si.nctr → jc < s.sj.nctr → kc < s.sk.nctr →
        i < ncart s.si.l → j < ncart s.sj.l → k < ncart s.sk.l →
        ∃ v : ℝ, A.elem h' comp ic i jc j kc k = .val v ∧
          (v : ℂ) = ((D.num : ℂ) / (D.den : ℂ)) * ((spNorm s.si.l * spNorm s.sj.l * spNorm s.sk.l : ℝ) : ℂ) *
            Op2.val31 (between b' zeta orig) (fun c => O c) (centre s.si) (centre s.sj) (centre s.sk)
              (cfun s.si ic i) (cfun s.sj jc j) (cfun s.sk kc k) D.out[comp] :=
  gen31_exact (matches31_of hG hD hn) A hL hkept hp hR h15

/-- **C54**, spherical output, nothing screened: exactly the integral over the three spherical functions. -/
theorem C54_spherical_partial {name : String} {b b' : Bool} {G : Gen2e} {D : Def2e} (hG : (name, b, G) ∈ Auto3c1e.all31)
    (hD : (name, b', D) ∈ defs31) (hn : name ≠ "int3c1e_ip1_r6_origk")
    {L : MathLib ℝ} {s : Call3 ℝ} {R : Rys ℝ} {O : Nat → ℝ} {zeta : ℝ} {orig : Nat → ℝ} (B : SphMem31 (G.int31 O) s)
    (hL : L.exp = Real.exp) (hkept : AllKept31 s) (hp : PosExp31 s) (hR : RysOK R (s.env1 (G.int31 O)).nrys_roots) (h15 : LOK3 s) :
    ∃ has h', SphEnds31 B R realK L (opOf31 b zeta orig) has h' ∧
      ∀ comp ic jc kc i j k (hc : comp < D.out.length), ic < s.si.nctr → jc < s.sj.nctr → kc < s.sk.nctr →
        i < s.si.l*2+1 → j < s.sj.l*2+1 → k < s.sk.l*2+1 →
        ∃ v : ℝ, B.elem h' comp ic i jc j kc k = .val v ∧
          (v : ℂ) = ((D.num : ℂ) / (D.den : ℂ)) *
            Op2.val31 (between b' zeta orig) (fun c => O c) (centre s.si) (centre s.sj) (centre s.sk)
              (sgto s.si ic i) (sgto s.sj jc j) (sgto s.sk kc k) D.out[comp] :=
  gen31_spherical (matches31_of hG hD hn) B hL hkept hp hR h15

/-- **C54** With the missing line (`G1E_D_I(g76, g12, ...)`) int3c1e_ip1_r6_origk is the integral it is named after. -/
theorem C54_ip1_r6_origk_repaired {L : MathLib ℝ} {s : Call3 ℝ} {R : Rys ℝ} {O : Nat → ℝ} (A : CartMem31 (repairedR6.int31 O) s)
    (hL : L.exp = Real.exp) (hkept : AllKept31 s) (hp : PosExp31 s) (hR : RysOK R (s.env1 (repairedR6.int31 O)).nrys_roots)
    (h15 : LOK3 s) :
    ∃ has h', CartEnds31 A R realK L .ovlp has h' ∧
      ∀ comp ic jc kc i j k (hc : comp < TripleDefs.ip1_r6k.out.length), ic < s.si.nctr → jc < s.sj.nctr → kc < s.sk.nctr →
        i < ncart s.si.l → j < ncart s.sj.l → k < ncart s.sk.l →
        ∃ v : ℝ, A.elem h' comp ic i jc j kc k = .val v ∧
          (v : ℂ) = ((spNorm s.si.l * spNorm s.sj.l * spNorm s.sk.l : ℝ) : ℂ) *
            Op2.val31 (fun _ => 1) (fun c => O c) (centre s.si) (centre s.sj) (centre s.sk)
              (cfun s.si ic i) (cfun s.sj jc j) (cfun s.sk kc k) TripleDefs.ip1_r6k.out[comp] := by
  obtain ⟨has, h', hr, hv⟩ := gen31_exact repaired_match (zeta := 0) (orig := fun _ => 0) A hL hkept hp hR h15
  refine ⟨has, h', hr, fun comp ic jc kc i j k hc a2 a3 a4 a6 a7 a8 => ?_⟩
  obtain ⟨v, e1, e2⟩ := hv comp ic jc kc i j k hc a2 a3 a4 a6 a7 a8
  refine ⟨v, e1, e2.trans ?_⟩
  have h1 : TripleDefs.ip1_r6k.num = 1 := rfl
  have h2 : TripleDefs.ip1_r6k.den = 1 := rfl
  rw [h1, h2, Int.cast_one, Nat.cast_one, div_one, one_mul]
  rfl

/-- **C54** Every generated integral has a definition: the catalogues have the same names, each once.  No definition has an operator
on a function that is not there. -/
theorem C54_catalogue : Auto3c1e.all31.map (·.1) = defs31.map (·.1) ∧ (defs31.map (·.1)).Nodup ∧
    (∀ x ∈ defs31, ∀ P ∈ x.2.2.out, ∀ t ∈ P, t.2.ket = [] ∧ t.2.geo = []) :=
  ⟨all_names31, names_nodup31, by decide +kernel⟩

namespace Oper31Demo
/-- an s shell with one primitive -/
def sh : PShell ℚ := { nprim := 1, nctr := 1, l := 0, a := fun _ => 1, c := fun _ => 1, r := fun _ => 0 }
def call : Call3 ℚ := { si := sh, sj := sh, sk := sh, envCut := 0, omega := 0 }
/-- memory whose doubles are all `x` -/
def mem (x : Cell ℚ) : Heap ℚ := ⟨fun _ => x, fun _ => .undef⟩
def consts : Consts ℚ := { sqrtpi := 1, pi := 3, sqrt := fun x => x }
def mlib : MathLib ℚ := { log := fun _ => 0, exp := fun _ => 1, sqrt := id }
def roots : Rys ℚ := ⟨fun _ _ _ => 0, fun _ _ _ => 0⟩
def num : Cell ℚ → Option ℚ
  | .val x => some x
  | _ => none
/-- the call of the integral on that memory -/
def res (G : Gen2e) (x : Cell ℚ) : Option (Bool × Heap ℚ) :=
  run (drv3c1e (G.int31 fun _ => 0) call roots consts mlib .ovlp 2 (fun _ _ => pure) (ncar (Call3.ls call)) ⟨5, 7⟩ none 0 0
    ⟨4, 0⟩ ⟨1, 0⟩ ⟨2, 0⟩ ⟨3, 0⟩) (mem x)
end Oper31Demo

set_option maxRecDepth 100000 in
open Oper31Demo in
/-- **C54** is false of int3c1e_ip1_r6_origk: its y component (element 1 of the output for three s functions with one primitive) is
computed from an array that is never set.  In memory that is not initialised the call reads an uninitialised double; in two memories
that only differ in the contents of the doubles it gives different results. -/
theorem C54_ip1_r6_origk_depends_on_memory : ("int3c1e_ip1_r6_origk", false, Auto3c1e.int3c1e_ip1_r6_origk) ∈ Auto3c1e.all31 ∧
    res Auto3c1e.int3c1e_ip1_r6_origk .undef = none ∧
    ∃ r0 h0 r1 h1, res Auto3c1e.int3c1e_ip1_r6_origk (.val 0) = some (r0, h0) ∧
      res Auto3c1e.int3c1e_ip1_r6_origk (.val 1) = some (r1, h1) ∧ h0.D ((⟨5, 7⟩ : Ptr) + 1) ≠ h1.D ((⟨5, 7⟩ : Ptr) + 1) := by
  refine ⟨by unfold Auto3c1e.all31; simp, ?_, ?_⟩
  · rw [← Option.isNone_iff_eq_none]
    decide +kernel
  · have key : ((res Auto3c1e.int3c1e_ip1_r6_origk (.val 0)).bind fun a => (res Auto3c1e.int3c1e_ip1_r6_origk (.val 1)).map fun b =>
        decide (num (a.2.D ((⟨5, 7⟩ : Ptr) + 1)) ≠ num (b.2.D ((⟨5, 7⟩ : Ptr) + 1)))) = some true := by decide +kernel
    obtain ⟨⟨r0, h0⟩, e0, k1⟩ := Option.bind_eq_some_iff.1 key
    obtain ⟨⟨r1, h1⟩, e1, k2⟩ := Option.map_eq_some_iff.1 k1
    exact ⟨r0, h0, r1, h1, e0, e1, fun e => of_decide_eq_true k2 (congrArg num e)⟩

namespace Oper31Demo
open OvlpDemo SphDemo EriDemo Eri3Demo Int3c1eDemo

/-- int3c1e_iprinv: the derivative of p_y (second contraction) along y, d_xz and the fifth f function; a point charge at (1, 2, 3) -/
example : ∃ R has h', CartEnds31 (blankMem31 (Auto3c1e.int3c1e_iprinv.int31 fun _ => 0) (call3 0) (ctr_pos3 _)) R realK lib
      (.rinv 0 fun k => k+1) has h' ∧
    (blankMem31 (Auto3c1e.int3c1e_iprinv.int31 fun _ => 0) (call3 0) (ctr_pos3 _)).elem h' 1 1 1 0 2 1 4 =
      .val (spNorm 1 * spNorm 2 * spNorm 3 * triple (potential 0 fun k => (k:ℕ)+1)
        (Word.act (fun _ => 0) (fun _ => 0) [(.d, 1)] (cfun (call3 0).si 1 1)) (cfun (call3 0).sj 0 2) (cfun (call3 0).sk 1 4)) := by
  obtain ⟨R, hR⟩ := NucDemo.rys
  have hG : ("int3c1e_iprinv", true, Auto3c1e.int3c1e_iprinv) ∈ Auto3c1e.all31 := by unfold Auto3c1e.all31; simp
  have hD : ("int3c1e_iprinv", true, TripleDefs.ip1) ∈ defs31 := by unfold defs31; simp
  have hlen : TripleDefs.ip1.out.length = 3 := by decide +kernel
  obtain ⟨has, h', h1, h2⟩ := C54_exact_partial hG hD (by decide) (L := lib) (R := R) (O := fun _ => 0) (zeta := 0) (orig := fun k => k+1)
    (blankMem31 (Auto3c1e.int3c1e_iprinv.int31 fun _ => 0) (call3 0) (ctr_pos3 _)) rfl (allKept31 _) (posExp31 _) (hR _) (lok3 _)
  have ho : opOf31 true (0:ℝ) (fun k => (k:ℝ)+1) = .rinv 0 fun k => (k:ℝ)+1 := rfl
  rw [ho] at h1
  refine ⟨R, has, h', h1, ?_⟩
  obtain ⟨v, e1, e2⟩ := h2 1 1 0 1 1 2 4 (by rw [hlen]; decide) (by show 1 < 2; omega) (by show 0 < 2; omega) (by show 1 < 2; omega)
    (by show 1 < ncart 1; decide) (by show 2 < ncart 2; decide) (by show 4 < ncart 3; decide)
  refine e1.trans (congrArg Cell.val (Complex.ofReal_injective (e2.trans ?_)))
  have hop : TripleDefs.ip1.out[1]'(by rw [hlen]; decide) = [(⟨1, 0, [], [(.d, 1)], []⟩, ⟨1, 0, [], [], []⟩)] := by
    have : TripleDefs.ip1.out.getD 1 [] = [(⟨1, 0, [], [(.d, 1)], []⟩, ⟨1, 0, [], [], []⟩)] := by decide +kernel
    rw [List.getD_eq_getElem?_getD, List.getElem?_eq_getElem (by rw [hlen]; decide)] at this
    exact this
  rw [hop]
  unfold Op2.val31 Op2.valT31 Term.coef
  simp only [List.map_cons, List.map_nil, List.sum_cons, List.sum_nil, List.prod_nil]
  show (((1 : Int) : ℂ) / ((1 : Nat) : ℂ)) * ((spNorm 1 * spNorm 2 * spNorm 3 : ℝ) : ℂ) * _ = _
  push_cast
  simp only [mul_zero, add_zero, one_mul, div_one]
  rfl

end Oper31Demo

end Verif.Props
