import Verif.Core.Touch
import Verif.Model.Nuc
import Verif.Model.Int2e
import Verif.Model.Sph

/-!
Which buffers the drivers touch.
-/
namespace Verif.Lemmas
open Verif Prog Model

/-- decompose a program into its accesses -/
syntax "tch" "[" term,* "]" : tactic
macro_rules
  | `(tactic| tch [$ts,*]) => do
    let ts := ts.getElems
    `(tactic| repeat' first
      | exact trivial
      | assumption
      | exact Or.inl (by assumption)
      | exact Or.inr (by assumption)
      | refine Touch.st ?_
      | refine Touch.stI ?_
      | refine Touch.ld ?_
      | refine Touch.ldI ?_
      $[| apply $ts]*
      | refine Touch.forN (fun _ => ?_)
      | refine Touch.forS (fun _ _ => ?_)
      | refine Touch.ite (fun _ => ?_) (fun _ => ?_)
      | refine Touch.bind ?_ (fun _ => ?_)
      | refine Touch.pure ?_)

section
variable {α : Type} {W R : Nat → Prop}

/-- programs without results to keep track of -/
abbrev T (W R : Nat → Prop) {A : Type} (p : Prog α A) : Prop := Touch W R (fun _ => True) p

theorem cpy_touch {d s : Ptr} (hd : W d.buf) (hs : W s.buf ∨ R s.buf) : T W R (cpy d s : Prog α Unit) := by
  unfold cpy; tch []

theorem addTo_touch [Add α] {d s : Ptr} (hd : W d.buf) (hs : W s.buf ∨ R s.buf) : T W R (addTo d s : Prog α Unit) := by
  unfold addTo; tch []

theorem dmatTranspose_touch {a b : Ptr} {m n : Nat} (ha : W a.buf) (hb : W b.buf) : T W R (dmatTranspose a b m n : Prog α Unit) := by
  unfold dmatTranspose forStep
  refine Touch.bind (by tch [cpy_touch]) fun _ => ?_
  dsimp only
  split <;> tch [cpy_touch]

theorem dplusTranspose_touch [Add α] {a b : Ptr} {m n : Nat} (ha : W a.buf) (hb : W b.buf) :
    T W R (dplusTranspose a b m n : Prog α Unit) := by
  unfold dplusTranspose forStep
  refine Touch.bind (by tch [addTo_touch]) fun _ => ?_
  dsimp only
  split <;> tch [addTo_touch]

theorem non0coeff_touch [Zero α] [DecidableEq α] {a b : Ptr} {c : Nat → α} {m n : Nat} (ha : W a.buf) (hb : W b.buf) :
    T W R (non0coeffByshell a b c m n) := by
  unfold non0coeffByshell
  tch []

theorem primToCtr0_touch [Mul α] {gc gp : Ptr} {c : Nat → α} {nf np nc : Nat} (ha : W gc.buf) (hb : W gp.buf) :
    T W R (primToCtr0 gc gp c nf np nc) := by
  unfold primToCtr0; tch []

theorem primToCtr1_touch [Add α] [Mul α] {gc gp s : Ptr} {c : Nat → α} {nf np nc : Nat} (ha : W gc.buf) (hb : W gp.buf)
    (hs : W s.buf ∨ R s.buf) : T W R (primToCtr1 gc gp c nf np nc s) := by
  unfold primToCtr1; tch []

theorem prim2ctr_touch [Add α] [Mul α] {ctr prim p n : Nat} {em gc gp t i : Ptr} {c : Nat → α} (he : W em.buf) (ha : W gc.buf)
    (hb : W gp.buf) (ht : W t.buf ∨ R t.buf) (hi : W i.buf ∨ R i.buf) : T W R (prim2ctr ctr prim em gc gp c p n t i) := by
  unfold prim2ctr; tch [primToCtr0_touch, primToCtr1_touch]

theorem initFlags_touch {n : Nat} {fl : Ptr} (h : W fl.buf) : T W R (initFlags n fl : Prog α Unit) := by
  unfold initFlags; tch []

theorem levelBody_touch [Add α] [Mul α] {ctr prim leny p : Nat} {xe ye gx gy t i : Ptr} {c : Nat → α} {inner : α → Prog α Unit}
    {fac : α} (h1 : W xe.buf) (h2 : W ye.buf) (h3 : W gx.buf) (h4 : W gy.buf) (ht : W t.buf ∨ R t.buf)
    (hi : W i.buf ∨ R i.buf) (hin : ∀ f, T W R (inner f)) : T W R (levelBody ctr prim xe ye gx gy c leny t i p inner fac) := by
  unfold levelBody; tch [prim2ctr_touch, hin]

theorem primBody_touch [Add α] [Mul α] {ctr prim len p : Nat} {ie ge gi go t i : Ptr} {c : Nat → α} {fac : α}
    {g0 : α → Prog α Bool} {fg : α → Ptr → Int → Prog α Unit} (h1 : W ie.buf) (h2 : W ge.buf) (h3 : W gi.buf) (h4 : W go.buf)
    (ht : W t.buf ∨ R t.buf) (hi : W i.buf ∨ R i.buf) (hg : ∀ f, T W R (g0 f)) (hf : ∀ f e (q : Ptr), W q.buf → T W R (fg f q e)) :
    T W R (primBody ctr prim ie ge gi go c len t i p fac g0 fg) := by
  unfold primBody primBodyE; tch [prim2ctr_touch, hg, hf]

theorem aliasAddr_touch {c l : Nat} {g e o f : Ptr} (h1 : W g.buf) (h2 : W e.buf) (h3 : W o.buf) (h4 : W f.buf) :
    W (aliasAddr c g e o f l).1.buf ∧ W (aliasAddr c g e o f l).2.1.buf ∧ W (aliasAddr c g e o f l).2.2.buf := by
  unfold aliasAddr; split
  · exact ⟨h1, h2, h4⟩
  · exact ⟨h4, h3, h4⟩

theorem transposeMacro_touch [Add α] {e g a : Ptr} {m n : Nat} (h1 : W e.buf) (h2 : W g.buf) (h3 : W a.buf) :
    T W R (transposeMacro e g a m n : Prog α Unit) := by
  unfold transposeMacro; tch [dmatTranspose_touch, dplusTranspose_touch]

/-! ### Index tables, pair data -/

theorem cartComp_touch {a b c : Ptr} {l : Nat} (h1 : W a.buf) (h2 : W b.buf) (h3 : W c.buf) :
    T W R (cartComp a b c l : Prog α Nat) := by
  unfold cartComp; tch []

theorem compFill_touch {loc : Ptr} {s l : Nat} (h : W loc.buf) : T W R (compFill loc s l : Prog α Unit) := by
  unfold compFill; tch [cartComp_touch]

theorem idxTriple_touch {idx loc : Ptr} {n i : Nat} {a b c d : Int} (h : W loc.buf) (h' : W idx.buf) :
    T W R (idxTriple idx loc n a b c d i : Prog α Nat) := by
  have h1 : ∀ s c, W (compArr loc s c).buf := fun _ _ => h
  unfold idxTriple; tch [h1]

theorem idxSwitch_touch {idx loc : Ptr} {l n nf : Nat} {a b c d : Int} (h : W loc.buf) (h' : W idx.buf) :
    T W R (idxSwitch idx loc l nf n a b c d : Prog α Nat) := by
  unfold idxSwitch
  split <;> tch [idxTriple_touch]

theorem g1eIndex_touch {idx loc : Ptr} {e : EnvG} (h : W loc.buf) (h' : W idx.buf) : T W R (g1eIndex idx loc e : Prog α Unit) := by
  have h1 : ∀ s c, W (compArr loc s c).buf := fun _ _ => h
  unfold g1eIndex; tch [compFill_touch, idxTriple_touch]

theorem g2eIndex_touch {idx loc : Ptr} {e : EnvG} (h : W loc.buf) (h' : W idx.buf) : T W R (g2eIndex idx loc e : Prog α Unit) := by
  unfold g2eIndex; tch [compFill_touch, idxSwitch_touch]

section
variable [Field α] [LinearOrder α]

theorem setPairdata_touch {L : MathLib α} {pd : Ptr} {p : PairArgs α} (h : W pd.buf) : T W R (setPairdata L pd p) := by
  unfold setPairdata; tch []

theorem fillLogMaxC_touch {L : MathLib α} {q : Ptr} {t : PShell α} (h : W q.buf) : T W R (fillLogMaxC L q t) := by
  unfold fillLogMaxC; tch []

/-! ### Loops -/

theorem nest2_touch {P : Nest2 α} {ti tj : Tbl} {f : α → Nat → Nat → α} {je ie ge gj gi go : Ptr}
    (h1 : W je.buf) (h2 : W ie.buf) (h3 : W ge.buf) (h4 : W gj.buf) (h5 : W gi.buf) (h6 : W go.buf)
    (t1 : W ti.ctr.buf ∨ R ti.ctr.buf) (t2 : W ti.idx.buf ∨ R ti.idx.buf) (t3 : W tj.ctr.buf ∨ R tj.ctr.buf)
    (t4 : W tj.idx.buf ∨ R tj.idx.buf) (hg : ∀ ip jp f, T W R (P.g0 ip jp f))
    (hf : ∀ ip jp f (q : Ptr) e, W q.buf → T W R (P.gout ip jp f q e)) : T W R (P.nest ti tj f je ie ge gj gi go) := by
  unfold Nest2.nest
  refine Touch.forN fun jp => levelBody_touch h1 h2 h4 h5 t3 t4 fun _ => Touch.forN fun ip => ?_
  refine Touch.ite (fun _ => trivial) fun _ => ?_
  exact primBody_touch h2 h3 h5 h6 t1 t2 (hg ip jp) (fun f e q hq => hf ip jp f q e hq)

theorem loop1e_touch {P : Nest2 α} {gctr g fl base : Ptr} {nf nc leng : Nat} {b : Bool} (h1 : W gctr.buf) (h2 : W g.buf)
    (h3 : W fl.buf) (h4 : W base.buf) (hg : ∀ ip jp f, T W R (P.g0 ip jp f))
    (hf : ∀ ip jp f (q : Ptr) e, W q.buf → T W R (P.gout ip jp f q e)) : T W R (loop1e P gctr g fl base nf nc leng b) := by
  unfold loop1e
  refine Touch.ite (fun _ => trivial) fun _ => ?_
  refine Touch.bind (initFlags_touch h3) fun _ => Touch.bind (non0coeff_touch h4 h4) fun _ =>
    Touch.bind (non0coeff_touch h4 h4) fun _ => ?_
  dsimp only
  have b1 : W (if nc = 1 then gctr else g + leng).buf := by split; exacts [h1, h2]
  have b2 : W (if nc = 1 then g + leng else g + leng + nf * (P.iCtr * P.jCtr) * nc).buf := by split; exacts [h2, h2]
  obtain ⟨c1, c2, c3⟩ := aliasAddr_touch (c := P.jCtr) (l := nf * P.iCtr * nc) b1 (show W (fl+2).buf from h3) (show W (fl+1).buf from h3) b2
  obtain ⟨d1, d2, d3⟩ := aliasAddr_touch (c := P.iCtr) (l := nf * nc) c1 c2 (show W fl.buf from h3) c3
  refine Touch.bind (nest2_touch h3 c2 d2 b1 c1 d1 (Or.inl h4) (Or.inl h4) (Or.inl h4) (Or.inl h4) hg hf) fun _ => ?_
  tch [dmatTranspose_touch]

theorem loop2eCore_touch {Q : Quartet α} {M : Mem2e} {fI : Quartet α → α → Nat → Nat → Nat → Nat → α} (h1 : W M.gctr.buf)
    (h2 : W M.empty.buf) (h3 : W M.g.buf) (h4 : W M.fl.buf)
    (ti : W M.non0ctri.buf ∨ R M.non0ctri.buf) (tj : W M.non0ctrj.buf ∨ R M.non0ctrj.buf)
    (tk : W M.non0ctrk.buf ∨ R M.non0ctrk.buf) (tl : W M.non0ctrl.buf ∨ R M.non0ctrl.buf)
    (si : W M.non0idxi.buf ∨ R M.non0idxi.buf) (sj : W M.non0idxj.buf ∨ R M.non0idxj.buf)
    (sk : W M.non0idxk.buf ∨ R M.non0idxk.buf) (sl : W M.non0idxl.buf ∨ R M.non0idxl.buf)
    (hg : ∀ ip jp kp lp f, T W R (Q.g0 ip jp kp lp f))
    (hf : ∀ ip jp kp lp f (q : Ptr) e, W q.buf → T W R (Q.gout ip jp kp lp f q e)) : T W R (loop2eCore Q M fI) := by
  unfold loop2eCore
  refine Touch.bind (initFlags_touch h4) fun _ => ?_
  dsimp only
  obtain ⟨a1, a2, a3⟩ := aliasAddr_touch (c := Q.nComp) (l := Q.lenl) h1 h2 (show W (M.fl+3).buf from h4) (show W (M.g + Q.leng).buf from h3)
  obtain ⟨b1, b2, b3⟩ := aliasAddr_touch (c := Q.lCtr) (l := Q.lenk) a1 a2 (show W (M.fl+2).buf from h4) a3
  obtain ⟨c1, c2, c3⟩ := aliasAddr_touch (c := Q.kCtr) (l := Q.lenj) b1 b2 (show W (M.fl+1).buf from h4) b3
  obtain ⟨d1, d2, d3⟩ := aliasAddr_touch (c := Q.jCtr) (l := Q.leni) c1 c2 (show W M.fl.buf from h4) c3
  obtain ⟨e1, e2, e3⟩ := aliasAddr_touch (c := Q.iCtr) (l := Q.len0) d1 d2 (show W (M.fl+4).buf from h4) d3
  refine Touch.bind (Touch.forN fun lp => levelBody_touch a2 b2 a1 b1 tl sl fun _ => Touch.forN fun kp =>
    Touch.ite (fun _ => trivial) fun _ => levelBody_touch b2 c2 b1 c1 tk sk fun _ => Touch.forN fun jp =>
    levelBody_touch c2 d2 c1 d1 tj sj fun _ => Touch.forN fun ip => Touch.ite (fun _ => trivial) fun _ =>
    primBody_touch d2 e2 d1 e1 ti si (hg _ _ _ _) (fun f e q hq => hf _ _ _ _ f q e hq)) fun _ => ?_
  tch [transposeMacro_touch]

theorem loop2eNopt_touch {Q : Quartet α} {M : Mem2e} {tbl : Ptr} {b : Bool} (h1 : W M.gctr.buf)
    (h2 : W M.empty.buf) (h3 : W M.g.buf) (h4 : W M.fl.buf) (h5 : W tbl.buf) (hg : ∀ ip jp kp lp f, T W R (Q.g0 ip jp kp lp f))
    (hf : ∀ ip jp kp lp f (q : Ptr) e, W q.buf → T W R (Q.gout ip jp kp lp f q e)) : T W R (loop2eNopt Q M tbl b) := by
  unfold loop2eNopt
  refine Touch.ite (fun _ => trivial) fun _ => ?_
  dsimp only
  refine Touch.bind (non0coeff_touch h5 h5) fun _ => Touch.bind (non0coeff_touch h5 h5) fun _ =>
    Touch.bind (non0coeff_touch h5 h5) fun _ => Touch.bind (non0coeff_touch h5 h5) fun _ => ?_
  exact loop2eCore_touch h1 h2 h3 h4 (Or.inl h5) (Or.inl h5) (Or.inl h5) (Or.inl h5) (Or.inl h5) (Or.inl h5) (Or.inl h5)
    (Or.inl h5) hg hf

theorem loop1eRun_touch {X : Int1e α} {s : Call α} {K : Consts α} {L : MathLib α} {fpd buf c : Nat} {gctr fl loc : Ptr}
    (h1 : W gctr.buf) (h2 : W buf) (h3 : W fl.buf) (h4 : W loc.buf)
    (hg0 : ∀ e d, ∀ f ∈ X.g0s K e d, ∀ (q : Ptr) fac, W q.buf → T W R (f q fac))
    (hgo : ∀ e d (idx g q : Ptr) em, W idx.buf → W g.buf → W q.buf → T W R (X.gout e d idx g q em)) :
    T W R (loop1eRun X s K L fpd gctr buf c fl loc) := by
  unfold loop1eRun
  have hA : W (arrays1e X s fpd buf c).logMaxc.buf ∧ W (arrays1e X s fpd buf c).pdata.buf ∧ W (arrays1e X s fpd buf c).idx.buf ∧
    W (arrays1e X s fpd buf c).tbl.buf ∧ W (arrays1e X s fpd buf c).g.buf := ⟨h2, h2, h2, h2, h2⟩
  generalize arrays1e X s fpd buf c = A at hA
  obtain ⟨a1, a2, a3, a4, a5⟩ := hA
  refine Touch.bind (fillLogMaxC_touch a1) fun _ => Touch.bind (fillLogMaxC_touch a1) fun _ =>
    Touch.bind (setPairdata_touch a2) fun _ => Touch.ite (fun _ => trivial) fun _ => Touch.bind (g1eIndex_touch h4 a3) fun _ => ?_
  refine loop1e_touch h1 a5 h3 a4 (fun _ _ _ => trivial) ?_
  intro ip jp f q e hq
  have mk : ∀ (l : List (Ptr → α → Prog α Bool)) (em : Int), (∀ f ∈ l, ∀ (q : Ptr) fac, W q.buf → T W R (f q fac)) →
      T W R (makeGout (X.gout (s.env X) (s.g1 X L ip jp) A.idx A.g) A.g q f l em) := by
    intro l
    induction l with
    | nil => intro _ _; exact trivial
    | cons x l ih =>
      intro em hl
      refine Touch.bind (hl x (List.mem_cons_self ..) _ _ a5) fun _ => Touch.bind (hgo _ _ _ _ _ _ a3 a5 hq) fun _ => ?_
      exact ih 0 fun f hf => hl f (List.mem_cons_of_mem _ hf)
  exact mk _ _ (hg0 _ _)

theorem loop2eRun_touch {X : Int2e α} {s : Call2 α} {Rt : Rys2 α} {K : Consts α} {L : MathLib α} {fpd buf c : Nat}
    {gctr empty fl loc : Ptr} (h1 : W gctr.buf) (h0 : W empty.buf) (h2 : W buf) (h3 : W fl.buf) (h4 : W loc.buf)
    (hg0 : ∀ e d cut (q : Ptr) fac, W q.buf → T W R (g0_2e Rt K e d cut q fac))
    (hgo : ∀ e d (idx g q : Ptr) em, W idx.buf → W g.buf → W q.buf → T W R (X.gout e d idx g q em)) :
    T W R (loop2eRun X s Rt K L fpd gctr empty buf c fl loc) := by
  unfold loop2eRun
  have hA : W (arrays2e X s fpd buf c).logMaxc.buf ∧ W (arrays2e X s fpd buf c).pdata.buf ∧ W (arrays2e X s fpd buf c).idx.buf ∧
    W (arrays2e X s fpd buf c).tbl.buf ∧ W (arrays2e X s fpd buf c).g.buf := ⟨h2, h2, h2, h2, h2⟩
  generalize arrays2e X s fpd buf c = A at hA
  obtain ⟨a1, a2, a3, a4, a5⟩ := hA
  refine Touch.bind (fillLogMaxC_touch a1) fun _ => Touch.bind (fillLogMaxC_touch a1) fun _ =>
    Touch.bind (setPairdata_touch a2) fun _ => Touch.ite (fun _ => trivial) fun _ =>
    Touch.bind (fillLogMaxC_touch a1) fun _ => Touch.bind (fillLogMaxC_touch a1) fun _ =>
    Touch.bind (g2eIndex_touch h4 a3) fun _ => ?_
  exact loop2eNopt_touch h1 h0 a5 h3 a4 (fun _ _ _ _ _ => hg0 _ _ _ _ _ a5) (fun _ _ _ _ _ _ _ hq => hgo _ _ _ _ _ _ a3 a5 hq)

/-! ### Output -/

theorem dcopyIj_touch {o g : Ptr} {a b c : Nat} (h1 : W o.buf) (h2 : W g.buf) : T W R (dcopyIj o g a b c : Prog α Unit) := by
  unfold dcopyIj; tch [cpy_touch]

theorem copyRow_touch {o g : Ptr} {a : Nat} (h1 : W o.buf) (h2 : W g.buf) : T W R (copyRow o g a : Prog α Unit) := by
  unfold copyRow; split <;> tch [cpy_touch]

theorem dcopyIklj_touch {o g : Ptr} {a b c m1 m2 m3 m4 : Nat} (h1 : W o.buf) (h2 : W g.buf) :
    T W R (dcopyIklj o g a b c m1 m2 m3 m4 : Prog α Unit) := by
  unfold dcopyIklj
  dsimp only
  refine Touch.bind' (post := fun _ => True) (Touch.mono (Touch.forS' (fun s : Ptr × Ptr => W s.1.buf ∧ W s.2.buf) ⟨h1, h2⟩ ?_) fun _ _ => trivial)
    fun _ _ => trivial
  rintro i ⟨s1, s2⟩ ⟨w1, w2⟩
  refine Touch.bind (Touch.forN fun k => Touch.forN fun j => copyRow_touch w1 w2) fun _ => ?_
  exact ⟨w1, w2⟩

theorem c2sDset0_touch {o d c : Ptr} (h1 : W o.buf) (h2 : W d.buf ∨ R d.buf) (h3 : W c.buf) : T W R (c2sDset0 o d c : Prog α Unit) := by
  unfold c2sDset0
  refine Touch.bind (Touch.ldI h2) fun _ => Touch.bind (Touch.ldI h2) fun _ => Touch.bind (Touch.ldI h2) fun _ => ?_
  dsimp only
  refine Touch.ite (fun _ => by tch []) fun _ => ?_
  refine Touch.bind (Touch.ldI (Or.inl h3)) fun _ => Touch.bind (Touch.ldI (Or.inl h3)) fun _ =>
    Touch.bind (Touch.ldI (Or.inl h3)) fun _ => Touch.bind (Touch.ldI (Or.inl h3)) fun _ => ?_
  refine Touch.bind' (post := fun _ => True) (Touch.mono (Touch.forS' (fun s : Ptr => W s.buf) h1 ?_) fun _ _ => trivial) fun _ _ => trivial
  intro i s hs
  exact Touch.bind (by tch []) fun _ => hs

theorem c2s1e_touch {S : Shape} {tr : Ptr → Prog α Ptr} {o g d : Ptr} (h1 : W o.buf) (h2 : W g.buf) (h3 : W d.buf ∨ R d.buf)
    (ht : ∀ q : Ptr, W q.buf → Touch W R (fun r : Ptr => W r.buf) (tr q)) : T W R (c2s1e S tr o g d) := by
  unfold c2s1e
  refine Touch.bind (Touch.ldI h3) fun _ => Touch.bind (Touch.ldI h3) fun _ => ?_
  dsimp only
  refine Touch.bind' (post := fun _ => True) (Touch.mono (Touch.forS' (fun s : Ptr => W s.buf) h2 ?_) fun _ _ => trivial) fun _ _ => trivial
  intro i s hs
  refine Touch.forS' (fun s : Ptr => W s.buf) hs ?_
  intro i s hs
  exact Touch.bind' (ht s hs) fun r hr => Touch.bind (dcopyIj_touch h1 hr) fun _ => hs

theorem c2s2e1_touch {S : Shape} {tr : Ptr → Prog α Ptr} {o g d : Ptr} (h1 : W o.buf) (h2 : W g.buf) (h3 : W d.buf ∨ R d.buf)
    (ht : ∀ q : Ptr, W q.buf → Touch W R (fun r : Ptr => W r.buf) (tr q)) : T W R (c2s2e1 S tr o g d) := by
  unfold c2s2e1
  refine Touch.bind (Touch.ldI h3) fun _ => Touch.bind (Touch.ldI h3) fun _ => Touch.bind (Touch.ldI h3) fun _ =>
    Touch.bind (Touch.ldI h3) fun _ => ?_
  dsimp only
  refine Touch.bind' (post := fun _ => True) (Touch.mono (Touch.forS' (fun s : Ptr => W s.buf) h2 ?_) fun _ _ => trivial) fun _ _ => trivial
  intro i s hs
  refine Touch.forS' (fun s : Ptr => W s.buf) hs fun i s hs => Touch.forS' (fun s : Ptr => W s.buf) hs fun i s hs =>
    Touch.forS' (fun s : Ptr => W s.buf) hs fun i s hs => ?_
  exact Touch.bind' (ht s hs) fun r hr => Touch.bind (dcopyIklj_touch h1 hr) fun _ => hs

theorem prodDims_touch {d : Ptr} {r : Nat} (h : W d.buf ∨ R d.buf) : T W R (prodDims d r : Prog α Nat) := by
  induction r with
  | zero => exact trivial
  | succ r ih => exact Touch.bind ih fun _ => Touch.bind (Touch.ldI h) fun _ => trivial

theorem outStage_touch {r nComp nc : Nat} {hv : Bool} {c2s : Ptr → Ptr → Ptr → Prog α Unit} {out g counts : Ptr}
    {dims : Option Ptr} {cnt : Nat → Nat} (h1 : W out.buf) (h2 : W g.buf) (h3 : W counts.buf) (h4 : ∀ d ∈ dims, R d.buf)
    (hc : ∀ o g d : Ptr, W o.buf → W g.buf → (W d.buf ∨ R d.buf) → T W R (c2s o g d)) :
    T W R (outStage r hv nComp nc c2s out g dims counts cnt) := by
  unfold outStage
  have hd : W (dims.getD counts).buf ∨ R (dims.getD counts).buf := by
    cases dims with
    | none => exact Or.inl h3
    | some d => exact Or.inr (h4 d rfl)
  refine Touch.bind (by tch []) fun _ => Touch.bind (prodDims_touch hd) fun _ => Touch.ite (fun _ => ?_) fun _ => ?_
  · exact Touch.forN fun n => hc _ _ _ h1 h2 hd
  · exact Touch.forN fun n => c2sDset0_touch h1 hd h3

theorem drv1e_touch {X : Int1e α} {s : Call α} {K : Consts α} {L : MathLib α} {fpd buf c : Nat} {tr : Nat → Nat → Ptr → Prog α Ptr}
    {nfo : Nat → Nat} {out fl loc counts : Ptr} {dims : Option Ptr} (h1 : W out.buf) (h2 : W buf) (h3 : W fl.buf) (h4 : W loc.buf)
    (h5 : W counts.buf) (h6 : ∀ d ∈ dims, R d.buf)
    (ht : ∀ c (q : Ptr), W q.buf → Touch W R (fun r : Ptr => W r.buf) (tr buf c q))
    (hg0 : ∀ e d, ∀ f ∈ X.g0s K e d, ∀ (q : Ptr) fac, W q.buf → T W R (f q fac))
    (hgo : ∀ e d (idx g q : Ptr) em, W idx.buf → W g.buf → W q.buf → T W R (X.gout e d idx g q em)) :
    T W R (drv1e X s K L fpd tr nfo out dims buf c fl loc counts) := by
  unfold drv1e
  dsimp only
  refine Touch.bind (loop1eRun_touch (gctr := (mallocD fpd buf c _).1) h2 h2 h3 h4 hg0 hgo) fun hv => ?_
  refine Touch.bind (outStage_touch h1 (g := (mallocD fpd buf c _).1) h2 h5 h6 ?_) fun _ => trivial
  intro o g d ho hg hd
  exact c2s1e_touch ho hg hd (ht _)

theorem drv2e_touch {X : Int2e α} {s : Call2 α} {Rt : Rys2 α} {K : Consts α} {L : MathLib α} {fpd buf c : Nat}
    {tr : Nat → Nat → Ptr → Prog α Ptr}
    {nfo : Nat → Nat} {out empty fl loc counts : Ptr} {dims : Option Ptr} (h1 : W out.buf) (h2 : W buf) (h0 : W empty.buf)
    (h3 : W fl.buf) (h4 : W loc.buf) (h5 : W counts.buf) (h6 : ∀ d ∈ dims, R d.buf)
    (ht : ∀ c (q : Ptr), W q.buf → Touch W R (fun r : Ptr => W r.buf) (tr buf c q))
    (hg0 : ∀ e d cut (q : Ptr) fac, W q.buf → T W R (g0_2e Rt K e d cut q fac))
    (hgo : ∀ e d (idx g q : Ptr) em, W idx.buf → W g.buf → W q.buf → T W R (X.gout e d idx g q em)) :
    T W R (drv2e X s Rt K L fpd tr nfo out dims buf c empty fl loc counts) := by
  unfold drv2e
  dsimp only
  refine Touch.bind (Touch.stI h0) fun _ => ?_
  refine Touch.bind (loop2eRun_touch (gctr := (mallocD fpd buf c _).1) h2 h0 h2 h3 h4 hg0 hgo) fun hv => ?_
  refine Touch.bind (Touch.ldI (Or.inl h0)) fun e => ?_
  refine Touch.bind (outStage_touch h1 (g := (mallocD fpd buf c _).1) h2 h5 h6 ?_) fun _ => trivial
  intro o g d ho hg hd
  exact c2s2e1_touch ho hg hd (ht _)

/-! ### Spherical transformation; the table of coefficients is only read -/

theorem combFrom_touch {co g : Ptr} {pos : Nat → Nat} (h1 : W co.buf ∨ R co.buf) (h2 : W g.buf) (l : List (Nat × Nat)) (x : α) :
    T W R (combFrom co g pos l x) := by
  induction l generalizing x with
  | nil => exact trivial
  | cons t ts ih => exact Touch.bind (Touch.ld h1) fun _ => Touch.bind (Touch.ld (Or.inl h2)) fun _ => ih _

theorem stRows_touch {co s g : Ptr} {d p : Nat → Nat} (h1 : W co.buf ∨ R co.buf) (h2 : W g.buf) (h3 : W s.buf)
    (l : List (Nat × List (Nat × Nat))) : T W R (stRows co s g d p l : Prog α Unit) := by
  induction l with
  | nil => exact trivial
  | cons t ts ih =>
    refine Touch.bind ?_ fun _ => Touch.bind (Touch.st h3) fun _ => ih
    unfold comb
    split
    · exact trivial
    · exact Touch.bind (Touch.ld h1) fun _ => Touch.bind (Touch.ld (Or.inl h2)) fun _ => combFrom_touch h1 h2 _ _

theorem dgemmTN_touch {m n k : Nat} {a b c : Ptr} (h1 : W a.buf ∨ R a.buf) (h2 : W b.buf) (h3 : W c.buf) :
    T W R (dgemmTN m n k a b c : Prog α Unit) := by
  unfold dgemmTN; tch []

theorem dgemmNN1_touch {m n k l : Nat} {a b c : Ptr} (h1 : W b.buf ∨ R b.buf) (h2 : W a.buf) (h3 : W c.buf) :
    T W R (dgemmNN1 m n k a b c l : Prog α Unit) := by
  unfold dgemmNN1; tch []

abbrev TP (W R : Nat → Prop) (p : Prog α Ptr) : Prop := Touch W R (fun r : Ptr => W r.buf) p

theorem braSph_touch {tab s g : Ptr} {l n : Nat} (h1 : W tab.buf ∨ R tab.buf) (h2 : W s.buf) (h3 : W g.buf) :
    TP W R (braSph tab l s n g : Prog α Ptr) := by
  unfold braSph
  split
  · exact h3
  · exact h3
  all_goals first
    | exact Touch.bind (dgemmTN_touch (a := c2sAt tab _) h1 h3 h2) fun _ => h2
    | exact Touch.bind (Touch.forN fun _ => stRows_touch (co := c2sAt tab _) (s := s + _) (g := g + _) h1 h3 h2 _) fun _ => h2

theorem ketSph_touch {tab s g : Ptr} {l m n : Nat} (h1 : W tab.buf ∨ R tab.buf) (h2 : W s.buf) (h3 : W g.buf) :
    TP W R (ketSph tab l s g m n : Prog α Ptr) := by
  unfold ketSph
  split
  · exact h3
  · exact h3
  all_goals first
    | exact Touch.bind (dgemmNN1_touch (b := c2sAt tab _) h1 h3 h2) fun _ => h2
    | exact Touch.bind (Touch.forN fun _ => stRows_touch (co := c2sAt tab _) h1 h3 h2 _) fun _ => h2

theorem sph2eInner_touch {tab s g : Ptr} {l a b c d : Nat} (h1 : W tab.buf ∨ R tab.buf) (h2 : W s.buf) (h3 : W g.buf) :
    TP W R (sph2eInner tab s g l a b c d : Prog α Ptr) := by
  unfold sph2eInner
  split
  · exact h3
  · exact h3
  · refine Touch.bind (Touch.forN fun n => Touch.bind ((ketSph_touch (s := s + n*c) (g := g + n*d) h1 h2 h3).mono fun _ _ => trivial) fun _ => trivial)
      fun _ => h2

theorem sphTrans1e_touch {tab q : Ptr} {fpd li lj buf c : Nat} (h1 : W tab.buf ∨ R tab.buf) (h2 : W buf) (h3 : W q.buf) :
    TP W R (sphTrans1e tab fpd li lj buf c q : Prog α Ptr) := by
  unfold sphTrans1e
  dsimp only
  exact Touch.bind' (ketSph_touch (s := (mallocD fpd buf c _).1) h1 h2 h3) fun r hr =>
    braSph_touch (s := (mallocD fpd buf _ _).1) h1 h2 hr

theorem sphTrans2e_touch {tab q : Ptr} {fpd li lj lk ll buf c : Nat} (h1 : W tab.buf ∨ R tab.buf) (h2 : W buf) (h3 : W q.buf) :
    TP W R (sphTrans2e tab fpd li lj lk ll buf c q : Prog α Ptr) := by
  unfold sphTrans2e
  dsimp only
  exact Touch.bind' (ketSph_touch (s := (mallocD fpd buf c _).1) h1 h2 h3) fun r hr =>
    Touch.bind' (sph2eInner_touch (s := (mallocD fpd buf c _).1 + _) h1 h2 hr) fun r hr =>
    Touch.bind' (sph2eInner_touch (s := (mallocD fpd buf c _).1 + _ + _) h1 h2 hr) fun r hr =>
    braSph_touch (s := (mallocD fpd buf c _).1 + _ + _ + _) h1 h2 hr

end
end
end Verif.Lemmas
