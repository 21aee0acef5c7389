import Verif.Lemmas.Nests

/-! The two-level nest with a kernel that has scratch behind the contraction blocks. -/
namespace Verif.Model
open Verif Prog

variable {α : Type} [CommRing α] [DecidableEq α]

theorem Contrib.primG {T : Ptr → Option Int} {flag p : Ptr} {SI : Ptr → Prop}
    {g g1 own : Ptr} {leng E : Nat}
    {ctr prim Ng t : Nat} {non0ctr non0idx : Ptr} {c : Nat → α}
    {g0 : α → Prog α Bool} {fgout : α → Ptr → Int → Prog α Unit} {expo : α} {keep : Bool}
    {w : Nat → α} {gflag gout g1' : Ptr} {A : Nat} {Gs : Ptr → Prop}
    (hA : Ng ≤ A) (hy : aliasAddr ctr p flag own g1 A = (gout, gflag, g1'))
    (L : Lay g leng g1 E p (Ng*ctr)) (room : g1'.off ≤ E)
    (hctr : 1 ≤ ctr) (ht : t < prim) (htbl : ctr ≠ 1 → TblRO T non0ctr non0idx c prim ctr)
    (hown : ctr ≠ 1 → T own = some 1) (hGs : ∀ q, Gs q → Scr g leng g1' E q)
    (hK : KernelSpec T g0 fgout Gs Ng keep w) (fac fac1i : α)
    (hfac : fac1i = if ctr = 1 then fac * c t * expo else fac * expo) :
    Contrib T (primBody ctr prim flag gflag p gout c Ng non0ctr non0idx t fac1i g0 fgout)
      flag p (Ng*ctr) keep
      (fun m => fac * (if keep then c (prim*(m/Ng)+t) * (expo * w (m%Ng)) else 0))
      (Scr g leng g1 E) SI := by
  have Lg := L.alias' (ctr := ctr) (Ny := Ng) flag own rfl hA
  rw [hy] at Lg
  have hle : g1.off ≤ g1'.off := by
    have := @alias_le ctr A p flag own g1; rw [hy] at this; exact this
  refine Contrib.prim hctr ht htbl ?_ ?_ (fun i hi hb => Lg.not_scr (le_refl _) hi (hGs _ hb))
    (fun q hq => (hGs q hq).mono hle) (fun i hi hb => L.not_scr hle hi (hGs _ hb))
    hK fac fac1i hfac
  · intro h1; subst h1
    rw [aliasAddr_one, Prod.mk.injEq, Prod.mk.injEq] at hy
    exact ⟨by rw [hy.2.1], hy.1.symm⟩
  · intro h1
    rw [aliasAddr_ne h1, Prod.mk.injEq, Prod.mk.injEq] at hy
    obtain ⟨rfl, rfl, rfl⟩ := hy
    refine ⟨fun h hT => by simp only [wp_ldI]; exact ⟨1, hT _ _ (hown h1), rfl, True.intro⟩, L.disj (by simp only [Ptr.add_off] at room; omega), ?_⟩
    rintro q ⟨i, hi, rfl⟩
    refine ⟨L.buf, Or.inr ⟨by simp, ?_⟩⟩
    simp only [Ptr.add_off] at room ⊢; omega

theorem Nest2.contribG {P : Nest2 α} {keep : Nat → Nat → Bool} {w : Nat → Nat → Nat → α}
    {T : Ptr → Option Int} {ti tj : Tbl} {facI : α → Nat → Nat → α}
    {fj gj g1 gi fi g2 go fo g3 fli flg g : Ptr} {leng E Ai A0 : Nat} {Gs : Ptr → Prop}
    (hAi : P.leni ≤ Ai) (hA0 : P.len0 ≤ A0)
    (e2 : aliasAddr P.jCtr gj fj fli g1 Ai = (gi, fi, g2))
    (e3 : aliasAddr P.iCtr gi fi flg g2 A0 = (go, fo, g3))
    (L : Lay g leng g1 E gj P.lenj) (room : g3.off ≤ E)
    (ictr : 1 ≤ P.iCtr) (jctr : 1 ≤ P.jCtr)
    (hti : P.iCtr ≠ 1 → TblRO T ti.ctr ti.idx P.ci P.iPrim P.iCtr)
    (htj : P.jCtr ≠ 1 → TblRO T tj.ctr tj.idx P.cj P.jPrim P.jCtr)
    (hfj : T fj = none) (hne : fj ≠ fli) (hfli : T fli = none) (hflg : T flg = some 1)
    (hGs : ∀ q, Gs q → Scr g leng g3 E q)
    (kern : ∀ ip jp, ip < P.iPrim → jp < P.jPrim → KernelSpec T (P.g0 ip jp) (P.gout ip jp)
      Gs P.len0 (keep ip jp) (w ip jp))
    (hfac : ∀ fac ip jp, facI fac ip jp =
      if P.iCtr = 1 then fac * P.ci ip * P.eij ip jp else fac * P.eij ip jp) :
    Contrib T (P.nest ti tj facI fj fi fo gj gi go) fj gj P.lenj (P.bJ keep) (P.vJ keep w)
      (Scr g leng g1 E) (fun q => q = fli) := by
  have o2 : g2.off = g1.off + aliasLen P.jCtr Ai := by
    have := @alias_off P.jCtr Ai gj fj fli g1; rw [e2] at this; exact this
  have o3 : g3.off = g2.off + aliasLen P.iCtr A0 := by
    have := @alias_off P.iCtr A0 gi fi flg g2; rw [e3] at this; exact this
  have L2 := L.alias' (ctr := P.jCtr) (Ny := P.leni) fj fli rfl hAi
  rw [e2] at L2
  dsimp only at L2
  have hfi : T fi = none := by
    unfold aliasAddr at e2
    split at e2 <;> (simp only [Prod.mk.injEq] at e2; obtain ⟨_, rfl, _⟩ := e2; assumption)
  have hno : ∀ q : Ptr, False → T q = none := fun q h => h.elim
  have Hi : ∀ jp, jp < P.jPrim → ∀ fac,
      Contrib T (forN P.iPrim fun ip =>
        if P.skip ip jp then pure () else
        primBody P.iCtr P.iPrim fi fo gi go P.ci P.len0 ti.ctr ti.idx ip
          (facI fac ip jp) (P.g0 ip jp) (P.gout ip jp))
        fi gi P.leni (P.bI keep jp) (fun m => fac * P.vI keep w jp m)
        (Scr g leng g2 E) (fun _ => False) := by
    intro jp hjp fac
    refine Contrib.loopFac hfi hno (fun ip hip => Contrib.ite (fun _ => ?_))
    exact Contrib.primG hA0 e3 L2 room ictr hip hti (fun _ => hflg) hGs (kern ip jp hip hjp) fac _ (hfac _ _ _)
  refine Contrib.loopFac hfj (by rintro q rfl; exact hfli) (fun jp hjp => ?_)
  exact Contrib.levelA' (SI' := fun q => q = fli) hAi e2 L (by omega) jctr hjp htj (fun _ => ⟨hne, hfli, rfl⟩) hno (fun h => h)
    (fun q h => h.elim) (Hi jp hjp) P.common

end Verif.Model
