import Verif.Model.WrapOpt
import Verif.Props.WrapSp
import Verif.Props.SpinorOpt
import Verif.Props.Opt2eDemo

/-!
C39: the functions of the libcint 2 and Fortran interface called with an optimizer.

In each theorem `Q` is an optimizer built for the basis, `A` is a call of the full function with any `dims` (or none) and a cache
supplied by the caller, `W` is memory in which the function without these arguments is called; both use the optimizer `Q`.  Both
complete, return the same value and store the same numbers, the second without gaps, and both leave the optimizer as it was.
-/
namespace Verif.Props
open Verif Verif.Model Verif.Prog Verif.Lemmas Verif.Spec

section
variable {α : Type} [Field α] [LinearOrder α] {R : Rys2 α} {K : Consts α} {L : MathLib α} {X : Int2e α} {B : Nat → PShell α} {nbas : Nat}
  {envCut omega : α} {i j k l : Nat}

/-- where the optimizer is intact the loop function leaves early or not, whatever the rest of memory holds -/
theorem stops2_intact {Q : Optim X L B nbas envCut omega} (H : InBasis B nbas i j k l) {s : Call2 α} {h h' : Heap α} (a : Q.Intact h)
    (b : Q.Intact h') : Stops2 L X s Q.O h' i j k l ↔ Stops2 L X s Q.O h i j k l := by
  refine Stops2.congr fun t p hO q hq => ?_
  have n : ¬ Apart Q.P q.buf := fun x => ((optSep_of H.some_prim H.tall x).2 t p hO).1 hq.symm
  exact (b q n).2.trans (a q n).2.symm

theorem stops3_intact {Q : Optim3 X L B nbas envCut omega} (H : InBasis3 B nbas i j k) {s : Call3 α} {h h' : Heap α} (a : Q.Intact h)
    (b : Q.Intact h') : Stops3 L X s Q.O h' i j ↔ Stops3 L X s Q.O h i j := by
  refine Stops3.congr fun t p hO q hq => ?_
  have n : ¬ Apart Q.P q.buf := fun x => ((optSep3_of H.some_prim H.tall x).2 t p hO).1 hq.symm
  exact (b q n).2.trans (a q n).2.symm

/-- **C39**, four-centre integrals with an optimizer and Cartesian output. -/
theorem C39_four_centre_opt_cart (st : Nat) (Q : Optim X L B nbas envCut omega) (A W : CartMem4 X (basisCall B envCut omega i j k l))
    (UA : CallsWith Q A) (UW : CallsWith Q W) (hd : W.dims = none) (H : InBasis B nbas i j k l) (hnc : 1 ≤ X.nComp)
    (hK : EvalAll R K X (basisCall B envCut omega i j k l)) :
    ∃ has ha hw,
      run (int2eOpt X (basisCall B envCut omega i j k l) R K L Q.O i j k l A.fpd (fun _ _ => pure) (ncar (Call2.ls (basisCall B envCut omega i j k l)))
        A.out A.dims (some A.buf) st A.empty A.fl A.loc A.counts) A.h = some (has, ha) ∧
      run (cint2eOpt X (basisCall B envCut omega i j k l) R K L Q.O i j k l W.fpd (fun _ _ => pure) (ncar (Call2.ls (basisCall B envCut omega i j k l)))
        W.out W.buf W.empty W.fl W.loc W.counts) W.h = some (has, hw) ∧ Q.Intact ha ∧ Q.Intact hw ∧
      ∀ n ic jc kc lc a b c d, n < X.nComp → ic < (B i).nctr → jc < (B j).nctr → kc < (B k).nctr → lc < (B l).nctr →
        a < ncart (B i).l → b < ncart (B j).l → c < ncart (B k).l → d < ncart (B l).l → (∃ v, A.elem ha n ic a jc b kc c lc d = .val v) ∧
        hw.D (W.out + outAt (fun t => (ncar (Call2.ls (basisCall B envCut omega i j k l))) t * Call2.nctrs (basisCall B envCut omega i j k l) t) n
          (ic*(ncart (B i).l)+a) (jc*(ncart (B j).l)+b) (kc*(ncart (B k).l)+c) (lc*(ncart (B l).l)+d)) =
          A.elem ha n ic a jc b kc c lc d := by
  obtain ⟨keep, w, hK⟩ := hK (vIJ L X B nbas envCut omega i j k l) (vKL L X B nbas envCut omega i j k l)
  obtain ⟨ra, ha, r1, v1, _, F1, f1⟩ := opt_cart Q A UA H hnc hK
  obtain ⟨rw, hw, r2, v2, _, F2, f2⟩ := opt_cart Q W UW H hnc hK
  obtain rfl := flag_eq f1.2.2.2 (f2.2.2.2.trans (and_congr_right fun _ => not_congr (stops2_intact H UA.intact UW.intact)))
  refine ⟨_, ha, hw, r1, ?_, intact_of_frame UA F1, intact_of_frame UW F2, ?_⟩
  · rw [hd] at r2
    exact r2
  · have ho := W.O.h_dims
    rw [hd] at ho
    intro n ic jc kc lc a b c d h0 h1 h2 h3 h4 h5 h6 h7 h8
    refine ⟨⟨_, v1 n ic jc kc lc a b c d h0 h1 h2 h3 h4 h5 h6 h7 h8⟩, ?_⟩
    rw [dense_none ho]
    exact (v2 n ic jc kc lc a b c d h0 h1 h2 h3 h4 h5 h6 h7 h8).trans (v1 n ic jc kc lc a b c d h0 h1 h2 h3 h4 h5 h6 h7 h8).symm

/-- **C39**, four-centre integrals with an optimizer and spherical output. -/
theorem C39_four_centre_opt_sph (st : Nat) (Q : Optim X L B nbas envCut omega) (A W : SphMem4 X (basisCall B envCut omega i j k l))
    (UA : CallsWith Q A.toMem4) (UW : CallsWith Q W.toMem4) (hd : W.dims = none) (H : InBasis B nbas i j k l) (hnc : 1 ≤ X.nComp)
    (hK : EvalAll R K X (basisCall B envCut omega i j k l)) :
    ∃ has ha hw,
      run (int2eOpt X (basisCall B envCut omega i j k l) R K L Q.O i j k l A.fpd (sphTrans2e A.tab A.fpd (B i).l (B j).l (B k).l (B l).l) (nsph (Call2.ls (basisCall B envCut omega i j k l)))
        A.out A.dims (some A.buf) st A.empty A.fl A.loc A.counts) A.h = some (has, ha) ∧
      run (cint2eOpt X (basisCall B envCut omega i j k l) R K L Q.O i j k l W.fpd (sphTrans2e W.tab W.fpd (B i).l (B j).l (B k).l (B l).l) (nsph (Call2.ls (basisCall B envCut omega i j k l)))
        W.out W.buf W.empty W.fl W.loc W.counts) W.h = some (has, hw) ∧ Q.Intact ha ∧ Q.Intact hw ∧
      ∀ n ic jc kc lc a b c d, n < X.nComp → ic < (B i).nctr → jc < (B j).nctr → kc < (B k).nctr → lc < (B l).nctr →
        a < (B i).l*2+1 → b < (B j).l*2+1 → c < (B k).l*2+1 → d < (B l).l*2+1 → (∃ v, A.elem ha n ic a jc b kc c lc d = .val v) ∧
        hw.D (W.out + outAt (fun t => (nsph (Call2.ls (basisCall B envCut omega i j k l))) t * Call2.nctrs (basisCall B envCut omega i j k l) t) n
          (ic*((B i).l*2+1)+a) (jc*((B j).l*2+1)+b) (kc*((B k).l*2+1)+c) (lc*((B l).l*2+1)+d)) =
          A.elem ha n ic a jc b kc c lc d := by
  obtain ⟨keep, w, hK⟩ := hK (vIJ L X B nbas envCut omega i j k l) (vKL L X B nbas envCut omega i j k l)
  obtain ⟨ra, ha, r1, v1, _, F1, f1⟩ := opt_sph Q A UA H hnc hK
  obtain ⟨rw, hw, r2, v2, _, F2, f2⟩ := opt_sph Q W UW H hnc hK
  obtain rfl := flag_eq f1.2.2.2 (f2.2.2.2.trans (and_congr_right fun _ => not_congr (stops2_intact H UA.intact UW.intact)))
  refine ⟨_, ha, hw, r1, ?_, intact_of_frame UA F1, intact_of_frame UW F2, ?_⟩
  · rw [hd] at r2
    exact r2
  · have ho := W.O.h_dims
    rw [hd] at ho
    intro n ic jc kc lc a b c d h0 h1 h2 h3 h4 h5 h6 h7 h8
    refine ⟨⟨_, v1 n ic jc kc lc a b c d h0 h1 h2 h3 h4 h5 h6 h7 h8⟩, ?_⟩
    rw [dense_none ho]
    exact (v2 n ic jc kc lc a b c d h0 h1 h2 h3 h4 h5 h6 h7 h8).trans (v1 n ic jc kc lc a b c d h0 h1 h2 h3 h4 h5 h6 h7 h8).symm

/-- **C39**, three-centre integrals with an optimizer and Cartesian output. -/
theorem C39_three_centre_opt_cart (st : Nat) (Q : Optim3 X L B nbas envCut omega) (A W : CartMem3 X (basisCall3 B envCut omega i j k))
    (UA : CallsWith3 Q A) (UW : CallsWith3 Q W) (hd : W.dims = none) (H : InBasis3 B nbas i j k) (hnc : 1 ≤ X.nComp)
    (hK : EvalAll3 R K L X (basisCall3 B envCut omega i j k)) :
    ∃ has ha hw,
      run (int3c2eOpt X (basisCall3 B envCut omega i j k) R K L Q.O i j A.fpd (fun _ _ => pure) (ncar (Call3.ls (basisCall3 B envCut omega i j k)))
        A.out A.dims (some A.buf) st A.empty A.fl A.loc A.counts) A.h = some (has, ha) ∧
      run (cint3c2eOpt X (basisCall3 B envCut omega i j k) R K L Q.O i j W.fpd (fun _ _ => pure) (ncar (Call3.ls (basisCall3 B envCut omega i j k)))
        W.out W.buf W.empty W.fl W.loc W.counts) W.h = some (has, hw) ∧ Q.Intact ha ∧ Q.Intact hw ∧
      ∀ n ic jc kc a b c, n < X.nComp → ic < (B i).nctr → jc < (B j).nctr → kc < (B k).nctr →
        a < ncart (B i).l → b < ncart (B j).l → c < ncart (B k).l → (∃ v, A.elem ha n ic a jc b kc c = .val v) ∧
        hw.D (W.out + outAt (fun t => (ncar (Call3.ls (basisCall3 B envCut omega i j k))) t * Call3.nctrs (basisCall3 B envCut omega i j k) t) n
          (ic*(ncart (B i).l)+a) (jc*(ncart (B j).l)+b) (kc*(ncart (B k).l)+c) 0) =
          A.elem ha n ic a jc b kc c := by
  obtain ⟨keep, w, hK⟩ := hK (vIJ3 L X B nbas envCut omega i j k)
  obtain ⟨ra, ha, r1, v1, _, F1, f1⟩ := opt3_cart Q A UA H hnc hK
  obtain ⟨rw, hw, r2, v2, _, F2, f2⟩ := opt3_cart Q W UW H hnc hK
  obtain rfl := flag_eq f1.2.2.2 (f2.2.2.2.trans (and_congr_right fun _ => not_congr (stops3_intact H UA.intact UW.intact)))
  refine ⟨_, ha, hw, r1, ?_, intact3_of_frame UA F1, intact3_of_frame UW F2, ?_⟩
  · rw [hd] at r2
    exact r2
  · have ho := W.O.h_dims
    rw [hd] at ho
    intro n ic jc kc a b c h0 h1 h2 h3 h4 h5 h6
    refine ⟨⟨_, v1 n ic jc kc a b c h0 h1 h2 h3 h4 h5 h6⟩, ?_⟩
    rw [dense_none ho]
    exact (v2 n ic jc kc a b c h0 h1 h2 h3 h4 h5 h6).trans (v1 n ic jc kc a b c h0 h1 h2 h3 h4 h5 h6).symm

/-- **C39**, three-centre integrals with an optimizer and spherical output. -/
theorem C39_three_centre_opt_sph (st : Nat) (Q : Optim3 X L B nbas envCut omega) (A W : SphMem3 X (basisCall3 B envCut omega i j k))
    (UA : CallsWith3 Q A.toMem3) (UW : CallsWith3 Q W.toMem3) (hd : W.dims = none) (H : InBasis3 B nbas i j k) (hnc : 1 ≤ X.nComp)
    (hK : EvalAll3 R K L X (basisCall3 B envCut omega i j k)) :
    ∃ has ha hw,
      run (int3c2eOpt X (basisCall3 B envCut omega i j k) R K L Q.O i j A.fpd (sphTrans3c A.tab A.fpd (B i).l (B j).l (B k).l) (nsph (Call3.ls (basisCall3 B envCut omega i j k)))
        A.out A.dims (some A.buf) st A.empty A.fl A.loc A.counts) A.h = some (has, ha) ∧
      run (cint3c2eOpt X (basisCall3 B envCut omega i j k) R K L Q.O i j W.fpd (sphTrans3c W.tab W.fpd (B i).l (B j).l (B k).l) (nsph (Call3.ls (basisCall3 B envCut omega i j k)))
        W.out W.buf W.empty W.fl W.loc W.counts) W.h = some (has, hw) ∧ Q.Intact ha ∧ Q.Intact hw ∧
      ∀ n ic jc kc a b c, n < X.nComp → ic < (B i).nctr → jc < (B j).nctr → kc < (B k).nctr →
        a < (B i).l*2+1 → b < (B j).l*2+1 → c < (B k).l*2+1 → (∃ v, A.elem ha n ic a jc b kc c = .val v) ∧
        hw.D (W.out + outAt (fun t => (nsph (Call3.ls (basisCall3 B envCut omega i j k))) t * Call3.nctrs (basisCall3 B envCut omega i j k) t) n
          (ic*((B i).l*2+1)+a) (jc*((B j).l*2+1)+b) (kc*((B k).l*2+1)+c) 0) =
          A.elem ha n ic a jc b kc c := by
  obtain ⟨keep, w, hK⟩ := hK (vIJ3 L X B nbas envCut omega i j k)
  obtain ⟨ra, ha, r1, v1, _, F1, f1⟩ := opt3_sph Q A UA H hnc hK
  obtain ⟨rw, hw, r2, v2, _, F2, f2⟩ := opt3_sph Q W UW H hnc hK
  obtain rfl := flag_eq f1.2.2.2 (f2.2.2.2.trans (and_congr_right fun _ => not_congr (stops3_intact H UA.intact UW.intact)))
  refine ⟨_, ha, hw, r1, ?_, intact3_of_frame UA F1, intact3_of_frame UW F2, ?_⟩
  · rw [hd] at r2
    exact r2
  · have ho := W.O.h_dims
    rw [hd] at ho
    intro n ic jc kc a b c h0 h1 h2 h3 h4 h5 h6
    refine ⟨⟨_, v1 n ic jc kc a b c h0 h1 h2 h3 h4 h5 h6⟩, ?_⟩
    rw [dense_none ho]
    exact (v2 n ic jc kc a b c h0 h1 h2 h3 h4 h5 h6).trans (v1 n ic jc kc a b c h0 h1 h2 h3 h4 h5 h6).symm

/-- **C39**, two-centre integrals with an optimizer and Cartesian output. -/
theorem C39_two_centre_opt_cart {keep : Nat → Nat → Bool} {w : Nat → Nat → Nat → α} (st : Nat) (Q : Optim2c X B nbas omega)
    (A W : CartMem2c X (basisCall2c B envCut omega i k))
    (UA : CallsWith2c Q A) (UW : CallsWith2c Q W) (hd : W.dims = none) (H : InBasis2c B nbas i k) (hnc : 1 ≤ X.nComp)
    (hK : EvalOK2c R K X (basisCall2c B envCut omega i k) keep w) :
    ∃ has ha hw,
      run (int2c2eOpt X (basisCall2c B envCut omega i k) R K Q.O A.fpd (fun _ _ => pure) (ncar (Call2c.ls (basisCall2c B envCut omega i k)))
        A.out A.dims (some A.buf) st A.empty A.fl A.counts) A.h = some (has, ha) ∧
      run (cint2c2eOpt X (basisCall2c B envCut omega i k) R K Q.O W.fpd (fun _ _ => pure) (ncar (Call2c.ls (basisCall2c B envCut omega i k)))
        W.out W.buf W.empty W.fl W.counts) W.h = some (has, hw) ∧ Q.Intact ha ∧ Q.Intact hw ∧
      ∀ n ic kc a c, n < X.nComp → ic < (B i).nctr → kc < (B k).nctr → a < ncart (B i).l → c < ncart (B k).l →
        (∃ v, A.elem ha n ic a kc c = .val v) ∧
        hw.D (W.out + outAt (fun t => (ncar (Call2c.ls (basisCall2c B envCut omega i k))) t * Call2c.nctrs (basisCall2c B envCut omega i k) t) n
          (ic*(ncart (B i).l)+a) (kc*(ncart (B k).l)+c) 0 0) = A.elem ha n ic a kc c := by
  obtain ⟨ra, ha, r1, v1, _, F1, f1⟩ := drv2c2eBy_cart (loop := fun g c => loop2c2eOpt X (basisCall2c B envCut omega i k) R K Q.O A.fpd g A.empty A.buf c A.fl)
    A.M (opt2c_loop UA H hnc hK) A.hs A.O A.hd2
  obtain ⟨rw, hw, r2, v2, _, F2, f2⟩ := drv2c2eBy_cart (loop := fun g c => loop2c2eOpt X (basisCall2c B envCut omega i k) R K Q.O W.fpd g W.empty W.buf c W.fl)
    W.M (opt2c_loop UW H hnc hK) W.hs W.O W.hd2
  obtain rfl := flag_eq f1 f2
  refine ⟨_, ha, hw, r1, ?_, intact2c_of_frame UA F1, intact2c_of_frame UW F2, ?_⟩
  · rw [hd] at r2
    exact r2
  · have ho := W.O.h_dims
    rw [hd] at ho
    intro n ic kc a c h0 h1 h2 h3 h4
    refine ⟨⟨_, v1 n ic kc a c h0 h1 h2 h3 h4⟩, ?_⟩
    rw [dense_none ho]
    exact (v2 n ic kc a c h0 h1 h2 h3 h4).trans (v1 n ic kc a c h0 h1 h2 h3 h4).symm

/-- **C39**, two-centre integrals with an optimizer and spherical output. -/
theorem C39_two_centre_opt_sph {keep : Nat → Nat → Bool} {w : Nat → Nat → Nat → α} (st : Nat) (Q : Optim2c X B nbas omega)
    (A W : SphMem2c X (basisCall2c B envCut omega i k))
    (UA : CallsWith2c Q A.toMem2c) (UW : CallsWith2c Q W.toMem2c) (hd : W.dims = none) (H : InBasis2c B nbas i k) (hnc : 1 ≤ X.nComp)
    (hK : EvalOK2c R K X (basisCall2c B envCut omega i k) keep w) :
    ∃ has ha hw,
      run (int2c2eOpt X (basisCall2c B envCut omega i k) R K Q.O A.fpd (sphTrans1e A.tab A.fpd (B i).l (B k).l) (nsph (Call2c.ls (basisCall2c B envCut omega i k)))
        A.out A.dims (some A.buf) st A.empty A.fl A.counts) A.h = some (has, ha) ∧
      run (cint2c2eOpt X (basisCall2c B envCut omega i k) R K Q.O W.fpd (sphTrans1e W.tab W.fpd (B i).l (B k).l) (nsph (Call2c.ls (basisCall2c B envCut omega i k)))
        W.out W.buf W.empty W.fl W.counts) W.h = some (has, hw) ∧ Q.Intact ha ∧ Q.Intact hw ∧
      ∀ n ic kc a c, n < X.nComp → ic < (B i).nctr → kc < (B k).nctr → a < (B i).l*2+1 → c < (B k).l*2+1 →
        (∃ v, A.elem ha n ic a kc c = .val v) ∧
        hw.D (W.out + outAt (fun t => (nsph (Call2c.ls (basisCall2c B envCut omega i k))) t * Call2c.nctrs (basisCall2c B envCut omega i k) t) n
          (ic*((B i).l*2+1)+a) (kc*((B k).l*2+1)+c) 0 0) = A.elem ha n ic a kc c := by
  obtain ⟨ra, ha, r1, v1, _, F1, f1⟩ := drv2c2eBy_sph (loop := fun g c => loop2c2eOpt X (basisCall2c B envCut omega i k) R K Q.O A.fpd g A.empty A.buf c A.fl)
    A.M (opt2c_loop UA H hnc hK) A.hsize A.hs A.O A.hd2 A.hT A.htb A.hto (H.ls envCut omega)
  obtain ⟨rw, hw, r2, v2, _, F2, f2⟩ := drv2c2eBy_sph (loop := fun g c => loop2c2eOpt X (basisCall2c B envCut omega i k) R K Q.O W.fpd g W.empty W.buf c W.fl)
    W.M (opt2c_loop UW H hnc hK) W.hsize W.hs W.O W.hd2 W.hT W.htb W.hto (H.ls envCut omega)
  obtain rfl := flag_eq f1 f2
  refine ⟨_, ha, hw, r1, ?_, intact2c_of_frame UA F1, intact2c_of_frame UW F2, ?_⟩
  · rw [hd] at r2
    exact r2
  · have ho := W.O.h_dims
    rw [hd] at ho
    intro n ic kc a c h0 h1 h2 h3 h4
    refine ⟨⟨_, v1 n ic kc a c h0 h1 h2 h3 h4⟩, ?_⟩
    rw [dense_none ho]
    exact (v2 n ic kc a c h0 h1 h2 h3 h4).trans (v1 n ic kc a c h0 h1 h2 h3 h4).symm

/-- **C39**, four-centre integrals with an optimizer and spinor output. -/
theorem C39_four_centre_opt_spinor {nT : Nat} {kap : Nat → Int} {k1 k2 : SpKind} (st : Nat) (Q : Optim X L B nbas envCut omega)
    (A W : SpMem4 X (basisCall B envCut omega i j k l) nT (SpKind.comps k2) kap) (UA : SpCallsWith Q A) (UW : SpCallsWith Q W) (hd : W.dims = none)
    (H : InBasis B nbas i j k l) (hn : X.nComp = SpKind.comps k1 * SpKind.comps k2 * nT) (hK : EvalAll R K X (basisCall B envCut omega i j k l)) (hnT : 1 ≤ nT)
    (hl : ∀ t, t < 4 → Call2.ls (basisCall B envCut omega i j k l) t < 13) :
    ∃ has ha hw,
      run (int2eSpOpt X (basisCall B envCut omega i j k l) R K L Q.O i j k l (SpKind.comps k1) (SpKind.comps k2) nT k1 k2 A.tab kap A.fpd A.out A.dims
        (some A.buf) st A.empty A.fl A.loc A.counts) A.h = some (has, ha) ∧
      run (cint2eSpOpt X (basisCall B envCut omega i j k l) R K L Q.O i j k l (SpKind.comps k1) (SpKind.comps k2) nT k1 k2 W.tab kap W.fpd W.out W.buf
        W.empty W.fl W.loc W.counts) W.h = some (has, hw) ∧ Q.Intact ha ∧ Q.Intact hw ∧
      ∀ n ic jc kc lc a b c d, n < nT → ic < (B i).nctr → jc < (B j).nctr → kc < (B k).nctr → lc < (B l).nctr →
        a < lenSpinorC2S (kap 0) (B i).l → b < lenSpinorC2S (kap 1) (B j).l → c < lenSpinorC2S (kap 2) (B k).l →
        d < lenSpinorC2S (kap 3) (B l).l →
        ∃ z, A.Elem ha n ic a jc b kc c lc d z ∧
          HoldsC hw W.out (outAt (fun t => Call2.nsp (basisCall B envCut omega i j k l) kap t * Call2.nctrs (basisCall B envCut omega i j k l) t) n
            (ic*lenSpinorC2S (kap 0) (B i).l+a) (jc*lenSpinorC2S (kap 1) (B j).l+b) (kc*lenSpinorC2S (kap 2) (B k).l+c)
            (lc*lenSpinorC2S (kap 3) (B l).l+d)) z := by
  obtain ⟨keep, w, hK⟩ := hK (vIJ L X B nbas envCut omega i j k l) (vKL L X B nbas envCut omega i j k l)
  obtain ⟨ra, ha, r1, v1, _, F1, f1, _⟩ := sp4_runO (k1 := k1) Q A UA H hn hK hnT hl
  obtain ⟨rw, hw, r2, v2, _, F2, f2, _⟩ := sp4_runO (k1 := k1) Q W UW H hn hK hnT hl
  obtain rfl := flag_eq f1.2.2.2 (f2.2.2.2.trans (and_congr_right fun _ => not_congr (stops2_intact H UA.intact UW.intact)))
  refine ⟨_, ha, hw, r1, ?_, intact_of_frameZ UA F1, intact_of_frameZ UW F2, ?_⟩
  · rw [hd] at r2
    exact r2
  · have ho := W.O.h_dims
    rw [hd] at ho
    intro n ic jc kc lc a b c d h0 h1 h2 h3 h4 h5 h6 h7 h8
    refine ⟨_, v1 n ic jc kc lc a b c d h0 h1 h2 h3 h4 h5 h6 h7 h8, ?_⟩
    rw [dense_none ho]
    exact v2 n ic jc kc lc a b c d h0 h1 h2 h3 h4 h5 h6 h7 h8

/-- **C39**, three-centre integrals with an optimizer and spinor output. -/
theorem C39_three_centre_opt_spinor {nT : Nat} {ki kj : Int} {kd : SpKind} (st : Nat) (Q : Optim3 X L B nbas envCut omega)
    (A W : SpMem3 X (basisCall3 B envCut omega i j k) nT ki kj) (UA : SpCallsWith3 Q A) (UW : SpCallsWith3 Q W) (hd : W.dims = none)
    (H : InBasis3 B nbas i j k) (hn : X.nComp = SpKind.comps kd * nT) (hK : EvalAll3 R K L X (basisCall3 B envCut omega i j k)) (hnT : 1 ≤ nT)
    (hl : LOKsp3 (basisCall3 B envCut omega i j k)) :
    ∃ has ha hw,
      run (int3c2eSpOpt X (basisCall3 B envCut omega i j k) R K L Q.O i j (SpKind.comps kd) nT kd A.sph A.tab ki kj A.fpd A.out A.dims (some A.buf) st
        A.empty A.fl A.loc A.counts) A.h = some (has, ha) ∧
      run (cint3c2eSpOpt X (basisCall3 B envCut omega i j k) R K L Q.O i j (SpKind.comps kd) nT kd W.sph W.tab ki kj W.fpd W.out W.buf
        W.empty W.fl W.loc W.counts) W.h = some (has, hw) ∧ Q.Intact ha ∧ Q.Intact hw ∧
      ∀ n ic jc kc a b c, n < nT → ic < (B i).nctr → jc < (B j).nctr → kc < (B k).nctr →
        a < lenSpinorC2S ki (B i).l → b < lenSpinorC2S kj (B j).l → c < (B k).l*2+1 →
        ∃ z, A.Elem ha n ic a jc b kc c z ∧
          HoldsC hw W.out (outAt (fun t => Call3.nsp (basisCall3 B envCut omega i j k) ki kj t * Call3.nctrs (basisCall3 B envCut omega i j k) t) n
            (ic*lenSpinorC2S ki (B i).l+a) (jc*lenSpinorC2S kj (B j).l+b) (kc*((B k).l*2+1)+c) 0) z := by
  obtain ⟨keep, w, hK⟩ := hK (vIJ3 L X B nbas envCut omega i j k)
  obtain ⟨ra, ha, r1, v1, _, F1, f1⟩ := sp3_runO (kd := kd) Q A UA H hn hK hnT hl
  obtain ⟨rw, hw, r2, v2, _, F2, f2⟩ := sp3_runO (kd := kd) Q W UW H hn hK hnT hl
  obtain rfl := flag_eq f1.2.2.2 (f2.2.2.2.trans (and_congr_right fun _ => not_congr (stops3_intact H UA.intact UW.intact)))
  refine ⟨_, ha, hw, r1, ?_, intact3_of_frameZ UA F1, intact3_of_frameZ UW F2, ?_⟩
  · rw [hd] at r2
    exact r2
  · have ho := W.O.h_dims
    rw [hd] at ho
    intro n ic jc kc a b c h0 h1 h2 h3 h4 h5 h6
    refine ⟨_, v1 n ic jc kc a b c h0 h1 h2 h3 h4 h5 h6, ?_⟩
    rw [dense_none ho]
    exact v2 n ic jc kc a b c h0 h1 h2 h3 h4 h5 h6

/-- **C39**, two-centre integrals with an optimizer and spinor output. -/
theorem C39_two_centre_opt_spinor {ki kk : Int} {ph : Bool} {keep : Nat → Nat → Bool} {w : Nat → Nat → Nat → α} (st : Nat)
    (Q : Optim2c X B nbas omega) (A W : SpMem2c X (basisCall2c B envCut omega i k) ki kk) (UA : SpCallsWith2c Q A) (UW : SpCallsWith2c Q W)
    (hd : W.dims = none) (H : InBasis2c B nbas i k) (hK : EvalOK2c R K X (basisCall2c B envCut omega i k) keep w) (hnc : 1 ≤ X.nComp)
    (hl : ∀ t, t < 4 → Call2c.ls (basisCall2c B envCut omega i k) t < 13) :
    ∃ has ha hw,
      run (int2c2eSpOpt X (basisCall2c B envCut omega i k) R K Q.O ⟨false, ph⟩ A.tab ki kk A.fpd A.out A.dims (some A.buf) st A.empty A.fl A.counts) A.h =
        some (has, ha) ∧
      run (cint2c2eSpOpt X (basisCall2c B envCut omega i k) R K Q.O ⟨false, ph⟩ W.tab ki kk W.fpd W.out W.buf W.empty W.fl W.counts) W.h = some (has, hw) ∧
      Q.Intact ha ∧ Q.Intact hw ∧
      ∀ n ic kc a c, n < X.nComp → ic < (B i).nctr → kc < (B k).nctr → a < lenSpinorC2S ki (B i).l → c < lenSpinorC2S kk (B k).l →
        ∃ z, A.Elem ha n ic a kc c z ∧
          HoldsC hw W.out (outAt (fun t => four (lenSpinorC2S ki (B i).l) (lenSpinorC2S kk (B k).l) 1 1 t * Call2c.nctrs (basisCall2c B envCut omega i k) t) n
            (ic*lenSpinorC2S ki (B i).l+a) (kc*lenSpinorC2S kk (B k).l+c) 0 0) z := by
  obtain ⟨ra, ha, r1, v1, _, F1, f1⟩ := sp2c_runO (ph := ph) Q A UA H hK hnc hl
  obtain ⟨rw, hw, r2, v2, _, F2, f2⟩ := sp2c_runO (ph := ph) Q W UW H hK hnc hl
  obtain rfl := flag_eq f1 f2
  refine ⟨_, ha, hw, r1, ?_, intact2c_of_frameZ UA F1, intact2c_of_frameZ UW F2, ?_⟩
  · rw [hd] at r2
    exact r2
  · have ho := W.O.h_dims
    rw [hd] at ho
    intro n ic kc a c h0 h1 h2 h3 h4
    refine ⟨_, v1 n ic kc a c h0 h1 h2 h3 h4, ?_⟩
    exact (congrArg (fun p => HoldsC hw W.out p _) (dense_none ho n _ _ 0 0)).mpr (v2 n ic kc a c h0 h1 h2 h3 h4)
end

namespace WrapOptDemo
open OvlpDemo SphDemo EriDemo Eri3Demo SpinorDemo SpinorEriDemo SpinorEri3Demo OptDemo Opt3Demo Opt2cDemo SpinorOptDemo

/-- four-centre integrals with spherical output: the hypotheses hold for the optimizer of a basis of four shells and memory beside it -/
example : ∃ (Q : Optim eriInt lib basis 4 0 (1/3)) (A : SphMem4 eriInt (basisCall basis 0 (1/3) 0 1 2 3)) (R : Rys2 ℝ) (has : Bool) (ha hw : Heap ℝ),
    CallsWith Q A.toMem4 ∧ SphEndsO Q A R realK has ha ∧
    run (cint2eOpt eriInt (basisCall basis 0 (1/3) 0 1 2 3) R realK lib Q.O 0 1 2 3 1 (sphTrans2e A.tab 1 1 2 0 1)
      (nsph (Call2.ls (basisCall basis 0 (1/3) 0 1 2 3))) A.out A.buf A.empty A.fl A.loc A.counts) A.h = some (has, hw) := by
  obtain ⟨Q, hP⟩ := basis_opt (1/3)
  obtain ⟨R, hR⟩ := exists_rys2
  obtain ⟨has, ha, hw, e1, e2, _⟩ := C39_four_centre_opt_sph 11 (R := R) (K := realK) Q (sphO Q (basisCall basis 0 (1/3) 0 1 2 3) (EriDemo.ctr_pos (1/3)))
    (sphO Q (basisCall basis 0 (1/3) 0 1 2 3) (EriDemo.ctr_pos (1/3))) (callsSph Q hP _ _) (callsSph Q hP _ _) rfl basis_in (le_refl 1)
    (eri_evalAll (basis_pos.posExp basis_in) (hR _))
  exact ⟨Q, _, R, has, ha, hw, callsSph Q hP _ _, e1, e2⟩

/-- three-centre integrals with Cartesian output -/
example : ∃ (Q : Optim3 eriInt lib basis3 3 0 (-1/2)) (A : CartMem3 eriInt (basisCall3 basis3 0 (-1/2) 0 1 2)) (R : Rys2 ℝ) (has : Bool)
    (ha hw : Heap ℝ), CallsWith3 Q A ∧ CartEnds3O Q A R realK has ha ∧
    run (cint3c2eOpt eriInt (basisCall3 basis3 0 (-1/2) 0 1 2) R realK lib Q.O 0 1 1 (fun _ _ => pure)
      (ncar (Call3.ls (basisCall3 basis3 0 (-1/2) 0 1 2))) A.out A.buf A.empty A.fl A.loc A.counts) A.h = some (has, hw) := by
  obtain ⟨Q, hP⟩ := opt3 (-1/2)
  obtain ⟨R, hR⟩ := exists_rys2
  obtain ⟨has, ha, hw, e1, e2, _⟩ := C39_three_centre_opt_cart 11 (R := R) (K := realK) Q (cart3O Q (basisCall3 basis3 0 (-1/2) 0 1 2) (ctr_pos3 (-1/2)))
    (cart3O Q (basisCall3 basis3 0 (-1/2) 0 1 2) (ctr_pos3 (-1/2))) (calls3Cart Q hP _ _) (calls3Cart Q hP _ _) rfl basis3_in (le_refl 1)
    (fun V => ⟨_, _, eri_eval3V (posExp3 (-1/2)) (hR _) V⟩)
  exact ⟨Q, _, R, has, ha, hw, calls3Cart Q hP _ _, e1, e2⟩

/-- four-centre integrals with spinor output -/
example : ∃ (Q : Optim eriInt lib basis 4 0 (-1/2)) (R : Rys2 ℝ) (has : Bool) (ha : Heap ℝ),
    SpCallsWith Q (spO Q) ∧ SpEndsO Q (spO Q) ⟨false, false⟩ ⟨false, false⟩ R realK has ha ∧ Q.Intact ha := by
  obtain ⟨Q, hP⟩ := basis_opt (-1/2)
  obtain ⟨R, hR⟩ := exists_rys2
  obtain ⟨has, ha, hw, e1, _, e3, _⟩ := C39_four_centre_opt_spinor (k1 := ⟨false, false⟩) (k2 := ⟨false, false⟩) 11 (R := R) (K := realK) Q (spO Q) (spO Q)
    (callsSp Q hP) (callsSp Q hP) rfl basis_in rfl (eri_evalAll (basis_pos.posExp basis_in) (hR _)) (le_refl 1) (ls_lt (-1/2))
  exact ⟨Q, R, has, ha, callsSp Q hP, e1, e3⟩

/-- three-centre integrals with spinor output -/
example : ∃ (Q : Optim3 eriInt lib basis3 3 0 (-1/2)) (R : Rys2 ℝ) (has : Bool) (ha : Heap ℝ),
    SpCallsWith3 Q (spO3 (-1/2) Q.h1) ∧ SpEnds3O Q (spO3 (-1/2) Q.h1) ⟨false, false⟩ R realK has ha := by
  obtain ⟨Q, hP⟩ := opt3 (-1/2)
  obtain ⟨R, hR⟩ := exists_rys2
  obtain ⟨has, ha, hw, e1, _⟩ := C39_three_centre_opt_spinor (kd := ⟨false, false⟩) 11 (R := R) (K := realK) Q (spO3 (-1/2) Q.h1) (spO3 (-1/2) Q.h1)
    (callsSp3 Q hP) (callsSp3 Q hP) rfl basis3_in rfl (fun V => ⟨_, _, eri_eval3V (posExp3 (-1/2)) (hR _) V⟩) (le_refl 1) (ls3 (-1/2))
  exact ⟨Q, R, has, ha, callsSp3 Q hP, e1⟩

/-- two-centre integrals with Cartesian and spinor output -/
example : ∃ (Q : Optim2c eriInt basis2c 2 (-1/2)) (A : CartMem2c eriInt (basisCall2c basis2c 0 (-1/2) 0 1)) (R : Rys2 ℝ) (has : Bool)
    (ha : Heap ℝ), CallsWith2c Q A ∧ CartEnds2cO Q A R realK has ha := by
  obtain ⟨Q, hP⟩ := opt2c (-1/2)
  obtain ⟨R, hR⟩ := exists_rys2
  obtain ⟨has, ha, hw, e1, _⟩ := C39_two_centre_opt_cart 11 (R := R) (K := realK) (envCut := 0) Q
    (cart2cO Q (basisCall2c basis2c 0 (-1/2) 0 1) (Eri2cDemo.ctr_pos2c (-1/2))) (cart2cO Q (basisCall2c basis2c 0 (-1/2) 0 1) (Eri2cDemo.ctr_pos2c (-1/2)))
    (calls2cCart Q hP _ _) (calls2cCart Q hP _ _) rfl basis2c_in (le_refl 1) (eri_eval2c (s := Eri2cDemo.call2c (-1/2)) (Eri2cDemo.posExp2c _) (hR _))
  exact ⟨Q, _, R, has, ha, calls2cCart Q hP _ _, e1⟩

example : ∃ (Q : Optim2c eriInt basis2c 2 (-1/2)) (R : Rys2 ℝ) (has : Bool) (ha : Heap ℝ),
    SpCallsWith2c Q (spO2c (-1/2) Q.h1) ∧ SpEnds2cO Q (spO2c (-1/2) Q.h1) false R realK has ha := by
  obtain ⟨Q, hP⟩ := opt2c (-1/2)
  obtain ⟨R, hR⟩ := exists_rys2
  obtain ⟨has, ha, hw, e1, _⟩ := C39_two_centre_opt_spinor (envCut := 0) (i := 0) (k := 1) (ph := false) 11 (R := R) (K := realK) Q (spO2c (-1/2) Q.h1)
    (spO2c (-1/2) Q.h1) (callsSp2c Q hP) (callsSp2c Q hP) rfl basis2c_in
    (eri_eval2c (s := Eri2cDemo.call2c (-1/2)) (Eri2cDemo.posExp2c _) (hR _)) (le_refl 1) (ls2c (-1/2))
  exact ⟨Q, R, has, ha, callsSp2c Q hP, e1⟩

end WrapOptDemo

end Verif.Props
