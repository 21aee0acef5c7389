import Verif.Props.GoutSimd
import Verif.Props.EriExact
import Verif.Props.Eri3
import Verif.Props.Eri2c

/-!
# C58: the repulsion integrals of an SSE3 build

`eriInt` is the plain build, `eriSimd` the SSE3 build.  Up to a total angular momentum of 13 at most seven roots are used and the
read behind the block does not happen.
-/
namespace Verif.Props
open Verif Verif.Model Verif.Prog Verif.Lemmas Verif.Spec

theorem srRoots_lt {sr : Bool} {o : Nat} (h : o < 8) : srRoots sr o < 8 := by
  unfold srRoots
  split <;> omega

theorem srRoots_pos {sr : Bool} {o : Nat} (h : 1 ≤ o) : 1 ≤ srRoots sr o := by
  unfold srRoots
  split <;> omega

/-- the intermediates lie in the block `g` -/
theorem adr4_in {e : EnvG} (he : Shape4 e) {g : Ptr} {leng nf : Nat} (hl : 3 * e.g_size ≤ leng) {I J K L : Nat → Nat → Nat}
    (hI : ∀ n c, n < nf → c < 3 → I c n ≤ e.li_ceil ∧ J c n ≤ e.lj_ceil ∧ K c n ≤ e.lk_ceil ∧ L c n ≤ e.ll_ceil)
    (n c r : Nat) (hn : n < nf) (hc : c < 3) (hr : r < e.nrys_roots) : Blk g leng (g + adr4 e I J K L c n + r) := by
  obtain ⟨a1, a2, a3, a4⟩ := hI n c hn hc
  have h1 := radix_lt hc (slab4_lt he a1 a2 a3 a4 hr)
  refine ⟨adr4 e I J K L c n + r, ?_, Ptr.add_assoc _ _ _⟩
  have : adr4 e I J K L c n + r = c * e.g_size + slab4 e (I c n) (J c n) (K c n) (L c n) r := by
    unfold adr4 slab4; omega
  omega

section
variable {α : Type} [Field α] [LinearOrder α] {R : Rys2 α} {K : Consts α} {L : MathLib α}

theorem EvalOK2.simd {s : Call2 α} {keep : Nat → Nat → Nat → Nat → Bool} {w : Nat → Nat → Nat → Nat → Nat → α}
    (h13 : s.si.l + s.sj.l + s.sk.l + s.sl.l ≤ 13) (H : EvalOK2 R K L eriInt s keep w) : EvalOK2 R K L eriSimd s keep w := by
  intro ip jp kp lp g idx T hip hjp hkp hlp hT
  have key := H ip jp kp lp g idx T hip hjp hkp hlp hT
  have hnf : (s.env (eriInt : Int2e α)).nf = ncart s.sj.l * ncart s.sl.l * ncart s.sk.l * ncart s.si.l := by
    show lenCart s.si.l * lenCart s.sk.l * lenCart s.sl.l * lenCart s.sj.l = _
    simp only [lenCart_eq]; ring
  have hin : ∀ n c r, n < (s.env (eriInt : Int2e α)).nf → c < 3 → r < (s.env (eriInt : Int2e α)).nrys_roots →
      Blk g (s.leng (eriInt : Int2e α)) (g + adr4 (s.env (eriInt : Int2e α)) (i4 (s.env (eriInt : Int2e α)))
        (j4 (s.env (eriInt : Int2e α))) (k4 (s.env (eriInt : Int2e α))) (l4 (s.env (eriInt : Int2e α))) c n + r) := by
    refine adr4_in (shape4_int2e _ _ _ _ _ _) (by
      show 3 * (s.env eriInt).g_size ≤ (s.env eriInt).g_size * 3 * (2^0+1)
      omega) ?_
    intro n c hn hc
    rw [hnf] at hn
    refine ⟨pw_le (Nat.mod_lt _ (ncart_pos _)), pw_le ?_, pw_le (Nat.mod_lt _ (ncart_pos _)), pw_le (Nat.mod_lt _ (ncart_pos _))⟩
    show n / ncart s.si.l / ncart s.sk.l / ncart s.sl.l < ncart s.sj.l
    rw [Nat.div_lt_iff_lt_mul (ncart_pos _), Nat.div_lt_iff_lt_mul (ncart_pos _), Nat.div_lt_iff_lt_mul (ncart_pos _)]
    exact hn
  change KernelSpec T _ (fun _ gout em => gout2e (s.env eriInt).nf _ idx g gout em) _ ((s.env eriInt).nf * 1) _ _ at key
  show KernelSpec T _ (fun _ gout em => gout2eSimd (s.env eriInt).nf _ idx g gout em) _ ((s.env eriInt).nf * 1) _ _
  rw [Nat.mul_one] at key ⊢
  refine KernelSpec.simd (ad := adr4 (s.env (eriInt : Int2e α)) (i4 (s.env (eriInt : Int2e α)))
        (j4 (s.env (eriInt : Int2e α))) (k4 (s.env (eriInt : Int2e α))) (l4 (s.env (eriInt : Int2e α)))) ?_ ?_ hT hin key
  · exact srRoots_pos (by omega)
  · refine srRoots_lt ?_
    show (s.si.l + 0 + (s.sj.l + 0) + (s.sk.l + 0) + (s.sl.l + 0))/2 + 1 < 8
    omega

theorem EvalOK3.simd {s : Call3 α} {keep : Nat → Nat → Nat → Bool} {w : Nat → Nat → Nat → Nat → α}
    (h13 : s.si.l + s.sj.l + s.sk.l ≤ 13) (H : EvalOK3 R K L eriInt s keep w) : EvalOK3 R K L eriSimd s keep w := by
  intro ip jp kp g idx T hip hjp hkp hT
  have key := H ip jp kp g idx T hip hjp hkp hT
  have hnf : (s.env (eriInt : Int2e α)).nf = ncart s.sj.l * ncart s.sk.l * ncart s.si.l := by
    show lenCart s.si.l * lenCart s.sk.l * lenCart s.sj.l = _
    simp only [lenCart_eq]; ring
  have hin : ∀ n c r, n < (s.env (eriInt : Int2e α)).nf → c < 3 → r < (s.env (eriInt : Int2e α)).nrys_roots →
      Blk g (s.leng (eriInt : Int2e α)) (g + adr4 (s.env (eriInt : Int2e α)) (i4 (s.env (eriInt : Int2e α)))
        (j4 (s.env (eriInt : Int2e α))) (l4 (s.env (eriInt : Int2e α))) (k4 (s.env (eriInt : Int2e α))) c n + r) := by
    refine adr4_in (shape4_int3c2e _ _ _ _ _) (by
      show 3 * (s.env eriInt).g_size ≤ (s.env eriInt).g_size * 3 * (2^0+1)
      omega) ?_
    intro n c hn hc
    rw [hnf] at hn
    refine ⟨pw_le (Nat.mod_lt _ (ncart_pos _)), pw_le ?_, pw_le (l := 0) (Nat.mod_lt _ Nat.one_pos), pw_le (Nat.mod_lt _ (ncart_pos _))⟩
    show n / ncart s.si.l / ncart s.sk.l / 1 < ncart s.sj.l
    rw [Nat.div_one, Nat.div_lt_iff_lt_mul (ncart_pos _), Nat.div_lt_iff_lt_mul (ncart_pos _)]
    exact hn
  change KernelSpec T _ (fun _ gout em => gout2e (s.env eriInt).nf _ idx g gout em) _ ((s.env eriInt).nf * 1) _ _ at key
  show KernelSpec T _ (fun _ gout em => gout2eSimd (s.env eriInt).nf _ idx g gout em) _ ((s.env eriInt).nf * 1) _ _
  rw [Nat.mul_one] at key ⊢
  refine KernelSpec.simd (ad := adr4 (s.env (eriInt : Int2e α)) (i4 (s.env (eriInt : Int2e α)))
        (j4 (s.env (eriInt : Int2e α))) (l4 (s.env (eriInt : Int2e α))) (k4 (s.env (eriInt : Int2e α)))) ?_ ?_ hT hin key
  · exact srRoots_pos (by omega)
  · refine srRoots_lt ?_
    show (s.si.l + 0 + (s.sj.l + 0) + (s.sk.l + 0))/2 + 1 < 8
    omega

theorem EvalOK2c.simd {s : Call2c α} {keep : Nat → Nat → Bool} {w : Nat → Nat → Nat → α}
    (h13 : s.si.l + s.sk.l ≤ 13) (H : EvalOK2c R K eriInt s keep w) : EvalOK2c R K eriSimd s keep w := by
  intro ip kp g idx T hip hkp hT
  have key := H ip kp g idx T hip hkp hT
  have hnf : (s.env (eriInt : Int2e α)).nf = ncart s.sk.l * ncart s.si.l := by
    show lenCart s.si.l * lenCart s.sk.l = _
    simp only [lenCart_eq]; ring
  have hin : ∀ n c r, n < (s.env (eriInt : Int2e α)).nf → c < 3 → r < (s.env (eriInt : Int2e α)).nrys_roots →
      Blk g (s.leng (eriInt : Int2e α)) (g + adr4 (env4 (s.env (eriInt : Int2e α))) (fun c n => pw s.si.l c (n % ncart s.si.l))
        (fun _ _ => 0) (fun c n => pw s.sk.l c (n / ncart s.si.l)) (fun _ _ => 0) c n + r) := by
    refine adr4_in (env4_shape _ _ _ _) (by
      show 3 * (s.env eriInt).g_size ≤ (s.env eriInt).g_size * 3 * (2^0+1)
      omega) ?_
    intro n c hn hc
    rw [hnf] at hn
    exact ⟨pw_le (Nat.mod_lt _ (ncart_pos _)), le_refl _, pw_le ((Nat.div_lt_iff_lt_mul (ncart_pos _)).2 hn), le_refl _⟩
  change KernelSpec T _ (fun _ gout em => gout2e (s.env eriInt).nf _ idx g gout em) _ ((s.env eriInt).nf * 1) _ _ at key
  show KernelSpec T _ (fun _ gout em => gout2eSimd (s.env eriInt).nf _ idx g gout em) _ ((s.env eriInt).nf * 1) _ _
  rw [Nat.mul_one] at key ⊢
  refine KernelSpec.simd (ad := adr4 (env4 (s.env (eriInt : Int2e α))) (fun c n => pw s.si.l c (n % ncart s.si.l))
        (fun _ _ => 0) (fun c n => pw s.sk.l c (n / ncart s.si.l)) (fun _ _ => 0)) ?_ ?_ (by
      intro n c hn hc
      rw [hT n c hn hc]
      rfl) hin key
  · exact srRoots_pos (by omega)
  · refine srRoots_lt ?_
    show (s.si.l + 0 + (s.sk.l + 0))/2 + 1 < 8
    omega
end

theorem bool_eq {a b : Bool} {P : Prop} (h1 : a = true ↔ P) (h2 : b = true ↔ P) : a = b := by
  cases a <;> cases b <;> simp_all

/-- **C58** int2e_cart of the two builds: the same return value and the same elements, whatever memory the calls are given. -/
theorem C58_int2e_partial {L : MathLib ℝ} {s : Call2 ℝ} {R : Rys2 ℝ} (A : CartMem4 eriInt s) (B : CartMem4 eriSimd s) (hp : PosExp s)
    (hR : RootsOK R s) (h15 : LOK s) (h13 : s.si.l + s.sj.l + s.sk.l + s.sl.l ≤ 13) :
    ∃ has ha hb, CartEnds4 A R realK L has ha ∧ CartEnds4 B R realK L has hb ∧
      ∀ ic jc kc lc i j k l, ic < s.si.nctr → jc < s.sj.nctr → kc < s.sk.nctr → lc < s.sl.nctr →
        i < ncart s.si.l → j < ncart s.sj.l → k < ncart s.sk.l → l < ncart s.sl.l →
        B.elem hb 0 ic i jc j kc k lc l = A.elem ha 0 ic i jc j kc k lc l := by
  obtain ⟨ra, ha, ea, va, _, _, na⟩ := drv2e_cart A.M A.hsize A.hs A.O (eri_eval (L := L) hp hR) (le_refl 1) h15
  obtain ⟨rb, hb, eb, vb, _, _, nb⟩ := drv2e_cart B.M B.hsize B.hs B.O (EvalOK2.simd h13 (eri_eval (L := L) hp hR)) (le_refl 1) h15
  obtain rfl : ra = rb := bool_eq na nb
  refine ⟨ra, ha, hb, ea, eb, fun ic jc kc lc i j k l a2 a3 a4 a5 a6 a7 a8 a9 => ?_⟩
  exact (vb 0 ic jc kc lc i j k l Nat.zero_lt_one a2 a3 a4 a5 a6 a7 a8 a9).trans
    (va 0 ic jc kc lc i j k l Nat.zero_lt_one a2 a3 a4 a5 a6 a7 a8 a9).symm

/-- **C58** int2e_sph of the two builds. -/
theorem C58_int2e_spherical_partial {L : MathLib ℝ} {s : Call2 ℝ} {R : Rys2 ℝ} (A : SphMem4 eriInt s) (B : SphMem4 eriSimd s)
    (hp : PosExp s) (hR : RootsOK R s) (h15 : LOK s) (h13 : s.si.l + s.sj.l + s.sk.l + s.sl.l ≤ 13) :
    ∃ has ha hb, SphEnds4 A R realK L has ha ∧ SphEnds4 B R realK L has hb ∧
      ∀ ic jc kc lc i j k l, ic < s.si.nctr → jc < s.sj.nctr → kc < s.sk.nctr → lc < s.sl.nctr →
        i < s.si.l*2+1 → j < s.sj.l*2+1 → k < s.sk.l*2+1 → l < s.sl.l*2+1 →
        B.elem hb 0 ic i jc j kc k lc l = A.elem ha 0 ic i jc j kc k lc l := by
  obtain ⟨ra, ha, ea, va, _, _, na⟩ := drv2e_sph A.M A.hsize A.hs A.O A.hT A.htb A.hto (eri_eval (L := L) hp hR) (le_refl 1) h15
  obtain ⟨rb, hb, eb, vb, _, _, nb⟩ := drv2e_sph B.M B.hsize B.hs B.O B.hT B.htb B.hto (EvalOK2.simd h13 (eri_eval (L := L) hp hR))
    (le_refl 1) h15
  obtain rfl : ra = rb := bool_eq na nb
  refine ⟨ra, ha, hb, ea, eb, fun ic jc kc lc i j k l a2 a3 a4 a5 a6 a7 a8 a9 => ?_⟩
  exact (vb 0 ic jc kc lc i j k l Nat.zero_lt_one a2 a3 a4 a5 a6 a7 a8 a9).trans
    (va 0 ic jc kc lc i j k l Nat.zero_lt_one a2 a3 a4 a5 a6 a7 a8 a9).symm

/-- **C58** int3c2e_cart of the two builds. -/
theorem C58_int3c2e_partial {L : MathLib ℝ} {s : Call3 ℝ} {R : Rys2 ℝ} (A : CartMem3 eriInt s) (B : CartMem3 eriSimd s)
    (hp : PosExp3 s) (hR : RootsOK3 R s) (h15 : LOK3 s) (h13 : s.si.l + s.sj.l + s.sk.l ≤ 13) :
    ∃ has ha hb, CartEnds3 A R realK L has ha ∧ CartEnds3 B R realK L has hb ∧
      ∀ ic jc kc i j k, ic < s.si.nctr → jc < s.sj.nctr → kc < s.sk.nctr →
        i < ncart s.si.l → j < ncart s.sj.l → k < ncart s.sk.l →
        B.elem hb 0 ic i jc j kc k = A.elem ha 0 ic i jc j kc k := by
  obtain ⟨ra, ha, ea, va, _, _, na⟩ := drv3c2e_cart A.M A.hsize A.hs A.O (eri_eval3 (L := L) hp hR) (le_refl 1) h15
  obtain ⟨rb, hb, eb, vb, _, _, nb⟩ := drv3c2e_cart B.M B.hsize B.hs B.O (EvalOK3.simd h13 (eri_eval3 (L := L) hp hR)) (le_refl 1) h15
  obtain rfl : ra = rb := bool_eq na nb
  refine ⟨ra, ha, hb, ea, eb, fun ic jc kc i j k a2 a3 a4 a6 a7 a8 => ?_⟩
  exact (vb 0 ic jc kc i j k Nat.zero_lt_one a2 a3 a4 a6 a7 a8).trans (va 0 ic jc kc i j k Nat.zero_lt_one a2 a3 a4 a6 a7 a8).symm

/-- **C58** int2c2e_cart of the two builds. -/
theorem C58_int2c2e_partial {s : Call2c ℝ} {R : Rys2 ℝ} (A : CartMem2c eriInt s) (B : CartMem2c eriSimd s)
    (hp : PosExp2c s) (hR : RootsOK2c R s) (h15 : LOK2c s) (h13 : s.si.l + s.sk.l ≤ 13) :
    ∃ has ha hb, CartEnds2c A R realK has ha ∧ CartEnds2c B R realK has hb ∧
      ∀ ic kc i k, ic < s.si.nctr → kc < s.sk.nctr → i < ncart s.si.l → k < ncart s.sk.l →
        B.elem hb 0 ic i kc k = A.elem ha 0 ic i kc k := by
  obtain ⟨ra, ha, ea, va, _, _, na⟩ := drv2c2e_cart A.M A.hsize A.hs A.O A.hd2 (eri_eval2c hp hR) (le_refl 1) h15
  obtain ⟨rb, hb, eb, vb, _, _, nb⟩ := drv2c2e_cart B.M B.hsize B.hs B.O B.hd2 (EvalOK2c.simd h13 (eri_eval2c hp hR)) (le_refl 1) h15
  obtain rfl : ra = rb := bool_eq na nb
  refine ⟨ra, ha, hb, ea, eb, fun ic kc i k a2 a3 a4 a6 => ?_⟩
  exact (vb 0 ic kc i k Nat.zero_lt_one a2 a3 a4 a6).trans (va 0 ic kc i k Nat.zero_lt_one a2 a3 a4 a6).symm

namespace EriDemo
/-- p, d, s and p shells: the two builds give the same element p_y d_xz s p_z -/
example : ∃ R has ha hb, CartEnds4 (blankMem4 eriInt (call4 (-1/2)) (ctr_pos _)) R realK lib has ha ∧
    CartEnds4 (blankMem4 eriSimd (call4 (-1/2)) (ctr_pos _)) R realK lib has hb ∧
    (blankMem4 eriSimd (call4 (-1/2)) (ctr_pos _)).elem hb 0 1 1 0 2 1 0 0 2 =
      (blankMem4 eriInt (call4 (-1/2)) (ctr_pos _)).elem ha 0 1 1 0 2 1 0 0 2 := by
  obtain ⟨R, hR⟩ := exists_rys2
  obtain ⟨has, ha, hb, e1, e2, e3⟩ := C58_int2e_partial (L := lib) (R := R) (blankMem4 eriInt (call4 (-1/2)) (ctr_pos _))
    (blankMem4 eriSimd (call4 (-1/2)) (ctr_pos _)) (posExp _) (hR _) (lok _) (by show 1 + 2 + 0 + 1 ≤ 13; omega)
  exact ⟨R, has, ha, hb, e1, e2, e3 1 0 1 0 1 2 0 2 (by show 1 < 2; omega) (by show 0 < 2; omega) (by show 1 < 2; omega)
    (by show 0 < 2; omega) (by show 1 < ncart 1; decide) (by show 2 < ncart 2; decide) (by show 0 < ncart 0; decide)
    (by show 2 < ncart 1; decide)⟩

/-- memory for the SSE3 build, spherical output -/
noncomputable def sphMem4s (s : Call2 ℝ) (h : ∀ t, t < 4 → 0 < Call2.nctrs s t) : SphMem4 eriSimd s :=
  let A := sphMem4 s h
  { fpd := A.fpd, buf := A.buf, size := A.size, empty := A.empty, fl := A.fl, loc := A.loc, counts := A.counts, out := A.out,
    dims := A.dims, nd := A.nd, h := A.h, hs := A.hs, M := A.M, hsize := A.hsize, O := A.O, tab := A.tab, hT := A.hT,
    htb := A.htb, hto := A.hto }

example : ∃ R has ha hb, SphEnds4 (sphMem4 (call4 (1/3)) (ctr_pos _)) R realK lib has ha ∧
    SphEnds4 (sphMem4s (call4 (1/3)) (ctr_pos _)) R realK lib has hb := by
  obtain ⟨R, hR⟩ := exists_rys2
  obtain ⟨has, ha, hb, e1, e2, _⟩ := C58_int2e_spherical_partial (L := lib) (R := R) (sphMem4 (call4 (1/3)) (ctr_pos _))
    (sphMem4s (call4 (1/3)) (ctr_pos _)) (posExp _) (hR _) (lok _) (by show 1 + 2 + 0 + 1 ≤ 13; omega)
  exact ⟨R, has, ha, hb, e1, e2⟩
end EriDemo

namespace Eri3Demo
open EriDemo
example : ∃ R has ha hb, CartEnds3 (blankMem3 eriInt (call3 (-1/2)) (ctr_pos3 _)) R realK lib has ha ∧
    CartEnds3 (blankMem3 eriSimd (call3 (-1/2)) (ctr_pos3 _)) R realK lib has hb := by
  obtain ⟨R, hR⟩ := exists_rys2
  obtain ⟨has, ha, hb, e1, e2, _⟩ := C58_int3c2e_partial (L := lib) (R := R) (blankMem3 eriInt (call3 (-1/2)) (ctr_pos3 _))
    (blankMem3 eriSimd (call3 (-1/2)) (ctr_pos3 _)) (posExp3 _) (hR _) (lok3 _) (by show 1 + 2 + 3 ≤ 13; omega)
  exact ⟨R, has, ha, hb, e1, e2⟩
end Eri3Demo

namespace Eri2cDemo
open EriDemo
example : ∃ R has ha hb, CartEnds2c (blankMem2c eriInt (call2c (-1/2)) (ctr_pos2c _)) R realK has ha ∧
    CartEnds2c (blankMem2c eriSimd (call2c (-1/2)) (ctr_pos2c _)) R realK has hb := by
  obtain ⟨R, hR⟩ := exists_rys2
  obtain ⟨has, ha, hb, e1, e2, _⟩ := C58_int2c2e_partial (R := R) (blankMem2c eriInt (call2c (-1/2)) (ctr_pos2c _))
    (blankMem2c eriSimd (call2c (-1/2)) (ctr_pos2c _)) (posExp2c _) (hR _) (lok2c _) (by show 1 + 3 ≤ 13; omega)
  exact ⟨R, has, ha, hb, e1, e2⟩
end Eri2cDemo

end Verif.Props
