import Verif.Lemmas.OperGridsStep
import Verif.Lemmas.GridsEval
import Verif.Lemmas.OperVEval

/-! The generated integrals on grids meet the requirements of the loops. -/
namespace Verif.Lemmas
open Verif Verif.Model Verif.Prog Verif.Props

section
variable {α : Type} [Field α]

/-- A word only combines the intermediates of one direction and one root, and is linear in them. -/
theorem symVal_scale {D : OpData α} {v v' : Nat → (Fin 4 → Nat) → Nat → α} {c r r' : Nat} {k : α} :
    ∀ {w : List (GOp × Fin 4)} (_ : ∀ o ∈ w, o.2 = 0 ∨ o.2 = 1)
      (_ : ∀ m : Fin 4 → Nat, m 2 = 0 → m 3 = 0 → v c m r = k * v' c m r') (m : Fin 4 → Nat), m 2 = 0 → m 3 = 0 →
      symVal D v w c m r = k * symVal D v' w c m r' := by
  intro w
  induction w with
  | nil => intro _ h m h2 h3; exact h m h2 h3
  | cons o w ih =>
    intro hw h m h2 h3
    have ih := ih (fun o ho => hw o (List.mem_cons_of_mem _ ho)) h
    have ho := hw o List.mem_cons_self
    have hb : bump m o.2 2 = 0 ∧ bump m o.2 3 = 0 := by
      unfold bump
      rcases ho with ho | ho <;> rw [ho] <;> simp [Function.update, h2, h3]
    have hd : drop m o.2 2 = 0 ∧ drop m o.2 3 = 0 := by
      unfold drop
      rcases ho with ho | ho <;> rw [ho] <;> simp [Function.update, h2, h3]
    show opVal D o (symVal D v w) c m r = k * opVal D o (symVal D v' w) c m r'
    unfold opVal
    obtain ⟨op, t⟩ := o
    cases op
    · show dVal _ _ _ _ _ _ = _ * dVal _ _ _ _ _ _
      unfold dVal
      rw [ih _ hb.1 hb.2, ih _ hd.1 hd.2]
      ring
    · show xVal _ _ _ _ _ _ = _ * xVal _ _ _ _ _ _
      unfold xVal
      rw [ih _ hb.1 hb.2, ih _ h2 h3]
      ring
    · show xVal _ _ _ _ _ _ = _ * xVal _ _ _ _ _ _
      unfold xVal
      rw [ih _ hb.1 hb.2, ih _ h2 h3]
      ring
    · exact ih _ hb.1 hb.2

theorem compVal_mul {D : OpData α} {terms : List (Int × List Nat × Nat)} (k : α) (s : Nat → α) :
    compVal D terms (fun m => k * s m) = k * compVal D terms s := by
  unfold compVal
  rw [← List.sum_map_mul_left]
  refine congrArg _ (List.map_congr_left fun t _ => ?_)
  ring

theorem twoIdx_mem {W : Nat → List (GOp × Fin 4)} (h : twoIdx W = true) (c : Nat) (hc : c < 3) :
    ∀ o ∈ W c, o.2 = 0 ∨ o.2 = 1 := by
  unfold twoIdx at h
  rw [List.all_eq_true] at h
  have := h ⟨c, hc⟩ (by unfold dirs; interval_cases c <;> simp)
  rw [List.all_eq_true] at this
  intro o ho
  simpa using this o ho

/-- the same for a component of the integral: the factor of the third direction comes out -/
theorem goutVal_scale {D : OpData α} {v v' : Nat → (Fin 4 → Nat) → Nat → α} {P : GoutProg}
    {ws : List (Nat → List (GOp × Fin 4))} (h2 : ws.all twoIdx = true) {m : Nat → Fin 4 → Nat} (hm : ∀ c, m c 2 = 0 ∧ m c 3 = 0)
    {r r' comp : Nat} {k : α}
    (h : ∀ (c : Nat) (m : Fin 4 → Nat), c < 3 → m 2 = 0 → m 3 = 0 → v c m r = (if c = 2 then k else 1) * v' c m r') :
    goutVal D v P ws m r comp = k * goutVal D v' P ws m r' comp := by
  unfold goutVal
  rw [← compVal_mul]
  congr 1
  funext i
  rw [List.getD_eq_getElem?_getD, List.getElem?_map, List.getD_eq_getElem?_getD, List.getElem?_map]
  cases hi : ws[i]? with
  | none => simp
  | some W =>
    have hW : twoIdx W = true := List.all_eq_true.1 h2 W (List.mem_of_getElem? hi)
    have key : ∀ c, c < 3 → symVal D v (W c) c (m c) r = (if c = 2 then k else 1) * symVal D v' (W c) c (m c) r' := fun c hc =>
      symVal_scale (twoIdx_mem hW c hc) (fun m a b => h c m hc a b) _ (hm c).1 (hm c).2
    simp only [Option.map_some, Option.getD_some]
    rw [key 0 (by omega), key 1 (by omega), key 2 (by omega), if_neg (by omega), if_neg (by omega), if_pos rfl]
    ring

end

section
variable {α : Type} [Field α] [LinearOrder α]

/-- the intermediates of a point: direction, powers, root -/
def gridTab (R : Rys2 α) (K : Consts α) (e : EnvG) (d : G1 α) (A : GridArgs α) (r : Nat → α) (c : Nat) (m : Fin 4 → Nat) (i : Nat) : α :=
  (if c = 2 then (gridUW1 R K e d A r i).2 else 1) * gridM e d r (gridUW1 R K e d A r i).1 c (m 0) (m 1)

/-- the operators of a pair of primitives -/
def opDataG (d : G1 α) : OpData α := { a := ![d.ai, d.aj, 0, 0], R := ![d.ri, d.rj, fun _ => 0, fun _ => 0], O := fun _ => 0 }

/-- component `M % nComp` of cartesian function `M / nComp` at a point -/
def gridGenW (G : Gen1e) (ws : List (Nat → List (GOp × Fin 4))) (R : Rys2 α) (K : Consts α) (e : EnvG) (d : G1 α) (A : GridArgs α)
    (r : Nat → α) (M : Nat) : α :=
  ∑ i ∈ Finset.range e.nrys_roots, goutVal (opDataG d) (gridTab R K e d A r) G.flat ws
    (pows (fun c => Spec.pw e.i_l c (M / G.nComp % e.nfi)) (fun c => Spec.pw e.j_l c (M / G.nComp / e.nfi))) i (M % G.nComp)

/-- What the generated integral has to meet; checked for every one of them. -/
structure Gen1e.OKG (G : Gen1e) (ws : List (Nat → List (GOp × Fin 4))) : Prop extends Gen1e.OKV G ws where
  steps : G.prog.steps.all stepG = true
  plain : G.prog.more = []

theorem Gen1e.OKG.run {G : Gen1e} {ws : List (Nat → List (GOp × Fin 4))} (h : Gen1e.OKG G ws) :
    symRun ![G.ng.i, G.ng.j, 0, 0] (2^G.gbits + 1) G.prog = some ws := by
  rw [← runWords_plain h.plain]; exact h.sym

theorem Gen1e.OKG.val {G : Gen1e} {ws : List (Nat → List (GOp × Fin 4))} (h : Gen1e.OKG G ws) (D : OpData α)
    (v0 : Nat → (Fin 4 → Nat) → Nat → α) (m : Nat → Fin 4 → Nat) (r k : Nat) :
    goutVal D v0 G.prog ws m r k = goutVal D v0 G.flat ws m r k := by
  unfold goutVal Gen1e.flat
  rw [flatP_plain h.plain]

theorem stepCtxG_grids (G : Gen1e) (s : CallG α) {b : Nat} (hb : b ≤ 104) :
    StepCtxG (s.envG (G.intG : IntG α)) ![(s.envG (G.intG : IntG α)).li_ceil, (s.envG (G.intG : IntG α)).lj_ceil, 0, 0] b (2^G.gbits+1)
      (s.lengG (G.intG : IntG α)) := by
  have S := C07_slab_grids s.si.l s.sj.l G.ng (decide (s.omega < 0))
  refine ⟨⟨?_, ?_⟩, ?_, hb, rfl, rfl⟩
  · intro m r hm hr'
    have m2 : m 2 = 0 := Nat.le_zero.1 (hm 2)
    have m3 : m 3 = 0 := Nat.le_zero.1 (hm 3)
    have := S.range (m 0) (m 1) r (hm 0) (hm 1) hr'
    unfold slabM
    rw [m2, m3]
    simp only [Nat.mul_zero, Nat.add_zero]
    exact this
  · intro m r m' r' hm hr1 hm' hr2 h
    have m2 : m 2 = 0 := Nat.le_zero.1 (hm 2)
    have m3 : m 3 = 0 := Nat.le_zero.1 (hm 3)
    have m2' : m' 2 = 0 := Nat.le_zero.1 (hm' 2)
    have m3' : m' 3 = 0 := Nat.le_zero.1 (hm' 3)
    unfold slabM at h
    rw [m2, m3, m2', m3'] at h
    simp only [Nat.mul_zero, Nat.add_zero] at h
    have := S.inj (m 0) (m 1) r (m' 0) (m' 1) r' (hm 0) (hm 1) hr1 (hm' 0) (hm' 1) hr2 h
    refine ⟨?_, this.2.2⟩
    funext t
    fin_cases t
    · exact this.1
    · exact this.2.1
    · exact m2.trans m2'.symm
    · exact m3.trans m3'.symm
  · show (2^G.gbits+1) * (3 * (s.envG (G.intG : IntG α)).g_size) ≤ (s.envG (G.intG : IntG α)).g_size * 3 * (2^G.gbits + 1)
    exact le_of_eq (by ring)

theorem evalG_gen {G : Gen1e} {ws : List (Nat → List (GOp × Fin 4))} (hG : Gen1e.OKG G ws) (R : Rys2 α) (K : Consts α)
    (L : MathLib α) (s : CallG α) :
    EvalG R K L G.intG s (fun ip jp => gridGenW G ws R K (s.envG G.intG) (s.g1G G.intG L ip jp) (s.gridArgs G.intG L ip jp)) := by
  intro off ip jp g idx S T hip hjp hoff hAux hd0 hT
  obtain ⟨b, hbd⟩ : ∃ b, b = bgrids s.ngrids off := ⟨_, rfl⟩
  have hb : b ≤ 104 := by rw [hbd]; exact Nat.min_le_right _ _
  obtain ⟨e, he⟩ : ∃ e, e = s.envG (G.intG : IntG α) := ⟨_, rfl⟩
  obtain ⟨d, hdd⟩ : ∃ d, d = s.g1G (G.intG : IntG α) L ip jp := ⟨_, rfl⟩
  obtain ⟨A, hAd⟩ : ∃ A, A = s.gridArgs (G.intG : IntG α) L ip jp := ⟨_, rfl⟩
  obtain ⟨leng, hlg⟩ : ∃ leng, leng = s.lengG (G.intG : IntG α) := ⟨_, rfl⟩
  obtain ⟨grid, hgr⟩ : ∃ grid : Nat → Nat → α, grid = fun ig => s.grid (off + ig) := ⟨_, rfl⟩
  have hlen : (s.nestG G.intG R K L off idx g S).len0 = e.nf * (b * G.nComp) := by
    rw [hbd, he]
    show bgrids s.ngrids off * (s.envG (G.intG : IntG α)).nf * G.nComp = _
    ring
  have hnf : e.nf = e.nfj * e.nfi := by rw [he]; exact Nat.mul_comm _ _
  have hnfi : e.nfi = Spec.ncart e.i_l := by rw [he]; rfl
  have hnfj : e.nfj = Spec.ncart e.j_l := by rw [he]; rfl
  have C := stepCtxG_grids G s hb
  have B : BaseOK (flatE e) := by rw [he]; exact baseOK_grids _ _ _ _
  rw [hlen]
  have hgoal : (s.nestG G.intG R K L off idx g S).g0 ip jp = g0Grids R K e d A grid b g S ∧
      (s.nestG G.intG R K L off idx g S).gout ip jp = fun _ gout em => goutGridsGen e (opDataG d) G.prog b idx g gout em := by
    rw [he, hdd, hAd, hgr, hbd]; exact ⟨rfl, rfl⟩
  rw [hgoal.1, hgoal.2]
  have hang : ∀ t, angOf e t + (![G.ng.i, G.ng.j, 0, 0] : Fin 4 → Nat) t ≤
      (![e.li_ceil, e.lj_ceil, 0, 0] : Fin 4 → Nat) t := by
    rw [he]
    intro t
    fin_cases t <;> exact le_refl _
  have hkl : angOf e 2 = 0 ∧ angOf e 3 = 0 := by rw [he]; exact ⟨rfl, rfl⟩
  have hl3 : 3 * e.g_size ≤ leng := by
    rw [he, hlg]
    show 3 * (s.envG (G.intG : IntG α)).g_size ≤ (s.envG (G.intG : IntG α)).g_size * 3 * (2^G.gbits + 1)
    rw [Nat.mul_comm 3]
    exact Nat.le_mul_of_pos_right _ (Nat.succ_pos _)
  have hnr : (s.envG (G.intG : IntG α)).nrys_roots = e.nrys_roots := by rw [he]
  rw [← he] at C hAux hd0 hT
  rw [← hlg] at C hd0
  show KernelSpec T _ _ (GScr g (s.lengG (G.intG : IntG α)) S (s.envG (G.intG : IntG α)).nrys_roots) _ true
    (fun m => gridGenW G ws R K (s.envG (G.intG : IntG α)) (s.g1G (G.intG : IntG α) L ip jp) (s.gridArgs (G.intG : IntG α) L ip jp)
      (s.grid (off + m % bgrids s.ngrids off)) (m / bgrids s.ngrids off))
  rw [← hlg, ← he, ← hdd, ← hAd, ← hbd]
  have hw : (fun m => gridGenW G ws R K e d A (s.grid (off + m % b)) (m / b)) = fun m => gridGenW G ws R K e d A (grid (m%b)) (m/b) := by
    rw [hgr]
  rw [hw]
  clear hw hgoal hlen hgr hAd hdd hlg hoff hnr hbd
  intro fac gout em u h hRO hGs hA hd hE
  have hpos : ∀ n, n < e.nf → n % e.nfi < e.nfi ∧ n / e.nfi < e.nfj := by
    intro n hn
    rw [hnf] at hn
    have : 0 < e.nfi := by
      rcases Nat.eq_zero_or_pos e.nfi with h0 | h0
      · rw [h0, Nat.mul_zero] at hn; omega
      · exact h0
    exact ⟨Nat.mod_lt _ this, (Nat.div_lt_iff_lt_mul this).2 hn⟩
  let U : Nat → α := fun r => (gridUW1 R K e d A (grid (r%104)) (r/104)).1
  let z : Nat → Nat → α := fun c r => if c = 2 then fac * (gridUW1 R K e d A (grid (r%104)) (r/104)).2 else 1
  have e1 : ∀ {i ig : Nat}, ig < b → (ig + 104*i)%104 = ig ∧ (ig + 104*i)/104 = i := by intro i ig h; omega
  refine wp_mono (g0Grids_wp (R := R) (K := K) (A := A) (grid := grid) (U := U) (z := z)
    (E := fun c i j r => gridE e d (grid (r%104)) (U r) c i j) (fac := fac) B hl3 hAux hd0 hb hGs ?_ (fun _ => rfl) (fun _ => rfl)
    ?_ (fun _ _ _ => rfl) (fun c i r _ => gridE_hv _ _ _ _ _ _) (fun c i j r _ => gridE_hh _ _ _ _ _ _ _)) ?_
  · intro i ig hi hig
    rw [gridUW_fac]
    show (gridUW1 R K e d A (grid ((ig+104*i)%104)) ((ig+104*i)/104)).1 = _
    rw [(e1 hig).1, (e1 hig).2]
    rfl
  · intro i ig hi hig
    rw [gridUW_fac]
    show (if 2 = 2 then fac * (gridUW1 R K e d A (grid ((ig+104*i)%104)) ((ig+104*i)/104)).2 else 1) = _
    rw [(e1 hig).1, (e1 hig).2, if_pos rfl]
    rfl
  rintro r h1 ⟨hr, hal, hag, hI, hT1⟩
  refine ⟨hr, hag, hI, fun _ => ?_⟩
  let v0 : Nat → (Fin 4 → Nat) → Nat → α := fun c m r => z c r * gridM e d (grid (r%104)) (U r) c (m 0) (m 1)
  have hceil : angOf e 0 + G.ng.i = e.li_ceil ∧ angOf e 1 + G.ng.j = e.lj_ceil := by rw [he]; exact ⟨rfl, rfl⟩
  have hv : TabP h1 g e (fun t => angOf e t + (![G.ng.i, G.ng.j, 0, 0] : Fin 4 → Nat) t) (gridRt e.nrys_roots b) v0 := by
    rintro c m r hc hm ⟨n, ig, hn, hig, rfl⟩
    have m0 : m 0 ≤ e.li_ceil := by have := hm 0; rw [← hceil.1]; exact this
    have m1 : m 1 ≤ e.lj_ceil := by have := hm 1; rw [← hceil.2]; exact this
    have m2 : m 2 = 0 := by have : m 2 ≤ angOf e 2 + 0 := hm 2; omega
    have m3 : m 3 = 0 := by have : m 3 ≤ angOf e 3 + 0 := hm 3; omega
    have hS : slabM e m (ig + 104*n) = basePlace e (if ibase e then m 0 else m 1) (if ibase e then m 1 else m 0) (ig + 104*n) := by
      unfold slabM basePlace baseDi baseDj
      rw [m2, m3]
      by_cases hib : ibase e
      · simp only [if_pos hib]; ring
      · simp only [if_neg hib]; ring
    rw [hS, hT1 c _ _ n ig hc (by split_ifs <;> omega) (by unfold baseL; split_ifs <;> omega) hn hig]
    refine congrArg Cell.val ?_
    show _ = z c (ig + 104*n) * gridM e d (grid ((ig+104*n)%104)) (U (ig+104*n)) c (m 0) (m 1)
    unfold gridM
    by_cases hib : ibase e
    · simp only [if_pos hib]
    · simp only [if_neg hib]
  have hnc := hG.ncomp
  have W := goutGridsGen_wp (D := opDataG d) (v0 := v0) (n := 2^G.gbits+1) C hG.steps (Gen1e.OKG.run hG) (Nat.succ_pos _)
    hang (idx := idx) (gout := gout) (em := em) (T := T) (ad := adr2 e)
    (m := fun n => pows (fun c => Spec.pw e.i_l c (n % e.nfi)) (fun c => Spec.pw e.j_l c (n / e.nfi))) (u := u) (h := h1) (g := g)
    (fun n c _ _ => by
      unfold adr2 slabM slab2 pows
      simp only [Matrix.cons_val_zero, Matrix.cons_val_one, Matrix.cons_val, Nat.mul_zero, Nat.add_zero])
    (fun n c t hn hc => by
      obtain ⟨q1, q2⟩ := hpos n hn
      rw [hnfi] at q1; rw [hnfj] at q2
      fin_cases t
      · exact pw_le (by rw [hnfi]; exact q1)
      · exact pw_le q2
      · exact Nat.zero_le _
      · exact Nat.zero_le _)
    (fun q x hq => by rw [hI]; exact hRO q x hq) hT
    (fun i hi => by rw [hnc] at hi; rw [hag _ (hd i hi)]; exact hA i hi) (fun q hq => hal q (Or.inl hq))
    (fun i hi => by rw [hnc] at hi; exact fun hb => hd i hi (Or.inl hb))
    (fun he i hi => by rw [hnc] at hi; rw [hag _ (hd i hi)]; exact hE he i hi) hv
  rw [hnc] at W
  refine wp_mono W ?_
  rintro _ h2 ⟨A2, B2, C2⟩
  refine ⟨?_, hag.trans B2 (fun q hq => Or.inl hq) (fun q hq => ?_), by rw [C2, hI]⟩
  · intro M hM
    rw [A2 M hM]
    have hb0 : 0 < b := by
      rcases Nat.eq_zero_or_pos b with h0 | h0
      · rw [h0, Nat.zero_mul, Nat.mul_zero] at hM; omega
      · exact h0
    have hig : M % b < b := Nat.mod_lt _ hb0
    have hval : (∑ r ∈ Finset.range e.nrys_roots, goutVal (opDataG d) v0 G.prog ws
        (pows (fun c => Spec.pw e.i_l c (M/b/G.nComp % e.nfi)) (fun c => Spec.pw e.j_l c (M/b/G.nComp / e.nfi)))
        (M%b + 104*r) (M/b%G.nComp)) = fac * gridGenW G ws R K e d A (grid (M%b)) (M/b) := by
      unfold gridGenW
      rw [Finset.mul_sum]
      refine Finset.sum_congr rfl fun i _ => ?_
      rw [Gen1e.OKG.val hG]
      refine goutVal_scale hG.two (fun c => ⟨rfl, rfl⟩) (fun c m hc m2 m3 => ?_)
      show (if c = 2 then fac * (gridUW1 R K e d A (grid ((M%b+104*i)%104)) ((M%b+104*i)/104)).2 else 1) *
        gridM e d (grid ((M%b+104*i)%104)) (gridUW1 R K e d A (grid ((M%b+104*i)%104)) ((M%b+104*i)/104)).1 c (m 0) (m 1) = _
      rw [(e1 hig).1, (e1 hig).2]
      unfold gridTab
      by_cases h2 : c = 2
      · simp only [if_pos h2]; ring
      · simp only [if_neg h2, one_mul]
    refine congrArg Cell.val ?_
    dsimp only
    rw [hval]
  · rcases hq with hq | hq
    · exact Or.inl (Or.inl hq)
    · exact Or.inr hq

end
end Verif.Lemmas
