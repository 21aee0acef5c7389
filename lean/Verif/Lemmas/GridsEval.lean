import Verif.Lemmas.GridsBlock
import Verif.Lemmas.Nuc

/-! The evaluator of int1e_grids. -/
namespace Verif.Lemmas
open Verif Verif.Model Verif.Prog Verif.Props

variable {α : Type}

section
variable [Field α]

/-- solution of the vertical recursion -/
def vrrSol (t r : α) : Nat → α
  | 0 => 1
  | 1 => r
  | i+2 => ((i+1 : Nat) : α) * t * vrrSol t r i + r * vrrSol t r (i+1)

theorem vrrSol_succ (t r : α) (i : Nat) : vrrSol t r (i+1) = (i:α) * t * vrrSol t r (i-1) + r * vrrSol t r i := by
  rcases i with _ | i
  · simp [vrrSol]
  · simp [vrrSol]

/-- solution of both recursions -/
def hrrSol (t r d : α) (i : Nat) : Nat → α
  | 0 => vrrSol t r i
  | j+1 => hrrSol t r d (i+1) j + d * hrrSol t r d i j

theorem loadN_wp {f : Nat → Prog α α} {x : Nat → α} {h : Heap α} : ∀ n,
    (∀ i, i < n → wp (f i) (fun s h' => h' = h ∧ s = x i) h) →
    wp (loadN f n) (fun s h' => h' = h ∧ ∀ k, k < n → s k = x k) h
  | 0, _ => by
    unfold loadN
    rw [wp_pure]
    exact ⟨rfl, fun k hk => by omega⟩
  | n+1, H => by
    unfold loadN
    rw [wp_mbind]
    refine wp_mono (loadN_wp n (fun i hi => H i (by omega))) ?_
    rintro s h1 ⟨rfl, hs⟩
    rw [wp_mbind]
    refine wp_mono (H n (by omega)) ?_
    rintro y h2 ⟨rfl, hy⟩
    rw [wp_pure]
    refine ⟨rfl, fun k hk => ?_⟩
    beta_reduce
    by_cases hkn : k = n
    · rw [if_pos hkn, hy, hkn]
    · rw [if_neg hkn, hs k (by omega)]

/-- CINTgout1e_grids multiplies the three factors and adds up the roots, for every point of the block -/
theorem goutGrids_wp {nf R b : Nat} {idx g gout : Ptr} {e : Int} {T : Ptr → Option Int} {ad : Nat → Nat → Nat}
    {x : Nat → Nat → Nat → α} {u : Nat → α} {h : Heap α}
    (hR : RO T h) (hT : IdxT T idx nf ad) (ha : AllocD h gout (nf*b))
    (hE : e = 0 → HoldsD h gout (nf*b) u)
    (hg : ∀ n c i ig, n < nf → c < 3 → i < R → ig < b → ¬ Blk gout (nf*b) (g + ad c n + (ig + 104*i)))
    (hx : ∀ n c i ig, n < nf → c < 3 → i < R → ig < b → h.D (g + ad c n + (ig + 104*i)) = .val (x c n (ig + 104*i))) :
    wp (goutGrids nf R b idx g gout e) (fun _ h' =>
      HoldsD h' gout (nf*b) (fun m => if e = 0 then u m + ∑ i ∈ Finset.range R, x 0 (m/b) (m%b+104*i) * x 1 (m/b) (m%b+104*i) * x 2 (m/b) (m%b+104*i)
        else ∑ i ∈ Finset.range R, x 0 (m/b) (m%b+104*i) * x 1 (m/b) (m%b+104*i) * x 2 (m/b) (m%b+104*i)) ∧
      AgreeD h h' (Blk gout (nf*b)) ∧ h'.I = h.I) h := by
  unfold goutGrids
  refine goutLoop_wp (val := fun n ig => ∑ i ∈ Finset.range R, x 0 n (ig+104*i) * x 1 n (ig+104*i) * x 2 n (ig+104*i)) (u := u) hR hT ha hE ?_
  intro n hn h' hag hI
  have hv : ∀ c i ig, c < 3 → i < R → ig < b → h'.D (g + ad c n + (ig + 104*i)) = .val (x c n (ig+104*i)) := by
    intro c i ig hc hi hb
    rw [hag _ (hg n c i ig hn hc hi hb)]
    exact hx n c i ig hn hc hi hb
  refine accRoots_wp (x := fun i ig => x 0 n (ig+104*i) * x 1 n (ig+104*i) * x 2 n (ig+104*i)) R (fun i hi => ?_)
  refine loadN_wp b (fun ig hig => ?_)
  simp only [wp_mbind, wp_ld, wp_pure]
  exact ⟨_, hv 0 i ig (by omega) hi hig, _, hv 1 i ig (by omega) hi hig, _, hv 2 i ig (by omega) hi hig, True.intro, rfl⟩
end

section
variable [Field α] [LinearOrder α]

/-- `envs->fac[0]` is a factor of the weights and does not enter the roots -/
theorem gridUW_fac (R : Rys2 α) (K : Consts α) (ro nr : Nat) (A : GridArgs α) (aij fac rr : α) (i : Nat) :
    gridUW R K ro nr A aij fac rr i =
      ((gridUW R K ro nr A aij 1 rr i).1, fac * (gridUW R K ro nr A aij 1 rr i).2) := by
  have fin : ∀ {x y y' : α}, y = fac * y' → ((x, y) : α × α) = ((x, y').1, fac * (x, y').2) := by
    intro x y y' h; rw [h]
  unfold gridUW
  dsimp only
  by_cases h1 : A.omega = 0 ∧ A.zeta = 0
  · simp only [if_pos h1]
    exact fin (by ring)
  simp only [if_neg h1]
  by_cases h2 : A.omega < 0
  · simp only [if_pos h2]
    by_cases hz : A.zeta = 0
    · simp only [if_pos hz]
      split_ifs
      · exact fin (by ring)
      · exact fin (by ring)
      · exact fin (by ring)
      · exact fin (by ring)
    · simp only [if_neg hz]
      split_ifs
      · exact fin (by ring)
      · exact fin (by ring)
      · exact fin (by ring)
      · exact fin (by ring)
  · simp only [if_neg h2]
    exact fin (by ring)

/-- squared distance of a point from the centre of the pair -/
def gridRR (d : G1 α) (r : Nat → α) : α :=
  (r 0 - d.rij 0) * (r 0 - d.rij 0) + (r 1 - d.rij 1) * (r 1 - d.rij 1) + (r 2 - d.rij 2) * (r 2 - d.rij 2)

/-- root and weight `i` for a point with coordinates `r` -/
def gridUW1 (R : Rys2 α) (K : Consts α) (e : EnvG) (d : G1 α) (A : GridArgs α) (r : Nat → α) (i : Nat) : α × α :=
  gridUW R K e.rys_order e.nrys_roots A (d.ai + d.aj) 1 (gridRR d r) i

/-- intermediate of direction `c`, powers `i` and `j` of the base and the other centre, for a root `U` and a point -/
def gridE (e : EnvG) (d : G1 α) (r : Nat → α) (U : α) (c i j : Nat) : α :=
  hrrSol (1/2/(d.ai + d.aj) * (1 - U)) ((d.rij c - baseR e d c) + U * (r c - d.rij c)) (rirj e d c) i j

/-- powers `a` and `b` of the first and the second centre -/
def gridM (e : EnvG) (d : G1 α) (r : Nat → α) (U : α) (c a b : Nat) : α :=
  if ibase e then gridE e d r U c a b else gridE e d r U c b a

/-- the primitive integral of cartesian function `n` at a point -/
def gridW (R : Rys2 α) (K : Consts α) (e : EnvG) (d : G1 α) (A : GridArgs α) (r : Nat → α) (n : Nat) : α :=
  ∑ i ∈ Finset.range e.nrys_roots, (gridUW1 R K e d A r i).2 *
    (gridM e d r (gridUW1 R K e d A r i).1 0 (Spec.pw e.i_l 0 (n % e.nfi)) (Spec.pw e.j_l 0 (n / e.nfi)) *
     gridM e d r (gridUW1 R K e d A r i).1 1 (Spec.pw e.i_l 1 (n % e.nfi)) (Spec.pw e.j_l 1 (n / e.nfi)) *
     gridM e d r (gridUW1 R K e d A r i).1 2 (Spec.pw e.i_l 2 (n % e.nfi)) (Spec.pw e.j_l 2 (n / e.nfi)))

theorem gridE_hv (e : EnvG) (d : G1 α) (r : Nat → α) (U : α) (c i : Nat) :
    gridE e d r U c (i+1) 0 = (i:α) * (1/2/(d.ai + d.aj) * (1 - U)) * gridE e d r U c (i-1) 0 +
      ((d.rij c - baseR e d c) + U * (r c - d.rij c)) * gridE e d r U c i 0 := by
  unfold gridE hrrSol
  exact vrrSol_succ _ _ _

theorem gridE_hh (e : EnvG) (d : G1 α) (r : Nat → α) (U : α) (c i j : Nat) :
    gridE e d r U c i (j+1) = gridE e d r U c (i+1) j + rirj e d c * gridE e d r U c i j := rfl

/-- the evaluator meets the requirements of the loops -/
theorem grids_kernel {R : Rys2 α} {K : Consts α} {e : EnvG} {d : G1 α} {A : GridArgs α} {grid : Nat → Nat → α} {b : Nat}
    {g idx : Ptr} {S : GridAux} {leng : Nat} {T : Ptr → Option Int}
    (B : BaseOK (flatE e)) (hl : 3 * e.g_size ≤ leng) (hAux : AuxOK S e.nrys_roots)
    (hd0 : ∀ q, Blk g leng q → ¬ Blk S.u (104*e.nrys_roots + 728) q) (hb : b ≤ 104)
    (hi : e.i_l ≤ e.li_ceil) (hj : e.j_l ≤ e.lj_ceil)
    (hnfi : e.nfi = Spec.ncart e.i_l) (hnfj : e.nfj = Spec.ncart e.j_l)
    (hT : IdxT T idx (e.nfj*e.nfi) (adr2 e)) :
    KernelSpec T (g0Grids R K e d A grid b g S) (fun _ gout em => goutGrids (e.nfj*e.nfi) e.nrys_roots b idx g gout em)
      (GScr g leng S e.nrys_roots) (e.nfj*e.nfi*b) true (fun m => gridW R K e d A (grid (m%b)) (m/b)) := by
  intro fac gout em u h hRO hGs hA hd hE
  have hpos : ∀ n, n < e.nfj*e.nfi → n % e.nfi < e.nfi ∧ n / e.nfi < e.nfj := by
    intro n hn
    have : 0 < e.nfi := by
      rcases Nat.eq_zero_or_pos e.nfi with h0 | h0
      · rw [h0, Nat.mul_zero] at hn; omega
      · exact h0
    exact ⟨Nat.mod_lt _ this, (Nat.div_lt_iff_lt_mul this).2 hn⟩
  have hpw : ∀ n c, n < e.nfj*e.nfi → Spec.pw e.i_l c (n % e.nfi) ≤ e.li_ceil ∧ Spec.pw e.j_l c (n / e.nfi) ≤ e.lj_ceil := by
    intro n c hn
    obtain ⟨h1, h2⟩ := hpos n hn
    rw [hnfi] at h1; rw [hnfj] at h2
    have a1 := pw_le (c := c) h1
    have a2 := pw_le (c := c) h2
    rw [← hnfi] at a1
    exact ⟨by omega, by omega⟩
  -- place of an intermediate
  let bi : Nat → Nat → Nat := fun c n => if ibase e then Spec.pw e.i_l c (n % e.nfi) else Spec.pw e.j_l c (n / e.nfi)
  let bj : Nat → Nat → Nat := fun c n => if ibase e then Spec.pw e.j_l c (n / e.nfi) else Spec.pw e.i_l c (n % e.nfi)
  have hadr : ∀ n c r, g + adr2 e c n + r = gAx g e c (basePlace e (bi c n) (bj c n) r) := by
    intro n c r
    rw [Ptr.add_assoc]
    unfold adr2 gAx slab2 basePlace baseDi baseDj
    by_cases hib : ibase e
    · simp only [bi, bj, if_pos hib]
      congr 1
      ring
    · simp only [bi, bj, if_neg hib]
      congr 1
      ring
  have hbij : ∀ n c, n < e.nfj*e.nfi → bi c n + bj c n ≤ e.li_ceil + e.lj_ceil ∧ bj c n ≤ baseL e := by
    intro n c hn
    obtain ⟨a1, a2⟩ := hpw n c hn
    unfold baseL
    by_cases hib : ibase e
    · simp only [bi, bj, if_pos hib]; omega
    · simp only [bi, bj, if_neg hib]; omega
  have hin : ∀ n c i ig, n < e.nfj*e.nfi → c < 3 → i < e.nrys_roots → ig < b →
      GScr g leng S e.nrys_roots (g + adr2 e c n + (ig + 104*i)) := by
    intro n c i ig hn hc hi hig
    rw [hadr]
    obtain ⟨a1, a2⟩ := hbij n c hn
    exact Or.inl (baseAddr_mem (g := g) (k := (c, bi c n, bj c n, ig+104*i)) B hl ⟨hc, by dsimp only [flatE]; omega, a2, by
      dsimp only [flatE]; omega⟩)
  let U : Nat → α := fun r => (gridUW1 R K e d A (grid (r%104)) (r/104)).1
  let z : Nat → Nat → α := fun c r => if c = 2 then fac * (gridUW1 R K e d A (grid (r%104)) (r/104)).2 else 1
  have e1 : ∀ {i ig : Nat}, ig < b → (ig + 104*i)%104 = ig ∧ (ig + 104*i)/104 = i := by intro i ig h; omega
  refine wp_mono (g0Grids_wp (R := R) (K := K) (A := A) (grid := grid) (U := U) (z := z)
    (E := fun c i j r => gridE e d (grid (r%104)) (U r) c i j) (fac := fac) B hl hAux hd0 hb hGs ?_ (fun _ => rfl) (fun _ => rfl)
    ?_ (fun _ _ _ => rfl) (fun c i r _ => gridE_hv _ _ _ _ _ _) (fun c i j r _ => gridE_hh _ _ _ _ _ _ _)) ?_
  · intro i ig hi hig
    rw [gridUW_fac]
    show (gridUW1 R K e d A (grid ((ig+104*i)%104)) ((ig+104*i)/104)).1 = _
    rw [(e1 hig).1, (e1 hig).2]
    rfl
  · intro i ig hi hig
    rw [gridUW_fac]
    show (if 2 = 2 then fac * (gridUW1 R K e d A (grid ((ig+104*i)%104)) ((ig+104*i)/104)).2 else 1) = _
    rw [(e1 hig).1, (e1 hig).2, if_pos rfl]
    rfl
  rintro r h1 ⟨hr, hal, hag, hI, hT1⟩
  refine ⟨hr, hag, hI, fun _ => ?_⟩
  have hne : ∀ {q}, Blk gout (e.nfj*e.nfi*b) q → ¬ GScr g leng S e.nrys_roots q := by
    rintro q ⟨i, hi, rfl⟩; exact hd i hi
  refine wp_mono (goutGrids_wp (T := T) (ad := adr2 e) (u := u)
    (x := fun c n r => z c r * gridE e d (grid (r%104)) (U r) c (bi c n) (bj c n)) ?_ hT ?_ ?_ ?_ ?_) ?_
  · intro q x hq; rw [hI]; exact hRO q x hq
  · intro i hi; rw [hag _ (hd i hi)]; exact hA i hi
  · intro he i hi; rw [hag _ (hd i hi)]; exact hE he i hi
  · intro n c i ig hn hc hi hig hb; exact hne hb (hin n c i ig hn hc hi hig)
  · intro n c i ig hn hc hi hig
    rw [hadr]
    obtain ⟨a1, a2⟩ := hbij n c hn
    exact hT1 c _ _ i ig hc a1 a2 hi hig
  · rintro _ h2 ⟨H2, hag2, hI2⟩
    refine ⟨?_, ?_, by rw [hI2, hI]⟩
    · intro m hm
      rw [H2 m hm]
      have hb0 : 0 < b := by
        rcases Nat.eq_zero_or_pos b with h0 | h0
        · rw [h0, Nat.mul_zero] at hm; omega
        · exact h0
      have hig : m % b < b := Nat.mod_lt _ hb0
      have hval : (∑ i ∈ Finset.range e.nrys_roots,
          z 0 (m%b+104*i) * gridE e d (grid ((m%b+104*i)%104)) (U (m%b+104*i)) 0 (bi 0 (m/b)) (bj 0 (m/b)) *
          (z 1 (m%b+104*i) * gridE e d (grid ((m%b+104*i)%104)) (U (m%b+104*i)) 1 (bi 1 (m/b)) (bj 1 (m/b))) *
          (z 2 (m%b+104*i) * gridE e d (grid ((m%b+104*i)%104)) (U (m%b+104*i)) 2 (bi 2 (m/b)) (bj 2 (m/b)))) =
          fac * gridW R K e d A (grid (m%b)) (m/b) := by
        unfold gridW
        rw [Finset.mul_sum]
        refine Finset.sum_congr rfl (fun i _ => ?_)
        have hg : ∀ c n V, gridE e d (grid (m%b)) V c (bi c n) (bj c n) = gridM e d (grid (m%b)) V c (Spec.pw e.i_l c (n % e.nfi)) (Spec.pw e.j_l c (n / e.nfi)) := by
          intro c n V
          unfold gridM
          by_cases hib : ibase e
          · simp only [bi, bj, if_pos hib]
          · simp only [bi, bj, if_neg hib]
        have hU : U (m%b+104*i) = (gridUW1 R K e d A (grid (m%b)) i).1 := by
          show (gridUW1 R K e d A (grid ((m%b+104*i)%104)) ((m%b+104*i)/104)).1 = _
          rw [(e1 hig).1, (e1 hig).2]
        have hz2 : z 2 (m%b+104*i) = fac * (gridUW1 R K e d A (grid (m%b)) i).2 := by
          show fac * (gridUW1 R K e d A (grid ((m%b+104*i)%104)) ((m%b+104*i)/104)).2 = _
          rw [(e1 hig).1, (e1 hig).2]
        rw [(e1 hig).1, hg, hg, hg, hU, hz2]
        show 1 * _ * (1 * _) * (_ * _) = _
        ring
      refine congrArg Cell.val ?_
      split
      · exact congrArg (u m + ·) hval
      · exact hval
    · exact hag.trans hag2 (fun q hq => Or.inl hq) (fun q hq => Or.inr hq)

theorem initGrids_ceil (li lj : Nat) (ng : Inc) (sr : Bool) : (initGrids li lj ng sr).li_ceil = li + ng.i ∧
    (initGrids li lj ng sr).lj_ceil = lj + ng.j := ⟨rfl, rfl⟩

/-- the primitive integrals computed by int1e_grids -/
def gridPrim (R : Rys2 α) (K : Consts α) (L : MathLib α) (s : CallG α) (ip jp : Nat) (r : Nat → α) (n : Nat) : α :=
  gridW R K (s.envG gridsInt) (s.g1G gridsInt L ip jp) (s.gridArgs gridsInt L ip jp) r n

theorem evalG_grids (R : Rys2 α) (K : Consts α) (L : MathLib α) (s : CallG α) :
    EvalG R K L gridsInt s (gridPrim R K L s) := by
  intro off ip jp g idx S T hip hjp hoff hAux hd hT
  have hnf : (s.envG gridsInt).nfj * (s.envG gridsInt).nfi = (s.envG gridsInt).nf := Nat.mul_comm _ _
  have key := grids_kernel (R := R) (K := K) (e := s.envG gridsInt) (d := s.g1G gridsInt L ip jp)
    (A := s.gridArgs gridsInt L ip jp) (grid := fun ig c => s.grid (off + ig) c) (b := bgrids s.ngrids off) (g := g) (idx := idx)
    (S := S) (leng := s.lengG gridsInt) (T := T) (baseOK_grids _ _ _ _)
    (by
      show 3 * (s.envG gridsInt).g_size ≤ (s.envG gridsInt).g_size * 3 * (2^0 + 1)
      rw [Nat.mul_comm 3]
      exact Nat.le_mul_of_pos_right _ (by omega))
    hAux hd (Nat.min_le_right _ _) (Nat.le_add_right _ _) (Nat.le_add_right _ _) rfl rfl (by rw [hnf]; exact hT)
  rw [hnf] at key
  have hlen : (s.nestG gridsInt R K L off idx g S).len0 = (s.envG gridsInt).nf * bgrids s.ngrids off := by
    show bgrids s.ngrids off * (s.envG gridsInt).nf * 1 = _
    ring
  rw [hlen]
  exact key

end
end Verif.Lemmas
