import Verif.Lemmas.GridsTab
import Verif.Lemmas.GridsNest
import Verif.Lemmas.Drv1e
import Verif.Lemmas.Out

/-! One block of points: CINT1e_grids_loop, src/cint1e_grids.c:122-177. -/
namespace Verif.Lemmas
open Verif Verif.Model Verif.Prog Verif.Props

variable {α : Type}

/-- _transpose_comps -/
theorem transposeComps_wp {gctr gctrj : Ptr} {b dij ngrids nComp : Nat} {v : Nat → α} {h : Heap α} (hb : b ≤ ngrids)
    (hv : ∀ c N ig, c < nComp → N < dij → ig < b → h.D (gctrj + ((N*nComp+c)*b + ig)) = .val (v ((N*nComp+c)*b + ig)))
    (ha : ∀ c N ig, c < nComp → N < dij → ig < b → h.D (gctr + (c*(dij*ngrids) + (N*b+ig))) ≠ .oob)
    (hd : ∀ c N ig c' N' ig', c < nComp → N < dij → ig < b → c' < nComp → N' < dij → ig' < b →
      gctrj + ((N*nComp+c)*b + ig) ≠ gctr + (c'*(dij*ngrids) + (N'*b+ig'))) :
    wp (transposeComps gctr gctrj b dij ngrids nComp) (fun _ h' =>
      Wr (fun _ => False) h h' (fun k : Nat × Nat × Nat => k.1 < nComp ∧ k.2.1 < dij ∧ k.2.2 < b)
        (fun k => gctr + (k.1*(dij*ngrids) + (k.2.1*b+k.2.2))) (fun k => v ((k.2.1*nComp+k.1)*b + k.2.2))) h := by
  let P : Nat × Nat × Nat → Prop := fun k => k.1 < nComp ∧ k.2.1 < dij ∧ k.2.2 < b
  let src : Nat × Nat × Nat → Ptr := fun k => gctrj + ((k.2.1*nComp+k.1)*b + k.2.2)
  let adr : Nat × Nat × Nat → Ptr := fun k => gctr + (k.1*(dij*ngrids) + (k.2.1*b+k.2.2))
  let val : Nat × Nat × Nat → α := fun k => v ((k.2.1*nComp+k.1)*b + k.2.2)
  have hst := copyOk_stable (W := fun _ => False) (P := P) (src := src) (addr := adr) (v := val)
    (fun _ _ h => h) (fun k k' hk hk' => hd _ _ _ _ _ _ hk.1 hk.2.1 hk.2.2 hk'.1 hk'.2.1 hk'.2.2)
  have hinj : ∀ k k', P k → P k' → adr k = adr k' → val k = val k' := by
    intro k k' hk hk' e
    have hx : ∀ k, P k → k.2.1*b+k.2.2 < dij*ngrids := fun k hk =>
      lt_of_lt_of_le (radix_lt hk.2.1 hk.2.2) (Nat.mul_le_mul_left _ hb)
    obtain ⟨e1, e2⟩ := radix_inj (hx k hk) (hx k' hk') ((Ptr.add_right_inj _ _ _).1 e)
    obtain ⟨e3, e4⟩ := radix_inj hk.2.2 hk'.2.2 e2
    rw [Prod.ext e1 (Prod.ext e3 e4)]
  have key : Writes (fun _ => False) (CopyOk P src adr val) (transposeComps gctr gctrj b dij ngrids nComp)
      (fun _ => True) P adr val := by
    unfold transposeComps
    refine (Writes.forN (P := P) (d := fun k => k.1) hst (fun _ _ h => h) hinj ?_).congr
      (fun k => by simp only [P]; omega) (fun _ _ => rfl)
    intro c hc
    refine (Writes.forN (P := fun k => P k ∧ k.1 = c) (d := fun k => k.2.1)
      (fun h h' P' hP => hst h h' P' (fun k hk => (hP k hk).1)) (fun _ _ h => h)
      (fun k k' hk hk' => hinj k k' hk.1 hk'.1) ?_).congr (fun k => by simp only [P]; omega) (fun _ _ => rfl)
    intro N hN
    refine (Writes.forN (P := fun k => (P k ∧ k.1 = c) ∧ k.2.1 = N) (d := fun k => k.2.2)
      (fun h h' P' hP => hst h h' P' (fun k hk => (hP k hk).1.1)) (fun _ _ h => h)
      (fun k k' hk hk' => hinj k k' hk.1.1 hk'.1.1) ?_).congr (fun k => by simp only [P]; omega) (fun _ _ => rfl)
    intro ig hig
    refine Writes.cpy (k0 := (c, N, ig)) ?_ (fun h hok => ?_)
      (fun h hok => (hok (c,N,ig) ⟨hc, hN, hig⟩).2) (fun k => ?_)
    · show gctr + c*dij*ngrids + (ig + N*b) = gctr + (c*(dij*ngrids) + (N*b+ig))
      rw [Ptr.add_assoc, Nat.mul_assoc, Nat.add_comm ig]
    · rw [Ptr.add_assoc]
      exact (hok (c,N,ig) ⟨hc, hN, hig⟩).1
    · rw [Prod.ext_iff, Prod.ext_iff]
      simp only [P]
      omega
  refine wp_mono (key h (fun k hk => ⟨hv _ _ _ hk.1 hk.2.1 hk.2.2, ha _ _ _ hk.1 hk.2.1 hk.2.2⟩)) ?_
  exact fun _ h' x => x.2

/-- stores in a block -/
theorem stores_frame {n m : Nat} {p : Ptr} {N : Nat} {f : Nat → Nat → Nat} {v : Nat → Nat → α} {h : Heap α}
    (hf : ∀ i c, i < n → c < m → f i c < N) (ha : AllocD h p N) :
    wp (forN n fun i => forN m fun c => st (p + f i c) (v i c)) (fun _ h' => AgreeD h h' (Blk p N) ∧ h'.I = h.I) h := by
  refine wp_forN (fun _ h' => AgreeD h h' (Blk p N) ∧ h'.I = h.I ∧ AllocMono h h')
    ⟨AgreeD.refl _ _, rfl, AllocMono.refl _⟩ ?_ (fun h' x => ⟨x.1, x.2.1⟩)
  intro i hi h1 H1
  refine wp_forN (fun _ h' => AgreeD h h' (Blk p N) ∧ h'.I = h.I ∧ AllocMono h h') H1 ?_ (fun h' x => x)
  rintro c hc h1 ⟨a, b, m⟩
  refine wp_mono (wp_allocMono (p := st (p + f i c) (v i c))
    (Q := fun _ h2 => AgreeD h1 h2 (Blk p N) ∧ h2.I = h1.I) ?_) ?_
  · rw [wp_st]
    refine ⟨m.D _ (ha _ (hf i c hi hc)), ?_, rfl⟩
    intro q hq
    show (h1.setD (p+f i c) _).D q = _
    unfold Heap.setD
    exact if_neg (fun e => hq ⟨f i c, hf i c hi hc, e⟩)
  · rintro _ h2 ⟨⟨x, y⟩, m2⟩
    exact ⟨a.trans x (fun _ => id) (fun _ => id), by rw [y, b], m.trans m2⟩

variable [Field α] [LinearOrder α]

theorem three_flags {fl : Ptr} {h : Heap α} (ha : ∀ k, k < 3 → h.I (fl + k) ≠ .oob)
    {Q : Unit → Heap α → Prop}
    (hf : ∀ h', h'.D = h.D → AgreeI h h' (Blk fl 3) → (∀ k, k < 3 → h'.I (fl + k) = .val 1) → AllocMono h h' → Q () h') :
    wp (stI fl 1) (fun _ h => wp (stI (fl + 1) 1) (fun _ h => wp (stI (fl + 2) 1) Q h) h) h := by
  have key : wp (initFlags 3 fl : Prog α Unit) Q h := by
    refine wp_mono (wp_allocMono (initFlags_wp ha)) ?_
    rintro _ h' ⟨H, m⟩
    exact hf h' H.dbl (H.agree (fun k hk => ⟨k, hk, rfl⟩)) H.val m
  unfold initFlags at key
  simp only [forN, forS, wp_mbind, wp_bind, wp_pure, wp_stI] at key ⊢
  exact key

/-- `nf` times the number of contractions -/
def dijG (X : IntG α) (s : CallG α) : Nat := (s.envG X).nf * (s.si.nctr * s.sj.nctr)

/-- position of component `c`, function `N`, point `ig` of the block that starts at `off` -/
def gpos (ngrids dij off c N ig : Nat) : Nat := c*(dij*ngrids) + (off*dij + (N*bgrids ngrids off + ig))

/-- Memory of one block.  `E` is the end of the scratch. -/
structure GBMem (X : IntG α) (s : CallG α) (A : ArraysG) (gctr fl : Ptr) (E : Nat) (T : Ptr → Option Int)
    (h : Heap α) : Prop where
  bufT : A.gridsT.buf = gctr.buf
  bufU : A.aux.u.buf = gctr.buf
  ctr : gctr.off + dijG X s * s.ngrids * X.nComp ≤ A.gridsT.off
  work : A.gridsT.off + 312 + s.lenG X ≤ A.aux.u.off
  last : A.aux.u.off + (104*(s.envG X).nrys_roots + 728) = E
  aux : AuxOK A.aux (s.envG X).nrys_roots
  ctrw : AllocD h gctr (dijG X s * s.ngrids * X.nComp)
  workw : ∀ q : Ptr, q.buf = gctr.buf → A.gridsT.off ≤ q.off → q.off < E → h.D q ≠ .oob
  flw : ∀ k, k < 3 → h.I (fl + k) ≠ .oob
  flT : ∀ k, k < 3 → T (fl + k) = none
  ti : TblRO T A.tbl (A.tbl + s.si.nprim + s.sj.nprim) s.si.c s.si.nprim s.si.nctr
  tj : TblRO T (A.tbl + s.si.nprim) (A.tbl + s.si.nprim + s.sj.nprim + s.si.nprim*s.si.nctr) s.sj.c s.sj.nprim s.sj.nctr
  idx : IdxT T A.idx (s.envG X).nf (adr2 (s.envG X))

/-- The evaluator of integral `X` gives `w ip jp r m` for primitives `ip`, `jp` and a point with coordinates `r`, whatever
block the point is in. -/
def EvalG (R : Rys2 α) (K : Consts α) (L : MathLib α) (X : IntG α) (s : CallG α)
    (w : Nat → Nat → (Nat → α) → Nat → α) : Prop :=
  ∀ off ip jp (g idx : Ptr) (S : GridAux) (T : Ptr → Option Int), ip < s.si.nprim → jp < s.sj.nprim → off < s.ngrids →
    AuxOK S (s.envG X).nrys_roots →
    (∀ q, Blk g (s.lengG X) q → ¬ Blk S.u (104*(s.envG X).nrys_roots + 728) q) →
    IdxT T idx (s.envG X).nf (adr2 (s.envG X)) →
    KernelSpec T ((s.nestG X R K L off idx g S).g0 ip jp) ((s.nestG X R K L off idx g S).gout ip jp)
      (GScr g (s.lengG X) S (s.envG X).nrys_roots) (s.nestG X R K L off idx g S).len0 true
      (fun m => w ip jp (s.grid (off + m % bgrids s.ngrids off)) (m / bgrids s.ngrids off))

/-- the contracted integral of component `comp`, contractions `ic`, `jc`, cartesian function `n` at a point -/
def gridVal (K : Consts α) (L : MathLib α) (X : IntG α) (s : CallG α) (w : Nat → Nat → (Nat → α) → Nat → α)
    (r : Nat → α) (comp ic jc n : Nat) : α :=
  (2 * K.pi * commonFacSp s.si.l * commonFacSp s.sj.l) *
    Spec.contract2 s.si.nprim s.sj.nprim s.si.c s.sj.c
      (fun ip jp => pairVal L (s.pairArgsG X) ip jp 3 * w ip jp r (n * X.nComp + comp)) ic jc

theorem vJ_grid {R : Rys2 α} {K : Consts α} {L : MathLib α} {X : IntG α} {s : CallG α} {off : Nat} {idx g : Ptr}
    {S : GridAux} {w : Nat → Nat → (Nat → α) → Nat → α} {comp ic jc n ig : Nat} (hc : comp < X.nComp)
    (hi : ic < s.si.nctr) (hn : n < (s.envG X).nf) (hig : ig < bgrids s.ngrids off) :
    (s.nestG X R K L off idx g S).vJ (fun _ _ => true)
      (fun ip jp m => w ip jp (s.grid (off + m % bgrids s.ngrids off)) (m / bgrids s.ngrids off))
      ((((jc*s.si.nctr + ic)*(s.envG X).nf + n)*X.nComp + comp)*bgrids s.ngrids off + ig) =
    gridVal K L X s w (s.grid (off + ig)) comp ic jc n := by
  have h0 : (s.nestG X R K L off idx g S).len0 = ((s.envG X).nf * X.nComp) * bgrids s.ngrids off := by
    show bgrids s.ngrids off * (s.envG X).nf * X.nComp = _
    ring
  have e : (((jc*s.si.nctr + ic)*(s.envG X).nf + n)*X.nComp + comp)*bgrids s.ngrids off + ig =
      ((jc*(s.nestG X R K L off idx g S).iCtr + ic)*((s.envG X).nf * X.nComp) + (n*X.nComp+comp))*bgrids s.ngrids off + ig := by
    show _ = ((jc*s.si.nctr + ic)*((s.envG X).nf * X.nComp) + (n*X.nComp+comp))*bgrids s.ngrids off + ig
    ring
  rw [e, vJ_closed h0 hig hi (radix_lt hn hc)]
  unfold expected2 gridVal CallG.nestG
  dsimp only
  congr 2
  funext ip jp
  rw [Nat.mul_comm (n*X.nComp+comp), Nat.mul_add_mod, Nat.mod_eq_of_lt hig, Nat.mul_add_div (by omega), Nat.div_eq_of_lt hig,
    Nat.add_zero]
  by_cases hc : pairVal L (s.pairArgsG X) ip jp 4 > setijCutoff s.envCut
  · have h3 : pairVal L (s.pairArgsG X) ip jp 3 = 0 := by
      have : ¬ pairCC L (s.pairArgsG X) ip jp < (s.pairArgsG X).cutoff := by
        have h1 : pairVal L (s.pairArgsG X) ip jp 4 = pairCC L (s.pairArgsG X) ip jp := by
          unfold pairVal; simp
        rw [h1] at hc
        exact not_lt.2 (le_of_lt hc)
      unfold pairVal; simp [this]
    rw [if_neg (by simp [hc]), h3, zero_mul]
  · rw [if_pos ⟨by simpa using hc, rfl⟩]

/-- some primitive pair is not skipped -/
def gridAny (L : MathLib α) (X : IntG α) (s : CallG α) : Prop :=
  ∃ ip jp, ip < s.si.nprim ∧ jp < s.sj.nprim ∧ ¬ pairVal L (s.pairArgsG X) ip jp 4 > setijCutoff s.envCut

theorem gridBlock_wp {R : Rys2 α} {K : Consts α} {L : MathLib α} {X : IntG α} {s : CallG α}
    {w : Nat → Nat → (Nat → α) → Nat → α} {A : ArraysG} {gctr fl : Ptr} {E off : Nat} {T : Ptr → Option Int}
    {h : Heap α} (M : GBMem X s A gctr fl E T h) (hR : RO T h) (hK : EvalG R K L X s w) (hoff : off < s.ngrids)
    (hic : 1 ≤ s.si.nctr) (hjc : 1 ≤ s.sj.nctr) (hnc : 1 ≤ X.nComp) :
    wp (gridBlock X s R K L gctr A fl off) (fun res h' =>
      (res = true ↔ gridAny L X s) ∧
      (res = true → ∀ comp ic jc n ig, comp < X.nComp → ic < s.si.nctr → jc < s.sj.nctr → n < (s.envG X).nf →
        ig < bgrids s.ngrids off →
        h'.D (gctr + gpos s.ngrids (dijG X s) off comp ((jc*s.si.nctr+ic)*(s.envG X).nf + n) ig) =
          .val (gridVal K L X s w (s.grid (off + ig)) comp ic jc n)) ∧
      (res = false → ∀ comp ic jc n ig, comp < X.nComp → ic < s.si.nctr → jc < s.sj.nctr → n < (s.envG X).nf →
        ig < bgrids s.ngrids off → gridVal K L X s w (s.grid (off + ig)) comp ic jc n = 0) ∧
      AgreeD h h' (fun q => (∃ c N ig, c < X.nComp ∧ N < dijG X s ∧ ig < bgrids s.ngrids off ∧
          q = gctr + gpos s.ngrids (dijG X s) off c N ig) ∨
        (q.buf = gctr.buf ∧ A.gridsT.off ≤ q.off ∧ q.off < E)) ∧
      AgreeI h h' (Blk fl 3)) h := by
  let b := bgrids s.ngrids off
  let nf := (s.envG X).nf
  let D := dijG X s
  let g := A.gridsT + 104*3
  let P := s.nestG X R K L off A.idx g A.aux
  let wb : Nat → Nat → Nat → α := fun ip jp m => w ip jp (s.grid (off + m % b)) (m / b)
  have hb : b ≤ 104 := Nat.min_le_right _ _
  have hbo : off + b ≤ s.ngrids := by
    have : b ≤ s.ngrids - off := Nat.min_le_left _ _
    omega
  have hlj : P.lenj = b * D * X.nComp := by
    show b * nf * X.nComp * s.si.nctr * s.sj.nctr = b * (nf * (s.si.nctr * s.sj.nctr)) * X.nComp
    ring
  have hbD : b * D ≤ 104 * D := Nat.mul_le_mul_right _ hb
  have hlj104 : P.lenj ≤ 104 * D * X.nComp := by rw [hlj]; exact Nat.mul_le_mul_right _ hbD
  have hli : P.leni ≤ 104*nf*s.si.nctr*X.nComp := by
    have : P.leni = b * (nf * s.si.nctr * X.nComp) := by
      show b * nf * X.nComp * s.si.nctr = _; ring
    rw [this, show 104*nf*s.si.nctr*X.nComp = 104*(nf*s.si.nctr*X.nComp) by ring]
    exact Nat.mul_le_mul_right _ hb
  have hl0 : P.len0 ≤ 104*nf*X.nComp := by
    have : P.len0 = b * (nf * X.nComp) := by
      show b * nf * X.nComp = _; ring
    rw [this, show 104*nf*X.nComp = 104*(nf*X.nComp) by ring]
    exact Nat.mul_le_mul_right _ hb
  have hlen : s.lenG X = s.lengG X + 104*D*X.nComp + 104*nf*s.si.nctr*X.nComp + 104*nf*X.nComp := by
    show s.lengG X + 104 * nf * (s.si.nctr * s.sj.nctr) * X.nComp + _ + _ = _
    rw [show 104*D*X.nComp = 104 * nf * (s.si.nctr * s.sj.nctr) * X.nComp by
      show 104*(nf * (s.si.nctr * s.sj.nctr))*X.nComp = _; ring]
  have hwork : A.gridsT.off + 312 + (s.lengG X + 104*D*X.nComp + 104*nf*s.si.nctr*X.nComp + 104*nf*X.nComp) ≤ A.aux.u.off := by
    rw [← hlen]; exact M.work
  have hlast := M.last
  have hgo : g.off = A.gridsT.off + 312 := rfl
  have hgb : g.buf = gctr.buf := M.bufT
  have hpos : ∀ c N ig, c < X.nComp → N < D → ig < b → gpos s.ngrids D off c N ig < D * s.ngrids * X.nComp := by
    intro c N ig hc hN hig
    unfold gpos
    have h1 : N*b+ig < D*b := radix_lt hN hig
    have h2 : off*D + D*b ≤ D*s.ngrids := by
      calc off*D + D*b = D*(off+b) := by ring
        _ ≤ _ := Nat.mul_le_mul_left _ hbo
    have h3 : c*(D*s.ngrids) + (off*D + (N*b+ig)) < X.nComp*(D*s.ngrids) := radix_lt hc (by omega)
    rw [Nat.mul_comm X.nComp] at h3
    exact h3
  unfold gridBlock
  simp only [wp_mbind]
  refine wp_mono (wp_allocMono (stores_frame (N := 312) (by intro i c hi hc; have : i < b := hi; omega) ?_)) ?_
  · intro i hi
    refine M.workw _ M.bufT (by simp) ?_
    simp only [Ptr.add_off]; omega
  rintro _ h1 ⟨⟨d1, i1⟩, k1⟩
  refine three_flags (fun k hk => k1.I _ (M.flw k hk)) ?_
  intro h2 d2 a2 v2 k2
  have k02 := k1.trans k2
  have D02 : AgreeD h h2 (Blk A.gridsT 312) := d1.trans (AgreeD.of_eq d2 (fun _ => False)) (fun _ x => x) (fun _ x => x.elim)
  have I02 : AgreeI h h2 (Blk fl 3) := (AgreeI.of_eq i1 (fun _ => False)).trans a2 (fun _ x => x.elim) (fun _ x => x)
  have hR2 : RO T h2 := hR.agree I02 (by rintro q ⟨k, hk, rfl⟩; exact M.flT k hk)
  have h0 : T fl = none := M.flT 0 (by omega)
  have hTn : ∀ r, 0 < r → r < 3 → withG T fl (fl + r) = none := fun r hr hr2 =>
    withG_none (M.flT r hr2) (fun e => by have := (Ptr.add_right_inj fl r 0).1 e; omega)
  let gctrj := if X.nComp = 1 then gctr + off*nf*(s.si.nctr*s.sj.nctr) else g + s.lengG X
  let g1 := if X.nComp = 1 then g + s.lengG X else g + s.lengG X + 104*nf*(s.si.nctr*s.sj.nctr)*X.nComp
  have hoD : off*nf*(s.si.nctr*s.sj.nctr) = off*D := Nat.mul_assoc _ _ _
  have h104 : 104*nf*(s.si.nctr*s.sj.nctr)*X.nComp = 104*D*X.nComp := by rw [Nat.mul_assoc 104]; rfl
  have o1 : g.off + s.lengG X ≤ g1.off ∧ g1.off ≤ g.off + s.lengG X + 104*D*X.nComp ∧ g1.buf = g.buf := by
    by_cases hc : X.nComp = 1
    · have e : g1 = g + s.lengG X := if_pos hc
      rw [e]
      exact ⟨le_refl _, Nat.le_add_right _ _, rfl⟩
    · have e : g1 = g + s.lengG X + 104*nf*(s.si.nctr*s.sj.nctr)*X.nComp := if_neg hc
      rw [e, h104]
      exact ⟨Nat.le_add_right _ _, le_refl _, rfl⟩
  show wp (match aliasAddr P.jCtr gctrj (fl + 2) (fl + 1) g1 (104*nf*s.si.nctr*X.nComp) with
    | (gctri, iempty, g1) => _) _ h2
  rcases e2 : aliasAddr P.jCtr gctrj (fl + 2) (fl + 1) g1 (104*nf*s.si.nctr*X.nComp) with ⟨gi, fi, g2⟩
  dsimp only
  rcases e3 : aliasAddr P.iCtr gi fi fl g2 (104*nf*X.nComp) with ⟨go, fo, g3⟩
  have o2 : g2.off = g1.off + aliasLen P.jCtr (104*nf*s.si.nctr*X.nComp) := by
    have := @alias_off P.jCtr (104*nf*s.si.nctr*X.nComp) gctrj (fl+2) (fl+1) g1; rw [e2] at this; exact this
  have o3 : g3.off = g2.off + aliasLen P.iCtr (104*nf*X.nComp) := by
    have := @alias_off P.iCtr (104*nf*X.nComp) gi fi fl g2
    rw [e3] at this; exact this
  have hal : ∀ c n, aliasLen c n ≤ n := by intro c n; unfold aliasLen; split <;> omega
  have hal1 := hal P.jCtr (104*nf*s.si.nctr*X.nComp)
  have hal2 := hal P.iCtr (104*nf*X.nComp)
  have hg3 : g3.off ≤ A.aux.u.off := by
    have := o1.2.1
    omega
  -- the block of contracted functions
  have hgj : ∀ i, i < P.lenj → (∃ c N ig, c < X.nComp ∧ N < D ∧ ig < b ∧ gctrj + i = gctr + gpos s.ngrids D off c N ig ∧
        X.nComp = 1 ∧ i = N*b+ig) ∨
      (X.nComp ≠ 1 ∧ gctrj + i = g + (s.lengG X + i) ∧ s.lengG X + i < g1.off - g.off) := by
    intro i hi
    rw [hlj] at hi
    by_cases hc : X.nComp = 1
    · left
      rw [hc, Nat.mul_one] at hi
      have hb0 : 0 < b := by
        rcases Nat.eq_zero_or_pos b with e | e
        · rw [e] at hi; simp at hi
        · exact e
      refine ⟨0, i/b, i%b, by omega, (Nat.div_lt_iff_lt_mul hb0).2 (by rw [Nat.mul_comm]; exact hi), Nat.mod_lt _ hb0, ?_, hc, ?_⟩
      · have : gctrj = gctr + off*nf*(s.si.nctr*s.sj.nctr) := if_pos hc
        rw [this, Ptr.add_assoc, hoD]
        unfold gpos
        rw [Nat.zero_mul, Nat.zero_add]
        show gctr + (off*D + i) = gctr + (off*D + (i/b*b + i%b))
        rw [Nat.mul_comm (i/b), Nat.div_add_mod]
      · rw [Nat.mul_comm (i/b), Nat.div_add_mod]
    · right
      have e1 : gctrj = g + s.lengG X := if_neg hc
      have e2 : g1 = g + s.lengG X + 104*nf*(s.si.nctr*s.sj.nctr)*X.nComp := if_neg hc
      refine ⟨hc, by rw [e1, Ptr.add_assoc], ?_⟩
      have : g1.off = g.off + s.lengG X + 104*D*X.nComp := by rw [e2, h104]; rfl
      rw [hlj] at hlj104
      omega
  have hL : Lay g (s.lengG X) g1 E gctrj P.lenj := by
    refine ⟨o1.2.2, o1.1, ?_⟩
    rintro i hi ⟨_, hs⟩
    rcases hgj i hi with ⟨c, N, ig, hc, hN, hig, e, _⟩ | ⟨_, e, h2⟩
    · have h3 := hpos c N ig hc hN hig
      have h4 := M.ctr
      rw [e] at hs
      simp only [Ptr.add_off] at hs
      have h5 : gctr.off + D * s.ngrids * X.nComp ≤ A.gridsT.off := M.ctr
      have := o1.1
      omega
    · rw [e] at hs
      simp only [Ptr.add_off] at hs
      omega
  have C := Nest2.contribG (P := P) (keep := fun _ _ => true) (w := wb) (T := withG T fl)
    (ti := ⟨A.tbl, A.tbl + P.iPrim + P.jPrim⟩)
    (tj := ⟨A.tbl + P.iPrim, A.tbl + P.iPrim + P.jPrim + P.iPrim*P.iCtr⟩) (facI := P.facE)
    (Gs := GScr g (s.lengG X) A.aux (s.envG X).nrys_roots)
    hli hl0 e2 e3 hL (by omega) hic hjc (fun _ => M.ti.withG h0) (fun _ => M.tj.withG h0)
    (hTn 2 (by omega) (by omega)) (fun e => by have := (Ptr.add_right_inj _ _ _).1 e; omega)
    (hTn 1 (by omega) (by omega)) (by unfold withG; rw [if_pos rfl])
    (by
      rintro q (⟨i, hi, rfl⟩ | ⟨i, hi, rfl⟩)
      · exact ⟨rfl, Or.inl ⟨by simp, by simp only [Ptr.add_off]; omega⟩⟩
      · exact ⟨M.bufU.trans hgb.symm, Or.inr ⟨by simp only [Ptr.add_off]; omega, by simp only [Ptr.add_off]; omega⟩⟩)
    (fun ip jp hi hj => (hK off ip jp g A.idx A.aux T hi hj hoff M.aux (by
        rintro q ⟨i, hi, rfl⟩ ⟨j, hj, e⟩
        have := (Ptr.ext_iff'.1 e).2
        simp only [Ptr.add_off] at this
        omega) M.idx).mono (fun q v => withG_ext h0))
    (fun fac ip jp => by unfold Nest2.facE; split <;> ring)
  have hwk : ∀ q : Ptr, q.buf = gctr.buf → A.gridsT.off ≤ q.off → q.off < E → h2.D q ≠ .oob :=
    fun q h1 h2 h3 => k02.D _ (M.workw q h1 h2 h3)
  have hctrw : ∀ c N ig, c < X.nComp → N < D → ig < b → h2.D (gctr + gpos s.ngrids D off c N ig) ≠ .oob :=
    fun c N ig h1 h2 h3 => k02.D _ (M.ctrw _ (hpos c N ig h1 h2 h3))
  have hscr : ∀ q, Scr g (s.lengG X) g1 E q → q.buf = gctr.buf ∧ A.gridsT.off ≤ q.off ∧ q.off < E := by
    rintro q ⟨h1, h2⟩
    have := o1.1
    exact ⟨h1.trans hgb, by omega, by omega⟩
  have hAj : AccSt h2 (fl + 2) gctrj P.lenj false (fun _ => 0) := by
    refine ⟨by rw [v2 2 (by omega)]; simp, ?_, by simp, fun _ _ _ => rfl⟩
    intro i hi
    rcases hgj i hi with ⟨c, N, ig, hc, hN, hig, e, _⟩ | ⟨_, e, h2⟩
    · rw [e]; exact hctrw c N ig hc hN hig
    · rw [e]
      exact hwk _ hgb (by simp only [Ptr.add_off]; omega) (by simp only [Ptr.add_off]; omega)
  have hro' : RO (withG T fl) h2 := by
    intro q x hq
    unfold withG at hq
    split at hq
    · rename_i e; cases hq; rw [e]; exact v2 0 (by omega)
    · exact hR2 q x hq
  refine wp_mono (wp_allocMono (C h2 false _ hro' hAj
    (by
      intro q hq
      obtain ⟨x1, x2, x3⟩ := hscr q hq
      exact hwk q x1 x2 x3)
    (by rintro q rfl; rw [v2 1 (by omega)]; simp))) ?_
  rintro _ h5 ⟨⟨hA5, hD5, hI5⟩, hm5⟩
  simp only [Bool.false_or, zero_add] at hA5
  let W : Ptr → Prop := fun q => (∃ c N ig, c < X.nComp ∧ N < D ∧ ig < b ∧
          q = gctr + gpos s.ngrids D off c N ig) ∨ (q.buf = gctr.buf ∧ A.gridsT.off ≤ q.off ∧ q.off < E)
  have hD05 : AgreeD h h5 W := by
    refine D02.trans hD5 ?_ ?_
    · rintro q ⟨i, hi, rfl⟩
      refine Or.inr ⟨M.bufT, by simp, ?_⟩
      simp only [Ptr.add_off]; omega
    · rintro q (⟨i, hi, rfl⟩ | hq)
      · rcases hgj i hi with ⟨c, N, ig, hc, hN, hig, e, _⟩ | ⟨_, e, h2⟩
        · exact Or.inl ⟨c, N, ig, hc, hN, hig, e⟩
        · right
          rw [e]
          exact ⟨hgb, by simp only [Ptr.add_off]; omega, by simp only [Ptr.add_off]; omega⟩
      · exact Or.inr (hscr q hq)
  have hI05 : AgreeI h h5 (Blk fl 3) := by
    refine I02.trans hI5 (fun _ x => x) ?_
    rintro q (rfl | rfl)
    · exact ⟨2, by omega, rfl⟩
    · exact ⟨1, by omega, rfl⟩
  have hbJ : P.bJ (fun _ _ => true) = true ↔ gridAny L X s := by
    rw [bJ_iff]
    constructor
    · rintro ⟨ip, jp, a, b, c, _⟩; exact ⟨ip, jp, a, b, of_decide_eq_false c⟩
    · rintro ⟨ip, jp, a, b, c⟩; exact ⟨ip, jp, a, b, decide_eq_false c, rfl⟩
  have hN : ∀ ic jc n, ic < s.si.nctr → jc < s.sj.nctr → n < nf → (jc*s.si.nctr+ic)*nf + n < D := by
    intro ic jc n h1 h2 h3
    calc _ < s.sj.nctr*s.si.nctr*nf := radix_lt (radix_lt h2 h1) h3
      _ = D := by show _ = nf * (s.si.nctr * s.sj.nctr); ring
  have hlt : ∀ c N ig, c < X.nComp → N < D → ig < b → (N*X.nComp+c)*b+ig < P.lenj := by
    intro c N ig h1 h2 h3
    calc _ < D*X.nComp*b := radix_lt (radix_lt h2 h1) h3
      _ = _ := by rw [hlj]; ring
  have hzero : P.bJ (fun _ _ => true) = false → ∀ comp ic jc n ig, comp < X.nComp → ic < s.si.nctr → jc < s.sj.nctr → n < nf →
        ig < b → gridVal K L X s w (s.grid (off + ig)) comp ic jc n = 0 := by
    intro hr comp ic jc n ig h1 h2 h3 h4 h5
    rw [← vJ_grid (R := R) (idx := A.idx) (g := g) (S := A.aux) h1 h2 h4 h5]
    exact hA5.zero hr _ (hlt _ _ _ h1 (hN ic jc n h2 h3 h4) h5)
  simp only [wp_ldI]
  refine ⟨_, hA5.flag, ?_⟩
  by_cases hc : X.nComp = 1
  · rw [if_neg (by omega)]
    simp only [wp_pure, wp_mbind, wp_ldI]
    have hres : (decide ((if P.bJ (fun _ _ => true) = true then (0:Int) else 1) = 0)) = P.bJ (fun _ _ => true) := by
      cases P.bJ (fun _ _ => true) <;> simp
    refine ⟨_, hA5.flag, by rw [hres]; exact hbJ, ?_, by rw [hres]; exact hzero, hD05, hI05⟩
    intro hr comp ic jc n ig h1 h2 h3 h4 h5'
    rw [hres] at hr
    have hNN := hN ic jc n h2 h3 h4
    have := hA5.holds hr _ (hlt comp _ ig h1 hNN h5')
    obtain rfl : comp = 0 := by omega
    have e1 : gctrj + ((((jc*s.si.nctr+ic)*nf+n)*X.nComp+0)*b+ig) = gctr + gpos s.ngrids D off 0 ((jc*s.si.nctr+ic)*nf + n) ig := by
      have : gctrj = gctr + off*nf*(s.si.nctr*s.sj.nctr) := if_pos hc
      rw [this, Ptr.add_assoc, hoD, hc]
      unfold gpos
      rw [Nat.zero_mul, Nat.zero_add, Nat.mul_one, Nat.add_zero]
    rw [e1] at this
    rw [show gpos s.ngrids (dijG X s) off 0 ((jc*s.si.nctr+ic)*(s.envG X).nf + n) ig = gpos s.ngrids D off 0 ((jc*s.si.nctr+ic)*nf + n) ig from rfl, this]
    rw [← vJ_grid (R := R) (idx := A.idx) (g := g) (S := A.aux) h1 h2 h4 h5']
  · have hgt : 1 < X.nComp := by omega
    have hgc : gctrj = g + s.lengG X := if_neg hc
    cases hb : P.bJ (fun _ _ => true) with
    | false =>
      rw [hb] at hA5
      rw [if_neg (by simp)]
      simp only [wp_pure, wp_mbind, wp_ldI]
      refine ⟨_, hA5.flag, ?_, by simp, fun _ => hzero hb, hD05, hI05⟩
      rw [← hbJ, hb]; simp
    | true =>
      rw [hb] at hA5
      rw [if_pos ⟨hgt, by simp⟩, wp_mbind]
      have hsrc : ∀ c N ig, c < X.nComp → N < D → ig < b → s.lengG X + ((N*X.nComp+c)*b+ig) < g1.off - g.off := by
        intro c N ig h1 h2 h3
        rcases hgj _ (hlt c N ig h1 h2 h3) with ⟨_, _, _, _, _, _, _, h9, _⟩ | ⟨_, _, h9⟩
        · exact absurd h9 hc
        · exact h9
      have hg0 : ∀ c N ig, gctr + off*nf*(s.si.nctr*s.sj.nctr) + (c*(D*s.ngrids) + (N*b+ig)) = gctr + gpos s.ngrids D off c N ig := by
        intro c N ig
        rw [Ptr.add_assoc, hoD]
        unfold gpos
        congr 1
        show off*D + (c*(D*s.ngrids) + (N*b+ig)) = c*(D*s.ngrids) + (off*D + (N*b+ig))
        omega
      refine wp_mono (transposeComps_wp (gctr := gctr + off*nf*(s.si.nctr*s.sj.nctr)) (gctrj := gctrj) (b := b) (dij := D)
        (ngrids := s.ngrids) (nComp := X.nComp) (v := P.vJ (fun _ _ => true) wb) (by omega)
        (fun c N ig h1 h2 h3 => hA5.holds rfl _ (hlt c N ig h1 h2 h3))
        (fun c N ig h1 h2 h3 => by rw [hg0]; exact hm5.D _ (hctrw c N ig h1 h2 h3)) ?_) ?_
      · intro c N ig c' N' ig' h1 h2 h3 h1' h2' h3'
        rw [hg0, hgc, Ptr.add_assoc]
        intro e
        have e' := (Ptr.ext_iff'.1 e).2
        simp only [Ptr.add_off] at e'
        have := hpos c' N' ig' h1' h2' h3'
        have h5 : gctr.off + D * s.ngrids * X.nComp ≤ A.gridsT.off := M.ctr
        omega
      · intro _ h6 H6
        simp only [wp_mbind, wp_ldI, wp_pure]
        refine ⟨_, by rw [H6.int]; exact hA5.flag, ?_, ?_, by simp, ?_, ?_⟩
        · rw [← hbJ, hb]; simp
        · intro _ comp ic jc n ig h1 h2 h3 h4 h5'
          have hNN := hN ic jc n h2 h3 h4
          have := H6.val (comp, (jc*s.si.nctr+ic)*nf + n, ig) ⟨h1, hNN, h5'⟩
          dsimp only at this
          rw [hg0] at this
          rw [show gpos s.ngrids (dijG X s) off comp ((jc*s.si.nctr+ic)*(s.envG X).nf + n) ig = gpos s.ngrids D off comp ((jc*s.si.nctr+ic)*nf + n) ig from rfl, this]
          rw [← vJ_grid (R := R) (idx := A.idx) (g := g) (S := A.aux) h1 h2 h4 h5']
        · refine hD05.trans H6.agree (fun _ x => x) ?_
          rintro q (hq | ⟨k, hk, rfl⟩)
          · exact hq.elim
          · exact Or.inl ⟨k.1, k.2.1, k.2.2, hk.1, hk.2.1, hk.2.2, hg0 _ _ _⟩
        · exact fun q hq => by rw [H6.int]; exact hI05 q hq

end Verif.Lemmas
