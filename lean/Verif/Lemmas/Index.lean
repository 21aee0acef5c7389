import Verif.Model.Index
import Verif.Lemmas.Cart
import Verif.Core.Frame

namespace Verif.Model
open Verif Prog Spec

variable {α : Type}

/-- the component arrays of shell slot `s` hold the exponents of angular momentum `l` -/
def CompsI (h : Heap α) (loc : Ptr) (s l : Nat) : Prop :=
  ∀ c k, c < 3 → k < ncart l → h.I (compArr loc s c + k) = .val (pw l c k : Int)

theorem compArr_add (loc : Ptr) (s c k : Nat) : compArr loc s c + k = loc + ((3*s+c)*136 + k) := by
  unfold compArr; rw [Ptr.add_assoc]

theorem ncart_le {l : Nat} (h : l ≤ 15) : ncart l ≤ 136 := by
  have := tri_mono (a := l + 1) (b := 16) (by omega)
  rw [ncart_eq_tri]
  have e : tri 16 = 136 := by decide
  omega

theorem compFill_wp (loc : Ptr) (s l : Nat) (h : Heap α) (hl : l ≤ 15)
    (ha : ∀ k, k < 3*136 → h.I (loc + (3*s*136 + k)) ≠ .oob) {Q : Unit → Heap α → Prop}
    (hQ : ∀ h', CompsI h' loc s l → AgreeI h h' (Blk (loc + 3*s*136) (3*136)) → h'.D = h.D →
      Q () h') :
    wp (compFill loc s l) Q h := by
  have hn := ncart_le hl
  unfold compFill
  rw [wp_mbind]
  have al : ∀ c k, c < 3 → k < ncart l → h.I (compArr loc s c + k) ≠ .oob := by
    intro c k hc hk
    rw [compArr_add, show (3*s+c)*136 + k = 3*s*136 + (c*136+k) by omega]
    exact ha _ (by omega)
  have dj : ∀ c c', c < c' → ∀ i j, i < ncart l → j < ncart l →
      compArr loc s c + i ≠ compArr loc s c' + j := by
    intro c c' hc i j hi hj e
    rw [compArr_add, compArr_add, Ptr.add_right_inj] at e
    omega
  refine wp_mono (cartComp_wp _ _ _ l h (fun k => al 0 k (by omega)) (fun k => al 1 k (by omega))
    (fun k => al 2 k (by omega)) (dj 0 1 (by omega)) (dj 0 2 (by omega)) (dj 1 2 (by omega))) ?_
  rintro n h' ⟨-, H⟩
  refine hQ h' ?_ ?_ H.dbl
  · intro c k hc hk
    have := H.val (c, k) ⟨hc, hk⟩
    rcases c with _ | _ | _ | c
    · exact this
    · exact this
    · exact this
    · omega
  · refine H.agree ?_
    rintro ⟨c, k⟩ ⟨hc, hk⟩
    dsimp only at hc hk
    refine ⟨c*136 + k, by omega, ?_⟩
    have e : loc + 3*s*136 + (c*136+k) = compArr loc s c + k := by
      rw [compArr_add, Ptr.add_assoc]; congr 1; omega
    rw [e]
    rcases c with _ | _ | _ | c
    · rfl
    · rfl
    · rfl
    · omega

theorem CompsI.agree {h h' : Heap α} {loc : Ptr} {s l : Nat} (H : CompsI h loc s l) {W : Ptr → Prop}
    (hl : l ≤ 15) (ha : AgreeI h h' W)
    (hw : ∀ k, k < 3*136 → ¬ W (loc + (3*s*136 + k))) : CompsI h' loc s l := by
  intro c k hc hk
  have := ncart_le hl
  rw [ha _ ?_, H c k hc hk]
  rw [compArr_add, show (3*s+c)*136 + k = 3*s*136 + (c*136+k) by omega]
  exact hw _ (by omega)

/-- filling slot `s'` keeps slot `s` -/
theorem CompsI.other {h h' : Heap α} {loc : Ptr} {s s' l : Nat} (H : CompsI h loc s l)
    (hl : l ≤ 15) (hs : s ≠ s') (ha : AgreeI h h' (Blk (loc + 3*s'*136) (3*136))) :
    CompsI h' loc s l := by
  refine H.agree hl ha ?_
  rintro k hk ⟨i, hi, e⟩
  rw [Ptr.add_assoc, Ptr.add_right_inj] at e
  rcases Nat.lt_or_gt_of_ne hs with h1 | h1
  · have : 3*(s+1)*136 ≤ 3*s'*136 := Nat.mul_le_mul_right _ (Nat.mul_le_mul_left _ h1)
    omega
  · have : 3*(s'+1)*136 ≤ 3*s*136 := Nat.mul_le_mul_right _ (Nat.mul_le_mul_left _ h1)
    omega

/-- the first `n` entries of the table are written -/
def Filled (h h1 : Heap α) (idx : Ptr) (F : Nat → Int) (n : Nat) : Prop :=
  AssignedI h h1 (fun k => k < n) (fun k => idx + k) F

theorem Filled.next {h h1 : Heap α} {idx : Ptr} {F : Nat → Int} {n : Nat}
    (H : Filled h h1 idx F n) {v : Int} (hv : v = F n) :
    Filled h (h1.setI (idx + n) v) idx F (n+1) := by
  subst hv
  refine AssignedI.set H n ?_ ?_
  · intro k' _ e
    rw [Ptr.add_right_inj] at e; rw [e]
  · intro k'; omega

/-- Setting of the table-filling loops: `h` is the heap when they start. -/
structure IdxEnv (h : Heap α) (idx loc : Ptr) (N : Nat) : Prop where
  alloc : ∀ k, k < N → h.I (idx + k) ≠ .oob
  disj : Disj loc (12*136) idx N

theorem Filled.comp {h h1 : Heap α} {idx loc : Ptr} {F : Nat → Int} {n N s l c k : Nat}
    (H : Filled h h1 idx F n) (E : IdxEnv h idx loc N) (hn : n ≤ N) (hs : s < 4) (hl : l ≤ 15)
    (C : CompsI h loc s l) (hc : c < 3) (hk : k < ncart l) :
    h1.I (compArr loc s c + k) = .val (pw l c k : Int) := by
  have := ncart_le hl
  rw [AssignedI.frame H, C c k hc hk]
  intro k' hk' e
  rw [compArr_add] at e
  exact E.disj _ k' (by omega) (by omega) e

theorem idxTriple_wp {h h1 : Heap α} {idx loc : Ptr} {F : Nat → Int} {n N l i : Nat}
    {ofs : Nat → Int} {di : Int} (E : IdxEnv h idx loc N) (H : Filled h h1 idx F n)
    (hN : n + 3 ≤ N) (hl : l ≤ 15) (C : CompsI h loc 0 l) (hi : i < ncart l)
    (hF : ∀ c, c < 3 → F (n + c) = ofs c + di * (pw l c i : Int)) :
    wp (idxTriple idx loc n (ofs 0) (ofs 1) (ofs 2) di i)
      (fun n' h2 => n' = n + 3 ∧ Filled h h2 idx F (n+3)) h1 := by
  unfold idxTriple
  simp only [wp_mbind, wp_ldI, wp_stI, wp_pure]
  refine ⟨_, H.comp E (by omega) (by omega) hl C (by omega) hi,
    AssignedI.ne_oob H (E.alloc n (by omega)), ?_⟩
  have H1 := H.next (v := ofs 0 + di * (pw l 0 i : Int)) (by rw [← hF 0 (by omega)]; rfl)
  refine ⟨_, H1.comp E (by omega) (by omega) hl C (by omega) hi,
    AssignedI.ne_oob H1 (E.alloc (n+1) (by omega)), ?_⟩
  have H2 := H1.next (v := ofs 1 + di * (pw l 1 i : Int)) (by rw [← hF 1 (by omega)])
  refine ⟨_, H2.comp E (by omega) (by omega) hl C (by omega) hi,
    AssignedI.ne_oob H2 (E.alloc (n+2) (by omega)), ?_⟩
  have H3 := H2.next (v := ofs 2 + di * (pw l 2 i : Int)) (by rw [← hF 2 (by omega)])
  exact ⟨True.intro, H3⟩

theorem idxRow_wp {h h1 : Heap α} {idx loc : Ptr} {F : Nat → Int} {n N l : Nat}
    {ofs : Nat → Int} {di : Int} (E : IdxEnv h idx loc N) (H : Filled h h1 idx F n)
    (hN : n + 3 * ncart l ≤ N) (hl : l ≤ 15) (C : CompsI h loc 0 l)
    (hF : ∀ i c, i < ncart l → c < 3 → F (n + 3*i + c) = ofs c + di * (pw l c i : Int)) :
    wp (forS (ncart l) n fun i n => idxTriple idx loc n (ofs 0) (ofs 1) (ofs 2) di i)
      (fun n' h2 => n' = n + 3 * ncart l ∧ Filled h h2 idx F (n + 3 * ncart l)) h1 := by
  refine wp_forS (fun i n' h2 => n' = n + 3*i ∧ Filled h h2 idx F (n + 3*i)) ⟨rfl, H⟩ ?_
    (fun _ _ x => x)
  rintro i hi _ h2 ⟨rfl, H2⟩
  refine wp_mono (idxTriple_wp E H2 (by omega) hl C hi (fun c hc => hF i c hi hc)) ?_
  rintro _ h3 ⟨rfl, H3⟩
  exact ⟨by omega, H3⟩

theorem idxSwitch_wp {h h1 : Heap α} {idx loc : Ptr} {F : Nat → Int} {n N l : Nat}
    {ofs : Nat → Int} {di : Int} (E : IdxEnv h idx loc N) (H : Filled h h1 idx F n)
    (hN : n + 3 * ncart l ≤ N) (hl : l ≤ 15) (C : CompsI h loc 0 l)
    (hF : ∀ i c, i < ncart l → c < 3 → F (n + 3*i + c) = ofs c + di * (pw l c i : Int)) :
    wp (idxSwitch idx loc l (ncart l) n (ofs 0) (ofs 1) (ofs 2) di)
      (fun n' h2 => n' = n + 3 * ncart l ∧ Filled h h2 idx F (n + 3 * ncart l)) h1 := by
  have stp : ∀ {m : Nat} {h2 : Heap α}, Filled h h2 idx F m → m < N → h2.I (idx + m) ≠ .oob :=
    fun H2 hm => AssignedI.ne_oob H2 (E.alloc _ hm)
  match l, hl, C with
  | 0, hl, C =>
    have e : ncart 0 = 1 := rfl
    rw [e] at hN ⊢
    unfold idxSwitch
    simp only [wp_mbind, wp_stI, wp_pure, Nat.add_zero]
    have f := fun i c hi hc => hF i c (by rw [e]; exact hi) hc
    have a0 := H.next (v := ofs 0) (by have := f 0 0 (by decide) (by decide); simp [pw, px] at this; exact this.symm)
    have a1 := a0.next (v := ofs 1) (by have := f 0 1 (by decide) (by decide); simp [pw, py, row, col, tri] at this; exact this.symm)
    have a2 := a1.next (v := ofs 2) (by have := f 0 2 (by decide) (by decide); simp [pw, pz, row, col, tri] at this; exact this.symm)
    exact ⟨stp H (by omega), stp a0 (by omega), stp a1 (by omega), True.intro, a2⟩
  | 1, hl, C =>
    have e : ncart 1 = 3 := rfl
    rw [e] at hN ⊢
    unfold idxSwitch
    simp only [wp_mbind, wp_stI, wp_pure, Nat.add_zero]
    have f : ∀ i c (x : Int) m, i < 3 → c < 3 → (pw 1 c i : Int) = x → m = n + 3*i + c →
        F m = ofs c + di * x :=
      fun i c x m hi hc hx hm => by rw [hm, hF i c (by rw [e]; exact hi) hc, hx]
    have a0 := H.next (v := ofs 0 + di) (by rw [f 0 0 1 _ (by decide) (by decide) (by decide) (by omega)]; simp)
    have a1 := a0.next (v := ofs 1) (by rw [f 0 1 0 _ (by decide) (by decide) (by decide) (by omega)]; simp)
    have a2 := a1.next (v := ofs 2) (by rw [f 0 2 0 _ (by decide) (by decide) (by decide) (by omega)]; simp)
    have a3 := a2.next (v := ofs 0) (by rw [f 1 0 0 _ (by decide) (by decide) (by decide) (by omega)]; simp)
    have a4 := a3.next (v := ofs 1 + di) (by rw [f 1 1 1 _ (by decide) (by decide) (by decide) (by omega)]; simp)
    have a5 := a4.next (v := ofs 2) (by rw [f 1 2 0 _ (by decide) (by decide) (by decide) (by omega)]; simp)
    have a6 := a5.next (v := ofs 0) (by rw [f 2 0 0 _ (by decide) (by decide) (by decide) (by omega)]; simp)
    have a7 := a6.next (v := ofs 1) (by rw [f 2 1 0 _ (by decide) (by decide) (by decide) (by omega)]; simp)
    have a8 := a7.next (v := ofs 2 + di) (by rw [f 2 2 1 _ (by decide) (by decide) (by decide) (by omega)]; simp)
    exact ⟨stp H (by omega), stp a0 (by omega), stp a1 (by omega), stp a2 (by omega),
      stp a3 (by omega), stp a4 (by omega), stp a5 (by omega), stp a6 (by omega),
      stp a7 (by omega), True.intro, a8⟩
  | 2, hl, C =>
    have e : ncart 2 = 6 := rfl
    rw [e] at hN ⊢
    unfold idxSwitch
    simp only [wp_mbind, wp_stI, wp_pure, Nat.add_zero]
    have f : ∀ i c (x : Int) m, i < 6 → c < 3 → (pw 2 c i : Int) = x → m = n + 3*i + c →
        F m = ofs c + di * x :=
      fun i c x m hi hc hx hm => by rw [hm, hF i c (by rw [e]; exact hi) hc, hx]
    have a0 := H.next (v := ofs 0 + di*2) (by rw [f 0 0 2 _ (by decide) (by decide) (by decide) (by omega)])
    have a1 := a0.next (v := ofs 1) (by rw [f 0 1 0 _ (by decide) (by decide) (by decide) (by omega)]; simp)
    have a2 := a1.next (v := ofs 2) (by rw [f 0 2 0 _ (by decide) (by decide) (by decide) (by omega)]; simp)
    have a3 := a2.next (v := ofs 0 + di) (by rw [f 1 0 1 _ (by decide) (by decide) (by decide) (by omega)]; simp)
    have a4 := a3.next (v := ofs 1 + di) (by rw [f 1 1 1 _ (by decide) (by decide) (by decide) (by omega)]; simp)
    have a5 := a4.next (v := ofs 2) (by rw [f 1 2 0 _ (by decide) (by decide) (by decide) (by omega)]; simp)
    have a6 := a5.next (v := ofs 0 + di) (by rw [f 2 0 1 _ (by decide) (by decide) (by decide) (by omega)]; simp)
    have a7 := a6.next (v := ofs 1) (by rw [f 2 1 0 _ (by decide) (by decide) (by decide) (by omega)]; simp)
    have a8 := a7.next (v := ofs 2 + di) (by rw [f 2 2 1 _ (by decide) (by decide) (by decide) (by omega)]; simp)
    have a9 := a8.next (v := ofs 0) (by rw [f 3 0 0 _ (by decide) (by decide) (by decide) (by omega)]; simp)
    have a10 := a9.next (v := ofs 1 + di*2) (by rw [f 3 1 2 _ (by decide) (by decide) (by decide) (by omega)])
    have a11 := a10.next (v := ofs 2) (by rw [f 3 2 0 _ (by decide) (by decide) (by decide) (by omega)]; simp)
    have a12 := a11.next (v := ofs 0) (by rw [f 4 0 0 _ (by decide) (by decide) (by decide) (by omega)]; simp)
    have a13 := a12.next (v := ofs 1 + di) (by rw [f 4 1 1 _ (by decide) (by decide) (by decide) (by omega)]; simp)
    have a14 := a13.next (v := ofs 2 + di) (by rw [f 4 2 1 _ (by decide) (by decide) (by decide) (by omega)]; simp)
    have a15 := a14.next (v := ofs 0) (by rw [f 5 0 0 _ (by decide) (by decide) (by decide) (by omega)]; simp)
    have a16 := a15.next (v := ofs 1) (by rw [f 5 1 0 _ (by decide) (by decide) (by decide) (by omega)]; simp)
    have a17 := a16.next (v := ofs 2 + di*2) (by rw [f 5 2 2 _ (by decide) (by decide) (by decide) (by omega)])
    exact ⟨stp H (by omega), stp a0 (by omega), stp a1 (by omega), stp a2 (by omega),
      stp a3 (by omega), stp a4 (by omega), stp a5 (by omega), stp a6 (by omega),
      stp a7 (by omega), stp a8 (by omega), stp a9 (by omega), stp a10 (by omega),
      stp a11 (by omega), stp a12 (by omega), stp a13 (by omega), stp a14 (by omega),
      stp a15 (by omega), stp a16 (by omega), True.intro, a17⟩
  | l+3, hl, C =>
    unfold idxSwitch
    exact idxRow_wp E H hN hl C hF

/-- table contents as a function of the row `m` (functions of the other shells), the function
`i` of the fastest shell and the direction `c` -/
def tblF (nfi : Nat) (V : Nat → Nat → Nat → Int) (n : Nat) : Int := V (n/3/nfi) (n/3%nfi) (n%3)

theorem tblF_eq {nfi : Nat} {V : Nat → Nat → Nat → Int} {m i c : Nat} (hi : i < nfi) (hc : c < 3) :
    tblF nfi V (3*(m*nfi) + 3*i + c) = V m i c := by
  have e1 : (3*(m*nfi) + 3*i + c)/3 = m*nfi + i := by omega
  have e2 : (3*(m*nfi) + 3*i + c)%3 = c := by omega
  unfold tblF
  rw [e1, e2, Nat.mul_comm m, Nat.mul_add_div (by omega), Nat.mul_add_mod, Nat.div_eq_of_lt hi,
    Nat.mod_eq_of_lt hi, Nat.add_zero]

theorem row_div {n j i : Nat} (hi : i < n) : (j*n+i)/n = j := by
  rw [Nat.mul_comm, Nat.mul_add_div (by omega), Nat.div_eq_of_lt hi, Nat.add_zero]
theorem row_mod {n j i : Nat} (hi : i < n) : (j*n+i)%n = i := by
  rw [Nat.mul_comm, Nat.mul_add_mod, Nat.mod_eq_of_lt hi]

/-- what the caller of an index-table function provides: the table, and the local arrays -/
structure IdxMem (h : Heap α) (idx loc : Ptr) (N : Nat) : Prop where
  idxw : ∀ k, k < N → h.I (idx + k) ≠ .oob
  locw : ∀ k, k < 12*136 → h.I (loc + k) ≠ .oob
  disj : Disj loc (12*136) idx N

/-- effect: the table holds `F`; nothing but the table and the local arrays changed -/
structure IdxDone (h h' : Heap α) (idx loc : Ptr) (N : Nat) (F : Nat → Int) : Prop where
  val : ∀ k, k < N → h'.I (idx + k) = .val (F k)
  agree : AgreeI h h' (fun q => Blk idx N q ∨ Blk loc (12*136) q)
  dbl : h'.D = h.D

/-- slots `0..s` filled with the exponents of the angular momenta `ls` -/
theorem fill_step {h h1 : Heap α} {idx loc : Ptr} {N : Nat} (M : IdxMem h idx loc N)
    {s l : Nat} (hs : s < 4) (hl : l ≤ 15) (ls : Nat → Nat) (hls : ∀ t, t < s → ls t ≤ 15)
    (hsl : ls s = l)
    (P : (∀ t, t < s → CompsI h1 loc t (ls t)) ∧ AgreeI h h1 (Blk loc (12*136)) ∧ h1.D = h.D)
    {Q : Unit → Heap α → Prop}
    (hQ : ∀ h2, ((∀ t, t < s+1 → CompsI h2 loc t (ls t)) ∧ AgreeI h h2 (Blk loc (12*136)) ∧
      h2.D = h.D) ∧ AllocMono h1 h2 → Q () h2) (hm : AllocMono h h1) :
    wp (compFill loc s l) Q h1 := by
  have base : ∀ k, k < 3*136 → h1.I (loc + (3*s*136 + k)) ≠ .oob := by
    intro k hk
    refine hm.I _ (M.locw _ ?_)
    omega
  refine wp_mono (wp_allocMono (compFill_wp loc s l h1 hl base (Q := fun _ h2 =>
    ((∀ t, t < s+1 → CompsI h2 loc t (ls t)) ∧ AgreeI h h2 (Blk loc (12*136)) ∧
      h2.D = h.D)) ?_)) (fun _ h2 hh => hQ h2 hh)
  intro h2 c2 a2 d2
  refine ⟨?_, ?_, by rw [d2, P.2.2]⟩
  · intro t ht
    by_cases e : t = s
    · subst e; rw [hsl]; exact c2
    · exact (P.1 t (by omega)).other (hls t (by omega)) e a2
  · refine P.2.1.trans a2 (fun _ x => x) ?_
    rintro q ⟨i, hi, rfl⟩
    exact ⟨3*s*136 + i, by omega, by rw [Ptr.add_assoc]⟩

theorem idxEnv_of {h h1 : Heap α} {idx loc : Ptr} {N : Nat} (M : IdxMem h idx loc N)
    (hm : AllocMono h h1) : IdxEnv h1 idx loc N :=
  ⟨fun k hk => hm.I _ (M.idxw k hk), M.disj⟩

theorem idxDone_of {h h1 h2 : Heap α} {idx loc : Ptr} {N : Nat} {F : Nat → Int}
    (a : AgreeI h h1 (Blk loc (12*136))) (d : h1.D = h.D) (H : Filled h1 h2 idx F N) :
    IdxDone h h2 idx loc N F where
  val := H.val
  agree := a.trans (AssignedI.agree H (W := Blk idx N) (fun k hk => ⟨k, hk, rfl⟩))
    (fun _ => Or.inr) (fun _ => Or.inl)
  dbl := by rw [AssignedI.dbl H, d]

theorem g1eIndex_wp {h : Heap α} {idx loc : Ptr} {e : EnvG} (hi : e.i_l ≤ 15) (hj : e.j_l ≤ 15)
    (hnfi : e.nfi = ncart e.i_l) (hnfj : e.nfj = ncart e.j_l)
    (M : IdxMem h idx loc (3*(e.nfj*e.nfi))) :
    wp (g1eIndex idx loc e) (fun _ h' => IdxDone h h' idx loc (3*(e.nfj*e.nfi))
      (tblF e.nfi fun m i c => (c * e.g_size : Int) + e.g_stride_j * pw e.j_l c m +
        e.g_stride_i * pw e.i_l c i)) h := by
  unfold g1eIndex
  dsimp only
  let ls : Nat → Nat := fun t => if t = 0 then e.i_l else e.j_l
  rw [wp_mbind]
  refine fill_step M (s := 0) (by omega) hi ls (fun t ht => by omega) rfl
    ⟨fun t ht => by omega, AgreeI.refl _ _, rfl⟩ ?_ (AllocMono.refl _)
  rintro h1 ⟨P1, m1⟩
  rw [wp_mbind]
  refine fill_step M (s := 1) (by omega) hj ls (fun t ht => ?_) rfl P1 ?_ m1
  · have : t = 0 := by omega
    subst this; exact hi
  rintro h2 ⟨P2, m2⟩
  have E := idxEnv_of M (AllocMono.trans m1 m2)
  have C0 : CompsI h2 loc 0 e.i_l := P2.1 0 (by omega)
  have C1 : CompsI h2 loc 1 e.j_l := P2.1 1 (by omega)
  rw [wp_mbind]
  let F := tblF e.nfi fun m i c => (c * e.g_size : Int) + e.g_stride_j * pw e.j_l c m +
        e.g_stride_i * pw e.i_l c i
  refine wp_forS (fun j n h' => n = 3*(j*e.nfi) ∧ Filled h2 h' idx F (3*(j*e.nfi)))
    ⟨by simp, AssignedI.init _ _ _ (by simp)⟩ ?_ ?_
  · rintro j hj' _ h3 ⟨rfl, H3⟩
    have hjn := hj'
    rw [hnfj] at hj'
    have hle : 3*(j*e.nfi) + 3*e.nfi ≤ 3*(e.nfj*e.nfi) := by
      have : (j+1)*e.nfi ≤ e.nfj*e.nfi := Nat.mul_le_mul_right _ hjn
      rw [Nat.add_mul] at this; omega
    simp only [wp_mbind, wp_ldI]
    refine ⟨_, H3.comp E (by omega) (by omega) hj C1 (c := 0) (by omega) hj',
      _, H3.comp E (by omega) (by omega) hj C1 (c := 1) (by omega) hj',
      _, H3.comp E (by omega) (by omega) hj C1 (c := 2) (by omega) hj', ?_⟩
    have R := idxRow_wp (l := e.i_l) (di := e.g_stride_i)
      (ofs := fun c => (c * e.g_size : Int) + e.g_stride_j * pw e.j_l c j) E H3
      (by rw [← hnfi]; exact hle) hi C0 (fun i c hi' hc => by
        rw [← hnfi] at hi'
        exact tblF_eq hi' hc)
    rw [← hnfi] at R
    have e0 : ((0:Nat):Int) * (e.g_size:Int) = 0 := by simp
    have e1 : ((1:Nat):Int) * (e.g_size:Int) = e.g_size := by simp
    have e2 : ((2:Nat):Int) * (e.g_size:Int) = (e.g_size:Int) * 2 := by omega
    rw [e0, e1, e2] at R
    refine wp_mono R ?_
    rintro n h4 ⟨rfl, H4⟩
    rw [Nat.add_mul, Nat.one_mul, Nat.mul_add]
    exact ⟨rfl, H4⟩
  · rintro n h3 ⟨rfl, H3⟩
    exact idxDone_of P2.2.1 P2.2.2 H3


/-- value stored by the four-shell table at row `m = (j*nfl + l)*nfk + k` -/
def g2eVal (e : EnvG) (m i c : Nat) : Int :=
  (c * e.g_size : Int) + e.g_stride_j * pw e.j_l c (m/e.nfk/e.nfl) +
    e.g_stride_l * pw e.l_l c (m/e.nfk%e.nfl) + e.g_stride_k * pw e.k_l c (m%e.nfk) +
    e.g_stride_i * pw e.i_l c i

theorem g2eIndex_wp {h : Heap α} {idx loc : Ptr} {e : EnvG} (hi : e.i_l ≤ 15) (hj : e.j_l ≤ 15)
    (hk : e.k_l ≤ 15) (hl : e.l_l ≤ 15)
    (hnfi : e.nfi = ncart e.i_l) (hnfj : e.nfj = ncart e.j_l)
    (hnfk : e.nfk = ncart e.k_l) (hnfl : e.nfl = ncart e.l_l)
    (M : IdxMem h idx loc (3*(e.nfj*e.nfl*e.nfk*e.nfi))) :
    wp (g2eIndex idx loc e) (fun _ h' => IdxDone h h' idx loc (3*(e.nfj*e.nfl*e.nfk*e.nfi))
      (tblF e.nfi (g2eVal e))) h := by
  unfold g2eIndex
  dsimp only
  let ls : Nat → Nat := fun t => if t = 0 then e.i_l else if t = 1 then e.j_l else
    if t = 2 then e.k_l else e.l_l
  have hls : ∀ t, ls t ≤ 15 := by
    intro t; dsimp only [ls]; split
    · exact hi
    · split
      · exact hj
      · split
        · exact hk
        · exact hl
  rw [wp_mbind]
  refine fill_step M (s := 0) (by omega) hi ls (fun t ht => hls t) rfl
    ⟨fun t ht => by omega, AgreeI.refl _ _, rfl⟩ ?_ (AllocMono.refl _)
  rintro h1 ⟨P1, m1⟩
  rw [wp_mbind]
  refine fill_step M (s := 1) (by omega) hj ls (fun t ht => hls t) rfl P1 ?_ m1
  rintro h2 ⟨P2, m2⟩
  rw [wp_mbind]
  refine fill_step M (s := 2) (by omega) hk ls (fun t ht => hls t) rfl P2 ?_ (m1.trans m2)
  rintro h3 ⟨P3, m3⟩
  rw [wp_mbind]
  refine fill_step M (s := 3) (by omega) hl ls (fun t ht => hls t) rfl P3 ?_ ((m1.trans m2).trans m3)
  rintro h4 ⟨P4, m4⟩
  have E := idxEnv_of M (((m1.trans m2).trans m3).trans m4)
  have C0 : CompsI h4 loc 0 e.i_l := P4.1 0 (by omega)
  have C1 : CompsI h4 loc 1 e.j_l := P4.1 1 (by omega)
  have C2 : CompsI h4 loc 2 e.k_l := P4.1 2 (by omega)
  have C3 : CompsI h4 loc 3 e.l_l := P4.1 3 (by omega)
  rw [wp_mbind]
  let F := tblF e.nfi (g2eVal e)
  let pos : Nat → Nat := fun m => 3*(m*e.nfi)
  refine wp_forS (fun j n h' => n = pos (j*e.nfl*e.nfk) ∧ Filled h4 h' idx F (pos (j*e.nfl*e.nfk)))
    ⟨by simp [pos], AssignedI.init _ _ _ (by simp [pos])⟩ ?_ ?_
  · rintro j hj' _ h5 ⟨rfl, H5⟩
    refine wp_forS (fun l n h' => n = pos ((j*e.nfl+l)*e.nfk) ∧
      Filled h4 h' idx F (pos ((j*e.nfl+l)*e.nfk))) ⟨rfl, H5⟩ ?_ ?_
    · rintro l hl' _ h6 ⟨rfl, H6⟩
      have r1 : j*e.nfl + l < e.nfj*e.nfl := radix_lt hj' hl'
      have r2 : (j*e.nfl + l + 1)*e.nfk ≤ e.nfj*e.nfl*e.nfk := Nat.mul_le_mul_right _ r1
      have r3 : (j*e.nfl + l + 1)*e.nfk*e.nfi ≤ e.nfj*e.nfl*e.nfk*e.nfi :=
        Nat.mul_le_mul_right _ r2
      have r4 : (j*e.nfl + l)*e.nfk*e.nfi ≤ (j*e.nfl + l + 1)*e.nfk*e.nfi :=
        Nat.mul_le_mul_right _ (Nat.mul_le_mul_right _ (by omega))
      have pl : pos ((j*e.nfl + l)*e.nfk) ≤ 3*(e.nfj*e.nfl*e.nfk*e.nfi) := by
        dsimp only [pos]; omega
      have hjn : j < ncart e.j_l := hnfj ▸ hj'
      have hln : l < ncart e.l_l := hnfl ▸ hl'
      simp only [wp_mbind, wp_ldI]
      refine ⟨_, H6.comp E pl (by omega) hj C1 (c := 0) (by omega) hjn,
        _, H6.comp E pl (by omega) hl C3 (c := 0) (by omega) hln,
        _, H6.comp E pl (by omega) hj C1 (c := 1) (by omega) hjn,
        _, H6.comp E pl (by omega) hl C3 (c := 1) (by omega) hln,
        _, H6.comp E pl (by omega) hj C1 (c := 2) (by omega) hjn,
        _, H6.comp E pl (by omega) hl C3 (c := 2) (by omega) hln, ?_⟩
      refine wp_forS (fun k n h' => n = pos ((j*e.nfl+l)*e.nfk+k) ∧
        Filled h4 h' idx F (pos ((j*e.nfl+l)*e.nfk+k))) ⟨rfl, H6⟩ ?_ ?_
      · rintro k hk' _ h7 ⟨rfl, H7⟩
        have hkn : k < ncart e.k_l := hnfk ▸ hk'
        have s1 : (j*e.nfl + l)*e.nfk + k < e.nfj*e.nfl*e.nfk := radix_lt r1 hk'
        have s2 : ((j*e.nfl + l)*e.nfk + k + 1)*e.nfi ≤ e.nfj*e.nfl*e.nfk*e.nfi :=
          Nat.mul_le_mul_right _ s1
        have s3 : ((j*e.nfl + l)*e.nfk + k + 1)*e.nfi =
          ((j*e.nfl + l)*e.nfk + k)*e.nfi + e.nfi := by rw [Nat.add_mul _ 1, Nat.one_mul]
        have pk : pos ((j*e.nfl + l)*e.nfk + k) + 3*e.nfi ≤ 3*(e.nfj*e.nfl*e.nfk*e.nfi) := by
          dsimp only [pos]; omega
        simp only [wp_mbind, wp_ldI]
        refine ⟨_, H7.comp E (by omega) (by omega) hk C2 (c := 0) (by omega) hkn,
          _, H7.comp E (by omega) (by omega) hk C2 (c := 1) (by omega) hkn,
          _, H7.comp E (by omega) (by omega) hk C2 (c := 2) (by omega) hkn, ?_⟩
        have R := idxSwitch_wp (l := e.i_l) (di := e.g_stride_i)
          (ofs := fun c => (c * e.g_size : Int) + e.g_stride_j * pw e.j_l c j +
            e.g_stride_l * pw e.l_l c l + e.g_stride_k * pw e.k_l c k) E H7
          (by rw [← hnfi]; exact pk) hi C0 (fun i c hi' hc => by
            rw [← hnfi] at hi'
            refine (tblF_eq hi' hc).trans ?_
            unfold g2eVal
            rw [row_div hk', row_mod hk', row_div hl', row_mod hl'])
        rw [← hnfi] at R
        have e0 : ((0:Nat):Int) * (e.g_size:Int) = 0 := by simp
        have e1 : ((1:Nat):Int) * (e.g_size:Int) = e.g_size := by simp
        have e2 : ((2:Nat):Int) * (e.g_size:Int) = (e.g_size:Int) * 2 := by omega
        rw [e0, e1, e2] at R
        refine wp_mono R ?_
        rintro n h8 ⟨rfl, H8⟩
        have ep : pos ((j*e.nfl+l)*e.nfk+(k+1)) = pos ((j*e.nfl+l)*e.nfk+k) + 3*e.nfi := by
          dsimp only [pos]
          rw [← Nat.add_assoc, s3]; omega
        rw [ep]
        exact ⟨rfl, H8⟩
      · rintro n h7 ⟨rfl, H7⟩
        have ep : (j*e.nfl+(l+1))*e.nfk = (j*e.nfl+l)*e.nfk+e.nfk := by
          rw [← Nat.add_assoc, Nat.add_mul _ 1, Nat.one_mul]
        rw [ep]
        exact ⟨rfl, H7⟩
    · rintro n h6 ⟨rfl, H6⟩
      have ep : (j+1)*e.nfl = j*e.nfl+e.nfl := by rw [Nat.add_mul, Nat.one_mul]
      rw [ep]
      exact ⟨rfl, H6⟩
  · rintro n h5 ⟨rfl, H5⟩
    exact idxDone_of P4.2.1 P4.2.2 H5

/-- value stored by the three-shell table at row `m = k*nfj + j` -/
def g3c1eVal (e : EnvG) (m i c : Nat) : Int :=
  (c * e.g_size : Int) + e.g_stride_k * pw e.k_l c (m/e.nfj) +
    e.g_stride_j * pw e.j_l c (m%e.nfj) + 1 * pw e.i_l c i

theorem g3c1eIndex_wp {h : Heap α} {idx loc : Ptr} {e : EnvG} (hi : e.i_l ≤ 15) (hj : e.j_l ≤ 15)
    (hk : e.k_l ≤ 15)
    (hnfi : e.nfi = ncart e.i_l) (hnfj : e.nfj = ncart e.j_l) (hnfk : e.nfk = ncart e.k_l)
    (M : IdxMem h idx loc (3*(e.nfk*e.nfj*e.nfi))) :
    wp (g3c1eIndex idx loc e) (fun _ h' => IdxDone h h' idx loc (3*(e.nfk*e.nfj*e.nfi))
      (tblF e.nfi (g3c1eVal e))) h := by
  unfold g3c1eIndex
  dsimp only
  let ls : Nat → Nat := fun t => if t = 0 then e.i_l else if t = 1 then e.j_l else e.k_l
  have hls : ∀ t, ls t ≤ 15 := by
    intro t; dsimp only [ls]; split
    · exact hi
    · split
      · exact hj
      · exact hk
  rw [wp_mbind]
  refine fill_step M (s := 0) (by omega) hi ls (fun t ht => hls t) rfl
    ⟨fun t ht => by omega, AgreeI.refl _ _, rfl⟩ ?_ (AllocMono.refl _)
  rintro h1 ⟨P1, m1⟩
  rw [wp_mbind]
  refine fill_step M (s := 1) (by omega) hj ls (fun t ht => hls t) rfl P1 ?_ m1
  rintro h2 ⟨P2, m2⟩
  rw [wp_mbind]
  refine fill_step M (s := 2) (by omega) hk ls (fun t ht => hls t) rfl P2 ?_ (m1.trans m2)
  rintro h4 ⟨P4, m4⟩
  have E := idxEnv_of M ((m1.trans m2).trans m4)
  have C0 : CompsI h4 loc 0 e.i_l := P4.1 0 (by omega)
  have C1 : CompsI h4 loc 1 e.j_l := P4.1 1 (by omega)
  have C2 : CompsI h4 loc 2 e.k_l := P4.1 2 (by omega)
  rw [wp_mbind]
  let F := tblF e.nfi (g3c1eVal e)
  let pos : Nat → Nat := fun m => 3*(m*e.nfi)
  refine wp_forS (fun k n h' => n = pos (k*e.nfj) ∧ Filled h4 h' idx F (pos (k*e.nfj)))
    ⟨by simp [pos], AssignedI.init _ _ _ (by simp [pos])⟩ ?_ ?_
  · rintro k hk' _ h6 ⟨rfl, H6⟩
    have r3 : (k + 1)*e.nfj*e.nfi ≤ e.nfk*e.nfj*e.nfi :=
      Nat.mul_le_mul_right _ (Nat.mul_le_mul_right _ hk')
    have r4 : k*e.nfj*e.nfi ≤ (k + 1)*e.nfj*e.nfi :=
      Nat.mul_le_mul_right _ (Nat.mul_le_mul_right _ (by omega))
    have pl : pos (k*e.nfj) ≤ 3*(e.nfk*e.nfj*e.nfi) := by
      dsimp only [pos]; omega
    have hkn : k < ncart e.k_l := hnfk ▸ hk'
    simp only [wp_mbind, wp_ldI]
    refine ⟨_, H6.comp E pl (by omega) hk C2 (c := 0) (by omega) hkn,
      _, H6.comp E pl (by omega) hk C2 (c := 1) (by omega) hkn,
      _, H6.comp E pl (by omega) hk C2 (c := 2) (by omega) hkn, ?_⟩
    refine wp_forS (fun j n h' => n = pos (k*e.nfj+j) ∧
      Filled h4 h' idx F (pos (k*e.nfj+j))) ⟨rfl, H6⟩ ?_ ?_
    · rintro j hj' _ h7 ⟨rfl, H7⟩
      have hjn : j < ncart e.j_l := hnfj ▸ hj'
      have s1 : k*e.nfj + j < e.nfk*e.nfj := radix_lt hk' hj'
      have s2 : (k*e.nfj + j + 1)*e.nfi ≤ e.nfk*e.nfj*e.nfi := Nat.mul_le_mul_right _ s1
      have s3 : (k*e.nfj + j + 1)*e.nfi = (k*e.nfj + j)*e.nfi + e.nfi := by
        rw [Nat.add_mul _ 1, Nat.one_mul]
      have pk : pos (k*e.nfj + j) + 3*e.nfi ≤ 3*(e.nfk*e.nfj*e.nfi) := by
        dsimp only [pos]; omega
      simp only [wp_mbind, wp_ldI]
      refine ⟨_, H7.comp E (by omega) (by omega) hj C1 (c := 0) (by omega) hjn,
        _, H7.comp E (by omega) (by omega) hj C1 (c := 1) (by omega) hjn,
        _, H7.comp E (by omega) (by omega) hj C1 (c := 2) (by omega) hjn, ?_⟩
      have R := idxRow_wp (l := e.i_l) (di := 1)
        (ofs := fun c => (c * e.g_size : Int) + e.g_stride_k * pw e.k_l c k +
          e.g_stride_j * pw e.j_l c j) E H7
        (by rw [← hnfi]; exact pk) hi C0 (fun i c hi' hc => by
          rw [← hnfi] at hi'
          refine (tblF_eq hi' hc).trans ?_
          unfold g3c1eVal
          rw [row_div hj', row_mod hj'])
      rw [← hnfi] at R
      have e0 : ((0:Nat):Int) * (e.g_size:Int) = 0 := by simp
      have e1 : ((1:Nat):Int) * (e.g_size:Int) = e.g_size := by simp
      have e2 : ((2:Nat):Int) * (e.g_size:Int) = (e.g_size:Int) * 2 := by omega
      rw [e0, e1, e2] at R
      refine wp_mono R ?_
      rintro n h8 ⟨rfl, H8⟩
      have ep : pos (k*e.nfj+(j+1)) = pos (k*e.nfj+j) + 3*e.nfi := by
        dsimp only [pos]
        rw [← Nat.add_assoc, s3]; omega
      rw [ep]
      exact ⟨rfl, H8⟩
    · rintro n h7 ⟨rfl, H7⟩
      have ep : (k+1)*e.nfj = k*e.nfj+e.nfj := by rw [Nat.add_mul, Nat.one_mul]
      rw [ep]
      exact ⟨rfl, H7⟩
  · rintro n h5 ⟨rfl, H5⟩
    exact idxDone_of P4.2.1 P4.2.2 H5

end Verif.Model
