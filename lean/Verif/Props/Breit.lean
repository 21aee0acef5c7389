import Verif.Lemmas.Breit
import Verif.Props.SpinorOper2

/-!
C61 — the spinor integrals over the Breit interaction: half of minus the Gaunt term, minus and plus the parts of the gauge term.
-/
namespace Verif.Props
open Verif Verif.Model Verif.Prog Verif.Lemmas Verif.Spec MeasureTheory Verif.Model.Breit

section
variable {α : Type} [Field α] [LinearOrder α]

/-- number of functions of shell `t` -/
def spCnt (s : Call2 α) (kap : Nat → Int) (t : Nat) : Nat := Call2.nsp s kap t * Call2.nctrs s t

def spNop (s : Call2 α) (kap : Nat → Int) : Nat := spCnt s kap 0 * spCnt s kap 1 * spCnt s kap 2 * spCnt s kap 3 * 1

/-- Memory at a call of int2e_breit_*_spinor with a cache of the queried size: as for any other spinor integral (SpMem4), and the array
of `2 nop` complex numbers that `malloc` returns, which is in none of the other arrays. -/
structure BreitMem (X1 X2 : Int2e α) (s : Call2 α) (kap : Nat → Int) where
  fpd : Nat
  buf : Nat
  size : Nat
  empty : Ptr
  fl : Ptr
  loc : Ptr
  counts : Ptr
  out : Ptr
  dims : Option Ptr
  nd : Nat → Nat
  h : Heap α
  tab : JTab
  tmp : Ptr
  hs : Sizes 4 (Call2.nsp s kap) (Call2.nctrs s) nd
  M : CallMem2 h fpd buf size empty fl loc counts
  hsize : breitCacheSize X1 X2 s 4 (kap 0) (kap 1) ≤ size
  O : OutArgZ2 4 h nd (spCnt s kap) 1 out dims buf empty fl loc counts
  T : TabArg h tab buf out
  tmpw : ∀ m, m < 4 * spNop s kap → h.D (tmp + m) ≠ .oob
  tmpb : tmp.buf ≠ buf
  tmpo : tmp.buf ≠ out.buf
  tmpR : tab.R.buf ≠ tmp.buf
  tmpI : tab.I.buf ≠ tmp.buf

variable {X1 X2 : Int2e α} {s : Call2 α} {kap : Nat → Int}

/-- the spinor function of the integral `X`, called with `dims` NULL -/
def BreitMem.fn (A : BreitMem X1 X2 s kap) (X : Int2e α) (R : Rys2 α) (K : Consts α) (L : MathLib α) (p : Ptr) : Prog α Bool :=
  drv2eSp X s (fun gctr c => loop2eRun X s R K L A.fpd gctr A.empty A.buf c A.fl A.loc) 4 4 1 ⟨true, true⟩ ⟨true, true⟩
    A.tab kap A.fpd p none A.buf 0 A.empty A.counts

/-- the call that combines the integrals `Xg`, `X1` and `X2` returns `has` and ends with memory `h'` -/
def BreitEnds (A : BreitMem X1 X2 s kap) (Xg : Int2e α) (R : Rys2 α) (K : Consts α) (L : MathLib α) (has : Bool) (h' : Heap α) : Prop :=
  run (breitDrv (A.fn Xg R K L) (A.fn X1 R K L) (A.fn X2 R K L) (spCnt s kap) A.out A.dims A.tmp) A.h = some (has, h')

/-- the output array holds the complex number `z` for function `i` of contraction `ic` of the first shell and so on -/
def BreitMem.Elem (A : BreitMem X1 X2 s kap) (h' : Heap α) (ic i jc j kc k lc l : Nat) (z : Cx α) : Prop :=
  HoldsC h' A.out (outAt A.nd 0 (ic*lenSpinorC2S (kap 0) s.si.l+i) (jc*lenSpinorC2S (kap 1) s.sj.l+j)
    (kc*lenSpinorC2S (kap 2) s.sk.l+k) (lc*lenSpinorC2S (kap 3) s.sl.l+l)) z

/-- where the sum is formed -/
def BreitMem.buf1 (A : BreitMem X1 X2 s kap) : Ptr := match A.dims with | none => A.out | some _ => A.tmp + 2 * spNop s kap

def BreitMem.W (A : BreitMem X1 X2 s kap) (q : Ptr) : Prop :=
  q.buf = A.buf ∨ q.buf = A.tmp.buf ∨ (A.dims = none ∧ ∃ m, m < 2 * spNop s kap ∧ q = A.out + m)

def BreitMem.KI (A : BreitMem X1 X2 s kap) (q : Ptr) : Prop := ∃ d, A.dims = some d ∧ q.buf = d.buf

abbrev BreitMem.Inv (A : BreitMem X1 X2 s kap) (h : Heap α) : Prop := KeepsB A.h A.W A.KI h

theorem block_lt {c : Nat → Nat} {m : Nat} (h : InBlock c c 1 m) : m < c 0 * c 1 * c 2 * c 3 * 1 := by
  obtain ⟨n, I, J, K, L, hn, hI, hJ, hK, hL, rfl⟩ := h
  obtain rfl : n = 0 := by omega
  unfold outAt
  rw [Nat.mul_zero, Nat.add_zero]
  have h1 : K + c 2 * L < c 2 * c 3 := by nlinarith
  have h2 : J + c 1 * (K + c 2 * L) < c 1 * (c 2 * c 3) := by nlinarith
  have h3 : I + c 0 * (J + c 1 * (K + c 2 * L)) < c 0 * (c 1 * (c 2 * c 3)) := by nlinarith
  calc _ < c 0 * (c 1 * (c 2 * c 3)) := h3
    _ = _ := by ring

theorem lt_block {c : Nat → Nat} {m : Nat} (h : m < c 0 * c 1 * c 2 * c 3 * 1) : InBlock c c 1 m := by
  have p0 : 0 < c 0 := Nat.pos_of_ne_zero fun e => by rw [e] at h; simp at h
  have p1 : 0 < c 1 := Nat.pos_of_ne_zero fun e => by rw [e] at h; simp at h
  have p2 : 0 < c 2 := Nat.pos_of_ne_zero fun e => by rw [e] at h; simp at h
  refine ⟨0, m % c 0, m / c 0 % c 1, m / c 0 / c 1 % c 2, m / c 0 / c 1 / c 2, by omega, Nat.mod_lt _ p0, Nat.mod_lt _ p1,
    Nat.mod_lt _ p2, ?_, ?_⟩
  · rw [Nat.div_lt_iff_lt_mul p2, Nat.div_lt_iff_lt_mul p1, Nat.div_lt_iff_lt_mul p0]
    calc m < _ := h
      _ = _ := by ring
  · unfold outAt
    rw [Nat.mul_zero, Nat.add_zero, Nat.mod_add_div, Nat.mod_add_div, Nat.mod_add_div]

theorem half_lt {m n : Nat} : m / 2 < n ↔ m < 2 * n := by omega

/-- memory of the calls made by the driver -/
def BreitMem.call (A : BreitMem X1 X2 s kap) {X : Int2e α} (hX : cacheSize2eSp X s 4 (kap 0) (kap 1) ≤ A.size) {p : Ptr}
    (hp : p = A.buf1 ∨ p = A.tmp) {h : Heap α} (hk : A.Inv h) : SpMem4 X s 1 4 kap where
  fpd := A.fpd
  buf := A.buf
  size := A.size
  empty := A.empty
  fl := A.fl
  loc := A.loc
  counts := A.counts
  out := p
  dims := none
  nd := spCnt s kap
  h := h
  tab := A.tab
  hs := ⟨A.hs.rank, A.hs.nf_pos, A.hs.nctr_pos, fun t h1 h2 => by omega, fun t _ => le_refl _⟩
  M := ⟨A.M.fpd_pos, fun k hk' => hk.1 _ (A.M.dbl k hk'), fun m hm => hk.2.1 _ (A.M.int m hm), hk.2.1 _ A.M.emw,
    fun k hk' => hk.2.1 _ (A.M.flw k hk'), fun k hk' => hk.2.1 _ (A.M.locw k hk'), fun t ht => hk.2.1 _ (A.M.countsw t ht),
    A.M.ebuf, A.M.efl, A.M.eloc, A.M.flbuf, A.M.locbuf⟩
  hsize := hX
  O := by
    refine ⟨fun t _ => rfl, fun d hd => by simp at hd, fun d hd => by simp at hd, fun m hm => hk.1 _ ?_, ?_⟩
    · have hlt : m < 2 * spNop s kap := half_lt.1 (block_lt hm)
      rcases hp with rfl | rfl
      · unfold BreitMem.buf1
        cases hd : A.dims with
        | none =>
          have hn : ∀ t, t < 4 → A.nd t = spCnt s kap t := by
            have := A.O.h_dims
            rw [hd] at this
            exact this
          refine A.O.h_out m ?_
          obtain ⟨n, I, J, K, L, a1, a2, a3, a4, a5, e⟩ := hm
          refine ⟨n, I, J, K, L, a1, a2, a3, a4, a5, ?_⟩
          unfold outAt at e ⊢
          rw [hn 0 (by omega), hn 1 (by omega), hn 2 (by omega), hn 3 (by omega)]
          exact e
        | some d =>
          show A.h.D (A.tmp + 2 * spNop s kap + m) ≠ .oob
          rw [Ptr.add_assoc]
          exact A.tmpw _ (by omega)
      · exact A.tmpw _ (by omega)
    · rcases hp with rfl | rfl
      · unfold BreitMem.buf1
        cases hd : A.dims with
        | none => exact A.O.h_obuf
        | some d => exact A.tmpb
      · exact A.tmpb
  T := by
    refine ⟨?_, A.T.Rbuf, A.T.Ibuf, ?_, ?_⟩
    · refine holdsJ_agree (P := A.W) A.T.holds (fun q hq => hk.2.2.1 q hq) ?_ ?_
      · rintro q (e | e | ⟨_, m, _, e⟩)
        · rw [e]; exact A.T.Rbuf.symm
        · rw [e]; exact A.tmpR.symm
        · rw [e]; exact A.T.Rout.symm
      · rintro q (e | e | ⟨_, m, _, e⟩)
        · rw [e]; exact A.T.Ibuf.symm
        · rw [e]; exact A.tmpI.symm
        · rw [e]; exact A.T.Iout.symm
    all_goals
      rcases hp with rfl | rfl
      · unfold BreitMem.buf1
        cases hd : A.dims with
        | none => first | exact A.T.Rout | exact A.T.Iout
        | some d => first | exact A.tmpR | exact A.tmpI
      · first | exact A.tmpR | exact A.tmpI

theorem breit_start (A : BreitMem X1 X2 s kap) : A.Inv A.h := ⟨fun _ h => h, fun _ h => h, fun _ _ => rfl, fun _ _ => rfl⟩

theorem buf1_in (A : BreitMem X1 X2 s kap) {m : Nat} (hm : m < 2 * spNop s kap) : A.W (A.buf1 + m) := by
  unfold BreitMem.buf1 BreitMem.W
  cases hd : A.dims with
  | none => exact Or.inr (Or.inr ⟨rfl, m, hm, rfl⟩)
  | some d => exact Or.inr (Or.inl rfl)

/-- The three functions: what they store does not depend on the memory, and they leave the rest alone. -/
theorem breit_fills (A : BreitMem X1 X2 s kap) {X : Int2e α} (hX : cacheSize2eSp X s 4 (kap 0) (kap 1) ≤ A.size)
    {R : Rys2 α} {K : Consts α} {L : MathLib α} {keep : Nat → Nat → Nat → Nat → Bool} {w : Nat → Nat → Nat → Nat → Nat → α}
    (hn : X.nComp = 16) (hK : EvalOK2 R K L X s keep w) (hl : ∀ t, t < 4 → Call2.ls s t < 13) :
    ∃ v : Nat → α, (∀ p, (p = A.buf1 ∨ p = A.tmp) → FillsArr (A.fn X R K L) A.Inv A.buf p (spNop s kap) v) ∧
      ∃ has h', SpEnds4 (A.call hX (Or.inr rfl) (breit_start A)) ⟨true, true⟩ ⟨true, true⟩ R K L has h' ∧
        ∀ m, m < 2 * spNop s kap → h'.D (A.tmp + m) = .val (v m) := by
  have hn' : X.nComp = SpKind.comps ⟨true, true⟩ * SpKind.comps ⟨true, true⟩ * 1 := hn
  obtain ⟨v, hv⟩ := C18_four_centre_spinor (k1 := ⟨true, true⟩) (k2 := ⟨true, true⟩) (A.call hX (Or.inr rfl) (breit_start A)) hn' hK (le_refl 1) hl
  have hin : ∀ m, m < 2 * spNop s kap → (A.call hX (Or.inr rfl) (breit_start A)).In (m/2) := fun m hm => lt_block (half_lt.2 hm)
  refine ⟨v, fun p hp h hk => ?_, ?_⟩
  · obtain ⟨has, h', e, v1, v2, v3⟩ := hv (A.call hX hp hk) rfl
    obtain ⟨has2, h2, e2, _, _, F, _⟩ := sp4_run (k1 := ⟨true, true⟩) (k2 := ⟨true, true⟩) (A.call hX hp hk) hn' hK (le_refl 1) hl
    have hh : has = has2 ∧ h' = h2 := by
      have x : some (has, h') = some (has2, h2) := e.symm.trans e2
      simpa only [Option.some.injEq, Prod.mk.injEq] using x
    obtain ⟨-, rfl⟩ := hh
    have al := run_alloc e
    rw [wp_iff_run]
    have fr : ∀ q, q.buf ≠ A.buf → (∀ m, m < 2 * spNop s kap → q ≠ p + m) → h'.D q = h.D q :=
      fun q hq hm => v3 q hq fun m hm' => hm m (half_lt.1 (block_lt hm'))
    refine ⟨has, h', e, fun m hm => v1 m (hin m hm), fun hf m hm => v2 hf m (hin m hm), fr,
      fun q hq => al.1 q (hk.1 q hq), fun q hq => al.2 q (hk.2.1 q hq), fun q hq => ?_, fun q hq => ?_⟩
    · rw [fr q (fun x => hq (Or.inl x)) (fun m hm x => hq ?_)]
      · exact hk.2.2.1 q hq
      · rcases hp with rfl | rfl
        · rw [x]; exact buf1_in A hm
        · rw [x]; exact Or.inr (Or.inl rfl)
    · obtain ⟨d, hd, e⟩ := hq
      have d1 := A.O.h_dbuf d hd
      have d2 := A.O.h_dims
      rw [hd] at d2
      rw [← hk.2.2.2 q ⟨d, hd, e⟩]
      exact F.2 q (by rw [e]; exact d1.1) (by rw [e]; exact d1.2.1) (by rw [e]; exact d1.2.2.1) (by rw [e]; exact d1.2.2.2)
        (by rw [e]; exact d2.2)
  · obtain ⟨has, h', e, v1, _⟩ := hv _ rfl
    exact ⟨has, h', e, fun m hm => v1 m (hin m hm)⟩

theorem bpos_outAt (nd : Nat → Nat) (i j k l e : Nat) : bpos (nd 0) (nd 1) (nd 2) (i, j, k, l, e) = 2 * outAt nd 0 i j k l + e := by
  unfold bpos outAt; ring

/-- what the driver leaves, for functions that store `vg`, `v1`, `v2` -/
theorem breitDrv_run [CharZero α] (A : BreitMem X1 X2 s kap) {g r1 r2 : Ptr → Prog α Bool} {vg v1 v2 : Nat → α}
    (Fg : FillsArr g A.Inv A.buf A.buf1 (spNop s kap) vg) (F1 : FillsArr r1 A.Inv A.buf A.tmp (spNop s kap) v1)
    (F2 : FillsArr r2 A.Inv A.buf A.tmp (spNop s kap) v2) :
    ∃ has h', run (breitDrv g r1 r2 (spCnt s kap) A.out A.dims A.tmp) A.h = some (has, h') ∧
      (∀ I J K L e, I < spCnt s kap 0 → J < spCnt s kap 1 → K < spCnt s kap 2 → L < spCnt s kap 3 → e < 2 →
        h'.D (A.out + (2 * outAt A.nd 0 I J K L + e)) = .val ((fun m => (-vg m - v1 m + v2 m)/2) (2 * outAt (spCnt s kap) 0 I J K L + e))) ∧
      (has = false → ∀ m, m < 2 * spNop s kap → (-vg m - v1 m + v2 m)/2 = 0) ∧
      (∀ q, q.buf ≠ A.buf → q.buf ≠ A.tmp.buf → (∀ m, InBlock A.nd (spCnt s kap) 1 (m/2) → q ≠ A.out + m) → h'.D q = A.h.D q) := by
  have hb1 : A.buf1.buf ≠ A.buf := by
    unfold BreitMem.buf1
    cases hd : A.dims with
    | none => exact A.O.h_obuf
    | some d => exact A.tmpb
  have hpq : ∀ m m', m < 2 * spNop s kap → m' < 2 * spNop s kap → A.buf1 + m ≠ A.tmp + m' := by
    intro m m' hm hm'
    unfold BreitMem.buf1
    cases hd : A.dims with
    | none => exact fun e => A.tmpo (congrArg Ptr.buf e).symm
    | some d =>
      intro e
      have := congrArg Ptr.off e
      simp only [Ptr.add_off] at this
      omega
  have hS := breitSum_wp Fg F1 F2 hb1 hpq (fun h h' hk h1 h2 h3 => by
    refine ⟨fun q hq => ?_, fun q hq => by rw [h3]; exact hk.2.1 q hq, fun q hq => ?_, fun q hq => by rw [h3]; exact hk.2.2.2 q hq⟩
    · by_cases hx : ∃ m, m < 2 * spNop s kap ∧ q = A.buf1 + m
      · obtain ⟨m, hm, rfl⟩ := hx
        exact h2 m hm
      · rw [h1 q fun m hm e => hx ⟨m, hm, e⟩]
        exact hk.1 q hq
    · rw [h1 q fun m hm e => hq (by rw [e]; exact buf1_in A hm)]
      exact hk.2.2.1 q hq) (breit_start A)
  rw [← wp_iff_run]
  unfold breitDrv
  have hnop : spCnt s kap 0 * spCnt s kap 1 * spCnt s kap 2 * spCnt s kap 3 * 1 = spNop s kap := rfl
  dsimp only
  rw [hnop]
  have hlt : ∀ {I J K L e : Nat}, I < spCnt s kap 0 → J < spCnt s kap 1 → K < spCnt s kap 2 → L < spCnt s kap 3 → e < 2 →
      2 * outAt (spCnt s kap) 0 I J K L + e < 2 * spNop s kap := by
    intro I J K L e a1 a2 a3 a4 a5
    have := block_lt (c := spCnt s kap) ⟨0, I, J, K, L, by omega, a1, a2, a3, a4, rfl⟩
    have h2 : spCnt s kap 0 * spCnt s kap 1 * spCnt s kap 2 * spCnt s kap 3 * 1 = spNop s kap := rfl
    omega
  have hdim := A.O.h_dims
  cases hd : A.dims with
  | none =>
    have hb : A.buf1 = A.out := by unfold BreitMem.buf1; rw [hd]
    rw [hb] at hS
    rw [hd] at hdim
    have hnd : ∀ t, t < 4 → A.nd t = spCnt s kap t := hdim
    have hout : ∀ n I J K L, outAt A.nd n I J K L = outAt (spCnt s kap) n I J K L := by
      intro n I J K L
      unfold outAt
      rw [hnd 0 (by omega), hnd 1 (by omega), hnd 2 (by omega), hnd 3 (by omega)]
    refine wp_mono hS ?_
    rintro has h' ⟨h1, h2, h3⟩
    refine ⟨fun I J K L e a1 a2 a3 a4 a5 => ?_, h2, fun q q1 q2 q3 => h3.2.2.1 q ?_⟩
    · rw [hout]
      exact h1 _ (hlt a1 a2 a3 a4 a5)
    · rintro (e | e | ⟨_, m, hm, e⟩)
      · exact q1 e
      · exact q2 e
      · obtain ⟨n, I, J, K, L, a1, a2, a3, a4, a5, x⟩ := lt_block (c := spCnt s kap) (half_lt.2 hm)
        exact q3 m ⟨n, I, J, K, L, a1, a2, a3, a4, a5, by rw [hout]; exact x⟩ e
  | some d =>
    have hb : A.buf1 = A.tmp + 2 * spNop s kap := by unfold BreitMem.buf1; rw [hd]
    rw [hb] at hS
    rw [hd] at hdim
    rw [wp_mbind]
    refine wp_mono hS ?_
    rintro has h1 ⟨b1, b2, b3⟩
    have hdv : ∀ t, t < 4 → h1.I (d + t) = .val (A.nd t) := fun t ht => by
      rw [b3.2.2.2 (d + t) ⟨d, hd, rfl⟩]; exact hdim.1 t ht
    simp only [wp_mbind, wp_ldI]
    refine ⟨_, by have := hdv 0 (by omega); rwa [Ptr.add_zero] at this, _, hdv 1 (by omega), _, hdv 2 (by omega), ?_⟩
    simp only [Int.toNat_natCast]
    have fit : ∀ t, t < 4 → spCnt s kap t ≤ A.nd t := A.hs.fits
    have hC := copyToOut_writes (out := A.out) (inp := A.tmp + 2 * spNop s kap) (ni := A.nd 0) (nj := A.nd 1) (nk := A.nd 2)
      (di := spCnt s kap 0) (dj := spCnt s kap 1) (dk := spCnt s kap 2) (dl := spCnt s kap 3)
      (v := fun k => (fun m => (-vg m - v1 m + v2 m)/2) (bpos (spCnt s kap 0) (spCnt s kap 1) (spCnt s kap 2) k))
      (fit 0 (by omega)) (fit 1 (by omega)) (fit 2 (by omega)) A.tmpo h1 (by
        rintro ⟨i, j, k, l, e⟩ ⟨a1, a2, a3, a4, a5⟩
        dsimp only at a1 a2 a3 a4 a5
        constructor
        · dsimp only
          rw [bpos_outAt]
          exact b1 _ (hlt a1 a2 a3 a4 a5)
        · dsimp only
          rw [bpos_outAt]
          exact b3.1 _ (A.O.h_out _ ⟨0, i, j, k, l, by omega, a1, a2, a3, a4, by omega⟩))
    refine wp_mono hC ?_
    rintro _ h2 ⟨_, c⟩
    rw [wp_pure]
    refine ⟨fun I J K L e a1 a2 a3 a4 a5 => ?_, b2, fun q q1 q2 q3 => ?_⟩
    · have := c.val (I, J, K, L, e) ⟨a1, a2, a3, a4, a5⟩
      dsimp only at this
      rw [bpos_outAt, bpos_outAt] at this
      exact this
    · rw [c.frame q (fun x => x) (fun k hk' e => ?_)]
      · refine b3.2.2.1 q ?_
        rintro (e | e | ⟨e, _⟩)
        · exact q1 e
        · exact q2 e
        · rw [hd] at e; simp at e
      · obtain ⟨i, j, k, l, e'⟩ := k
        obtain ⟨a1, a2, a3, a4, a5⟩ := hk'
        dsimp only at a1 a2 a3 a4 a5
        rw [bpos_outAt] at e
        exact q3 _ ⟨0, i, j, k, l, by omega, a1, a2, a3, a4, by omega⟩ e

end
end Verif.Props
