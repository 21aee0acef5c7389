import Verif.Lemmas.Kern2c
import Verif.Lemmas.Drv3c
import Verif.Props.Loop1e

/-! CINT2c2e_loop_nopt on its part of the cache, and CINT2c2e_drv. -/
namespace Verif.Lemmas
open Verif Verif.Model Verif.Prog Verif.Props Verif.Spec

variable {α : Type}

section
variable [Zero α] [LT α] [DecidableLT α]
/-- positions of the integer arrays, in doubles, when the loop's cache starts at `o` -/
def posIdx2c (X : Int2e α) (s : Call2c α) (o : Nat) : Nat := o + s.len X
def posTbl2c (X : Int2e α) (s : Call2c α) (fpd o : Nat) : Nat := posIdx2c X s o + dblOf fpd ((s.env X).nf * 3)
def posEnd2c (X : Int2e α) (s : Call2c α) (fpd o : Nat) : Nat := posTbl2c X s fpd o + dblOf fpd s.tblLen

theorem arrays2c2e_eq {X : Int2e α} {s : Call2c α} {fpd : Nat} (hf : 0 < fpd) (buf o : Nat) :
    arrays2c2e X s fpd buf (fpd*o) =
      { g := ⟨buf, o⟩, idx := ⟨buf, fpd * posIdx2c X s o⟩, tbl := ⟨buf, fpd * posTbl2c X s fpd o⟩ } := by
  unfold arrays2c2e
  simp only [mallocD_eq hf, mallocI_eq hf, mallocI_eq' hf]
  rfl

/-- the doubles of the cache used as FINTs by CINT2c2e_loop_nopt -/
def intSlots2c (X : Int2e α) (s : Call2c α) (fpd o : Nat) (k : Nat) : Prop :=
  posIdx2c X s o ≤ k ∧ k < posEnd2c X s fpd o
end

variable [Field α] [LinearOrder α]

/-- the evaluator of integral `X` gives `w` for the primitives it keeps -/
def EvalOK2c (R : Rys2 α) (K : Consts α) (X : Int2e α) (s : Call2c α) (keep : Nat → Nat → Bool) (w : Nat → Nat → Nat → α) : Prop :=
  ∀ ip kp (g idx : Ptr) (T : Ptr → Option Int), ip < s.si.nprim → kp < s.sk.nprim →
    IdxT T idx (s.env X).nf (adr2 (s.env X)) →
    KernelSpec T (fun fac => g0_2e R K (s.env X) (s.g2 ip kp) (cutoff2c2e s.envCut) g fac g0_2d2c)
      (fun _ gout em => X.gout (s.env X) (s.g2 ip kp) idx g gout em) (Blk g (s.leng X))
      ((s.env X).nf * X.nComp) (keep ip kp) (w ip kp)

/-- the numbers computed by the loop -/
def loopVal2c (K : Consts α) (X : Int2e α) (s : Call2c α) (keep : Nat → Nat → Bool) (w : Nat → Nat → Nat → α)
    (comp ic kc n : Nat) : α :=
  X.common * (K.pi*K.pi*K.pi * 2 / K.sqrtpi * commonFacSp s.si.l * commonFacSp s.sk.l) *
    contract2 s.si.nprim s.sk.nprim s.si.c s.sk.c
      (fun ip kp => if keep ip kp then w ip kp (n*X.nComp+comp) else 0) ic kc

/-- some primitive pair contributes -/
def loopAny2c (s : Call2c α) (keep : Nat → Nat → Bool) : Prop :=
  ∃ ip kp, ip < s.si.nprim ∧ kp < s.sk.nprim ∧ keep ip kp = true

variable {R : Rys2 α} {K : Consts α} {X : Int2e α} {s : Call2c α} {keep : Nat → Nat → Bool} {w : Nat → Nat → Nat → α}

theorem loopVal2c_empty (hE : ¬ loopAny2c s keep) (comp ic kc n : Nat) : loopVal2c K X s keep w comp ic kc n = 0 := by
  unfold loopVal2c contract2
  rw [Finset.sum_eq_zero, mul_zero]
  intro kp hk
  refine Finset.sum_eq_zero (fun ip hi => ?_)
  dsimp only
  rw [if_neg (fun h => hE ⟨ip, kp, Finset.mem_range.1 hi, Finset.mem_range.1 hk, h⟩), mul_zero]

/-- Memory of CINT2c2e_loop_nopt; see `LoopMem2`. -/
structure LoopMem2c (X : Int2e α) (s : Call2c α) (h : Heap α) (fpd buf size o0 o : Nat) (empty fl loc : Ptr) : Prop where
  fpd_pos : 0 < fpd
  cache : CacheMem h fpd buf size (intSlots2c X s fpd o)
  room : posEnd2c X s fpd o ≤ size
  ctr : o0 + (s.env X).nf * (s.si.nctr * s.sk.nctr) * X.nComp ≤ o
  flag : h.I empty = .val 1
  flw : ∀ k, k < 3 → h.I (fl + k) ≠ .oob
  locw : ∀ k, k < 12*136 → h.I (loc + k) ≠ .oob
  ebuf : empty.buf ≠ buf
  efl : empty.buf ≠ fl.buf
  eloc : empty.buf ≠ loc.buf
  flbuf : fl.buf ≠ buf
  locbuf : loc.buf ≠ buf

theorem used2c_le (A : Arrays2c) : s.leng X + (s.pair X R K A).used X.nComp ≤ s.len X := by
  unfold Nest2.used Call2c.len
  have a1 := aliasLen_le X.nComp (s.pair X R K A).lenj
  have a2 := aliasLen_le (s.pair X R K A).jCtr (s.pair X R K A).leni
  have a3 := aliasLen_le (s.pair X R K A).iCtr (s.pair X R K A).len0
  have e1 : (s.pair X R K A).lenj = (s.env X).nf * (s.si.nctr * s.sk.nctr) * X.nComp := by
    show (s.env X).nf * X.nComp * s.si.nctr * s.sk.nctr = _; ring
  have e2 : (s.pair X R K A).leni = (s.env X).nf * s.si.nctr * X.nComp := by
    show (s.env X).nf * X.nComp * s.si.nctr = _; ring
  have e3 : (s.pair X R K A).len0 = (s.env X).nf * X.nComp := rfl
  omega

/-- what the loops leave behind -/
def Post2c (K : Consts α) (X : Int2e α) (s : Call2c α) (keep : Nat → Nat → Bool) (w : Nat → Nat → Nat → α)
    (buf o0 : Nat) (empty fl loc : Ptr) (h : Heap α) (res : Bool) (h' : Heap α) : Prop :=
  h'.I empty = .val (if res then 0 else 1) ∧
  (res = true → HoldsD h' ⟨buf, o0⟩ ((s.env X).nf * (s.si.nctr * s.sk.nctr) * X.nComp)
    (ctrVal (fun comp ic kc _ _ n => loopVal2c K X s keep w comp ic kc n) (s.env X).nf s.si.nctr s.sk.nctr 1 1)) ∧
  AgreeD h h' (fun q => q.buf = buf) ∧
  AgreeI h h' (fun q => q.buf = buf ∨ q.buf = empty.buf ∨ q.buf = fl.buf ∨ q.buf = loc.buf) ∧
  (res = true ↔ loopAny2c s keep)

/-- the contents of the index table -/
def idxF2c (e : EnvG) : Nat → Int :=
  tblF e.nfi fun m i c => (c * e.g_size : Int) + e.g_stride_j * pw e.j_l c m + e.g_stride_i * pw e.i_l c i

/-- The primitive loops, once the index table is in memory. -/
theorem loop2c_core {h1 : Heap α} {buf o0 : Nat} {A : Arrays2c} {og : Nat} {empty fl loc : Ptr} (hK : EvalOK2c R K X s keep w)
    (hic : 1 ≤ s.si.nctr) (hkc : 1 ≤ s.sk.nctr) (hnc : 1 ≤ X.nComp)
    (hg : A.g = ⟨buf, og⟩) (htb : A.tbl.buf = buf)
    (hidx : ∀ m, m < 3 * (s.env X).nf → h1.I (A.idx + m) = .val (idxF2c (s.env X) m))
    (htw : ∀ k, k < s.tblLen → h1.I (A.tbl + k) ≠ .oob)
    (hti : ∀ k m, k < s.tblLen → m < 3 * (s.env X).nf → A.tbl + k ≠ A.idx + m)
    (hgD : ∀ k, k < s.len X → h1.D ⟨buf, og + k⟩ ≠ .oob)
    (hcD : ∀ k, k < (s.env X).nf * (s.si.nctr * s.sk.nctr) * X.nComp → h1.D ⟨buf, o0 + k⟩ ≠ .oob)
    (hctr : o0 + (s.env X).nf * (s.si.nctr * s.sk.nctr) * X.nComp ≤ og)
    (hflag : h1.I empty = .val 1) (hflw : ∀ k, k < 3 → h1.I (fl + k) ≠ .oob)
    (ebuf : empty.buf ≠ buf) (efl : empty.buf ≠ fl.buf) (flbuf : fl.buf ≠ buf) (ei : empty.buf ≠ A.idx.buf)
    (fi : fl.buf ≠ A.idx.buf) :
    wp (loop2c2e (s.pair X R K A) ⟨⟨buf, o0⟩, empty, A.g, fl⟩ A.tbl (s.env X).nf X.nComp (s.leng X))
      (Post2c K X s keep w buf o0 empty fl loc h1) h1 := by
  let e := s.env X
  let F : Nat → Int := idxF2c e
  let P := s.pair X R K A
  let T : Ptr → Option Int := fun q => if q.buf = A.idx.buf ∧ A.idx.off ≤ q.off ∧ q.off < A.idx.off + 3 * e.nf then
    some (F (q.off - A.idx.off)) else none
  have hTv : ∀ k, k < 3 * e.nf → T (A.idx + k) = some (F k) := by
    intro k hk
    show (if A.idx.buf = A.idx.buf ∧ A.idx.off ≤ A.idx.off + k ∧ A.idx.off + k < A.idx.off + 3 * e.nf then
      some (F (A.idx.off + k - A.idx.off)) else none) = _
    rw [if_pos ⟨rfl, by omega, by omega⟩, Nat.add_sub_cancel_left]
  have hTn : ∀ q : Ptr, q.buf ≠ A.idx.buf → T q = none := fun q hq => if_neg (fun hh => hq hh.1)
  have hTq : ∀ (q : Ptr), (q.buf = A.idx.buf ∧ A.idx.off ≤ q.off ∧ q.off < A.idx.off + 3 * e.nf) →
      q = A.idx + (q.off - A.idx.off) := by
    intro q hc
    exact Ptr.ext_iff'.2 ⟨hc.1, by show q.off = A.idx.off + _; omega⟩
  have hIdx : IdxT T A.idx e.nf (adr2 e) := by
    intro n c hn hc
    rw [hTv _ (by omega)]
    show some (tblF e.nfi _ (3*n+c)) = _
    unfold tblF adr2 slab2
    rw [show (3*n+c)/3 = n by omega, show (3*n+c)%3 = c by omega]
    congr 1
    push_cast
    ring
  have hul : s.leng X + P.used X.nComp ≤ s.len X := used2c_le A
  have S : Setup2c P ⟨⟨buf, o0⟩, empty, A.g, fl⟩ A.tbl e.nf X.nComp (s.leng X) T keep w
      false (fun _ => 0) h1 := by
    refine ⟨hic, hkc, hnc, rfl, fun _ _ => rfl, fun _ _ => rfl, ?_, htw, ?_, ?_, ?_, hflw,
      fun k _ => hTn _ fi, hTn _ ei, ?_, ?_, ?_, ?_, fun ip kp hip hkp => hK ip kp _ _ T hip hkp hIdx⟩
    · intro q x hq
      by_cases hc : q.buf = A.idx.buf ∧ A.idx.off ≤ q.off ∧ q.off < A.idx.off + 3 * e.nf
      · have hq2 : T q = some (F (q.off - A.idx.off)) := if_pos hc
        rw [hq2] at hq
        obtain rfl : F (q.off - A.idx.off) = x := by simpa using hq
        have := hidx (q.off - A.idx.off) (by have : e.nf = (s.env X).nf := rfl; omega)
        rw [← hTq q hc] at this
        exact this
      · have hq2 : T q = none := if_neg hc
        rw [hq2] at hq; cases hq
    · intro k hk
      refine if_neg (fun hc => ?_)
      exact hti k _ hk (by have : e.nf = (s.env X).nf := rfl; omega) (hTq _ hc)
    · intro i j _ _ hh
      exact flbuf ((Ptr.ext_iff'.1 hh).1.symm.trans htb)
    · intro k _ hh
      exact ebuf (by rw [show empty = A.tbl + k from hh]; exact htb)
    · intro k _ hh
      exact efl (by rw [show empty = fl + k from hh]; rfl)
    · intro i hi
      have hi' : i < s.leng X + P.used X.nComp := hi
      show h1.D (A.g + i) ≠ _
      rw [hg]
      exact hgD i (by omega)
    · intro i j hi hj hh
      have hi' : i < e.nf * (s.si.nctr * s.sk.nctr) * X.nComp := hi
      have hh' : (⟨buf, o0⟩ : Ptr) + i = A.g + j := hh
      rw [hg] at hh'
      have h2 : o0 + i = og + j := (Ptr.ext_iff'.1 hh').2
      have hctr' : o0 + e.nf * (s.si.nctr * s.sk.nctr) * X.nComp ≤ og := hctr
      omega
    · exact ⟨hflag, fun i hi => hcD i hi, fun hb => Bool.noConfusion hb, fun _ _ _ => rfl⟩
  refine wp_mono ((wp_iff_run _ _ _).2 (C40_loop S)) ?_
  rintro res h2 ⟨hret, hfl, hv, hd, hi⟩
  refine ⟨hfl, ?_, ?_, ?_, ?_⟩
  · intro hr m hm
    let N := s.si.nctr * s.sk.nctr
    let Rr := e.nf * (N * 1 * 1)
    have hm' : m < e.nf * N * X.nComp := hm
    have eR : e.nf * (s.si.nctr * s.sk.nctr) = Rr := by
      show _ = e.nf * (s.si.nctr * s.sk.nctr * 1 * 1); rw [Nat.mul_one, Nat.mul_one]
    have hm2 : m < X.nComp * Rr := by
      rw [← eR, Nat.mul_comm]; exact hm'
    have hnfp : 0 < e.nf := by
      rcases Nat.eq_zero_or_pos e.nf with h0 | h0
      · rw [h0] at hm'; simp at hm'
      · exact h0
    have hN : 0 < N := Nat.mul_pos hic hkc
    have hR : 0 < Rr := by rw [← eR]; exact Nat.mul_pos hnfp hN
    have b1 : m / Rr < X.nComp := (Nat.div_lt_iff_lt_mul hR).2 hm2
    have b2 : m % Rr < Rr := Nat.mod_lt _ hR
    have b3 : m % Rr / e.nf < s.sk.nctr * s.si.nctr := (Nat.div_lt_iff_lt_mul hnfp).2 (by
      calc m % Rr < Rr := b2
        _ = _ := by rw [← eR]; ring)
    have b5 : m % Rr / e.nf / s.si.nctr < s.sk.nctr := (Nat.div_lt_iff_lt_mul hic).2 b3
    have c1 : m % Rr / e.nf % s.si.nctr < s.si.nctr := Nat.mod_lt _ hic
    have c4 : m % Rr % e.nf < e.nf := Nat.mod_lt _ hnfp
    have b7 : m % Rr % e.nf = m % e.nf := Nat.mod_mod_of_dvd _ (Dvd.intro _ rfl)
    have b8 : m % Rr / e.nf / s.si.nctr % s.sk.nctr = m % Rr / e.nf / s.si.nctr := Nat.mod_eq_of_lt b5
    have := hv hr (m/Rr) _ _ (m % Rr % e.nf) b1 c1 b5 c4
    have hix : Spec.outIdx2 e.nf P.iCtr P.jCtr (m/Rr) (m % Rr / e.nf % s.si.nctr)
        (m % Rr / e.nf / s.si.nctr) (m % Rr % e.nf) = m := by
      unfold Spec.outIdx2
      have q1 := Nat.div_add_mod' (m % Rr / e.nf) s.si.nctr
      have q2 := Nat.div_add_mod' (m % Rr) e.nf
      have q3 := Nat.div_add_mod' m Rr
      show m/Rr * (e.nf * (s.si.nctr * s.sk.nctr)) + ((m % Rr / e.nf / s.si.nctr * s.si.nctr + _) * e.nf + _) = m
      rw [q1, q2, eR]
      exact q3
    rw [hix, b7, zero_add] at this
    refine this.trans ?_
    show _ = Cell.val (loopVal2c K X s keep w (m/Rr) (m % Rr / e.nf % s.si.nctr) (m % Rr / e.nf / s.si.nctr % s.sk.nctr) (m % e.nf))
    rw [b8]
    rfl
  · refine hd.mono ?_
    rintro q (hq | hq)
    · exact blk_buf hq
    · have := blk_buf hq
      rw [this]
      show A.g.buf = buf
      rw [hg]
  · refine hi.mono ?_
    rintro q (hq | hq | hq)
    · exact Or.inr (Or.inl (by rw [show q = empty from hq]))
    · exact Or.inr (Or.inr (Or.inl (blk_buf hq)))
    · exact Or.inl ((blk_buf hq).trans htb)
  · rw [hret]
    constructor
    · rintro (x | x)
      · cases x
      · exact x
    · exact Or.inr

/-- CINT2c2e_loop_nopt runs within its part of the cache and computes the contracted integrals. -/
theorem loop2c2eRun_wp {h : Heap α} {fpd buf size o0 o : Nat} {empty fl loc : Ptr}
    (M : LoopMem2c X s h fpd buf size o0 o empty fl loc) (hK : EvalOK2c R K X s keep w)
    (hic : 1 ≤ s.si.nctr) (hkc : 1 ≤ s.sk.nctr) (hnc : 1 ≤ X.nComp) (hli : s.si.l ≤ 15) (hlk : s.sk.l ≤ 15) :
    wp (loop2c2eRun X s R K fpd ⟨buf, o0⟩ empty buf (fpd*o) fl loc) (Post2c K X s keep w buf o0 empty fl loc h) h := by
  have hf := M.fpd_pos
  let e := s.env X
  have hctr : o0 + e.nf * (s.si.nctr * s.sk.nctr) * X.nComp ≤ o := M.ctr
  have hnfi : e.nfi = Spec.ncart e.i_l := rfl
  have hnfj : e.nfj = Spec.ncart e.j_l := rfl
  have hnf : e.nfj * e.nfi = e.nf := Nat.mul_comm _ _
  have dI : e.nf * 3 ≤ fpd * dblOf fpd (e.nf*3) := dblOf_mul hf _
  have dT : s.tblLen ≤ fpd * dblOf fpd s.tblLen := dblOf_mul hf _
  have hroom : o + s.len X + dblOf fpd (e.nf*3) + dblOf fpd s.tblLen ≤ size := M.room
  have slotD : ∀ k, k < o + s.len X → h.D ⟨buf, k⟩ ≠ .oob := by
    intro k hk
    refine M.cache.dbl k (by omega) ?_
    rintro ⟨h1, h2⟩
    have h1' : o + s.len X ≤ k := h1
    omega
  have slotI : ∀ m, fpd * (o + s.len X) ≤ m →
      m < fpd * (o + s.len X + dblOf fpd (e.nf*3) + dblOf fpd s.tblLen) → h.I ⟨buf, m⟩ ≠ .oob := by
    intro m h1 h2
    refine M.cache.int m (lt_of_lt_of_le h2 (Nat.mul_le_mul_left _ (by omega))) ⟨?_, ?_⟩
    · exact (Nat.le_div_iff_mul_le hf).2 (by rw [Nat.mul_comm]; exact h1)
    · exact (Nat.div_lt_iff_lt_mul hf).2 (by rw [Nat.mul_comm]; exact h2)
  have m3 : fpd * (o + s.len X + dblOf fpd (e.nf*3) + dblOf fpd s.tblLen) =
      fpd * (o + s.len X) + fpd * dblOf fpd (e.nf*3) + fpd * dblOf fpd s.tblLen := by ring
  have m4 : fpd * posTbl2c X s fpd o = fpd * (o + s.len X) + fpd * dblOf fpd (e.nf*3) := by
    show fpd * (o + s.len X + dblOf fpd (e.nf*3)) = _
    ring
  have m5 : fpd * posIdx2c X s o = fpd * (o + s.len X) := rfl
  unfold loop2c2eRun
  dsimp only
  rw [arrays2c2e_eq hf]
  dsimp only
  rw [wp_mbind]
  refine wp_mono (wp_allocMono (g1eIndex_wp (e := e) (idx := ⟨buf, fpd * posIdx2c X s o⟩) (loc := loc) hli hlk
    hnfi hnfj ⟨?_, M.locw, ?_⟩)) ?_
  · intro k hk
    rw [hnf] at hk
    refine slotI _ (Nat.le_add_right _ _) ?_
    rw [m3]
    show fpd * (o + s.len X) + k < _
    omega
  · intro i j _ _ hh
    exact M.locbuf (Ptr.ext_iff'.1 hh).1
  rintro _ h1 ⟨⟨v1, a1, d1⟩, k1⟩
  rw [hnf] at v1 a1
  refine wp_mono (loop2c_core (loc := loc) hK hic hkc hnc rfl rfl v1 ?_ ?_ (fun k hk => k1.D _ (slotD _ (by omega)))
    (fun k hk => k1.D _ (slotD _ (by have : k < e.nf * (s.si.nctr * s.sk.nctr) * X.nComp := hk; omega))) hctr ?_
    (fun k hk => k1.I _ (M.flw k hk)) M.ebuf M.efl M.flbuf M.ebuf M.flbuf) ?_
  · intro k hk
    refine k1.I _ (slotI _ ?_ ?_)
    · show _ ≤ fpd * posTbl2c X s fpd o + k
      rw [m4]; omega
    · show fpd * posTbl2c X s fpd o + k < _
      rw [m3, m4]; omega
  · intro k m hk hm hh
    have h3 : fpd * posTbl2c X s fpd o + k = fpd * posIdx2c X s o + m := (Ptr.ext_iff'.1 hh).2
    have hm' : m < 3 * e.nf := hm
    rw [m4, m5] at h3
    omega
  · rw [a1]
    · exact M.flag
    · rintro (hq | hq)
      · exact M.ebuf (blk_buf hq)
      · exact M.eloc (blk_buf hq)
  rintro res h2 ⟨hfl, hv, hd, hi, hret⟩
  refine ⟨hfl, hv, ?_, ?_, hret⟩
  · exact AgreeD.trans (W1 := fun _ => False) (W2 := fun q => q.buf = buf) (AgreeD.of_eq d1 _) hd
      (fun _ x => x.elim) (fun _ => id)
  · refine AgreeI.trans a1 hi ?_ (fun _ => id)
    rintro q (hq | hq)
    · exact Or.inl (blk_buf hq)
    · exact Or.inr (Or.inr (Or.inr (blk_buf hq)))

theorem used2c_le_cacheSize (X : Int2e α) (s : Call2c α) {fpd : Nat} (hf : 0 < fpd) :
    posEnd2c X s fpd ((s.env X).nf * s.si.nctr * s.sk.nctr * X.nComp) ≤ cacheSize2c2e X s := by
  have d1 := dblOf_le hf ((s.env X).nf * 3)
  have d2 := dblOf_le hf s.tblLen
  unfold posEnd2c posTbl2c posIdx2c Call2c.len cacheSize2c2e
  refine le_trans ?_ (le_max_left _ _)
  have d2' : dblOf fpd s.tblLen ≤ s.si.nprim + s.sk.nprim + s.si.nprim * s.si.nctr + s.sk.nprim * s.sk.nctr := d2
  have hnf : 1 ≤ (s.env X).nf := Nat.mul_pos (ncart_pos _) (ncart_pos _)
  have e1 : (s.env X).nf * (s.si.nctr * s.sk.nctr) * X.nComp ≤
      (s.env X).nf * ((s.env X).nf * s.si.nctr * s.sk.nctr) * X.nComp := by
    refine Nat.mul_le_mul_right _ ?_
    rw [Nat.mul_assoc (s.env X).nf s.si.nctr]
    exact Nat.mul_le_mul_left _ (Nat.le_mul_of_pos_left _ hnf)
  omega

/-! ### the driver -/

/-- angular momenta and numbers of contractions of the shells (1 function for the absent ones) -/
def Call2c.ls (s : Call2c α) : Nat → Nat := four s.si.l s.sk.l 0 0
def Call2c.nctrs (s : Call2c α) : Nat → Nat := four s.si.nctr s.sk.nctr 1 1

/-- the values, in the form used by the output stage -/
def V2c (K : Consts α) (X : Int2e α) (s : Call2c α) (keep : Nat → Nat → Bool) (w : Nat → Nat → Nat → α) :
    Nat → Nat → Nat → Nat → Nat → Nat → α :=
  fun comp ic kc _ _ n => loopVal2c K X s keep w comp ic kc n

theorem nf_env2c : (s.env X).nf = blkLen (Call2c.ls s) := by
  show lenCart s.si.l * lenCart s.sk.l = ncart s.si.l * ncart s.sk.l * ncart 0 * ncart 0
  rw [ncart_zero]
  simp only [lenCart_eq]
  ring

theorem nctr_env2c : s.si.nctr * s.sk.nctr = nctrOf (Call2c.nctrs s) := by
  show _ = s.si.nctr * s.sk.nctr * 1 * 1
  ring

/-- the memory of CINT2c2e_loop_nopt called by the driver -/
theorem drv2c2e_nopt {h : Heap α} {fpd buf size : Nat} {empty fl loc counts : Ptr}
    (M : CallMem3 h fpd buf size empty fl loc counts) (hsize : cacheSize2c2e X s ≤ size)
    (hp : ∀ t, t < 4 → 0 < Call2c.nctrs s t) (hK : EvalOK2c R K X s keep w) (hnc : 1 ≤ X.nComp)
    (hl : ∀ t, t < 4 → Call2c.ls s t ≤ 15) :
    wp (loop2c2eRun X s R K fpd ⟨buf, 0⟩ empty buf (fpd * ((s.env X).nf * (s.si.nctr * s.sk.nctr) * X.nComp)) fl loc)
      (Post2c K X s keep w buf 0 empty fl loc (h.setI empty 1)) (h.setI empty 1) := by
  have hf := M.fpd_pos
  let h0 := h.setI empty 1
  have am0 : AllocMono h h0 := by
    refine ⟨fun q hq => hq, fun q hq => ?_⟩
    by_cases he : q = empty
    · subst he
      rw [show h0.I q = .val 1 from Heap.setI_I_self _ _ _]
      intro x; cases x
    · rw [show h0.I q = h.I q from Heap.setI_I_ne _ _ he]; exact hq
  have hncE : (s.env X).nf * s.si.nctr * s.sk.nctr = (s.env X).nf * (s.si.nctr * s.sk.nctr) := by ring
  have LM : LoopMem2c X s h0 fpd buf size 0 ((s.env X).nf * (s.si.nctr * s.sk.nctr) * X.nComp) empty fl loc := by
    refine ⟨hf, ⟨fun k hk _ => M.dbl k hk, fun m hm _ => am0.I _ (M.int m hm)⟩, ?_, by omega, Heap.setI_I_self _ _ _,
      fun k hk => am0.I _ (M.flw k (by omega)), fun k hk => am0.I _ (M.locw k hk), M.ebuf, M.efl, M.eloc, M.flbuf, M.locbuf⟩
    rw [← hncE]
    exact le_trans (used2c_le_cacheSize X s hf) hsize
  exact loop2c2eRun_wp LM hK (hp 0 (by omega)) (hp 1 (by omega)) hnc (hl 0 (by omega)) (hl 1 (by omega))

/-- the part of the driver up to the output stage -/
theorem drv2c2eBy_loop {h : Heap α} {fpd buf size : Nat} {empty fl loc counts : Ptr}
    {loop : Ptr → Nat → Prog α Bool}
    (M : CallMem3 h fpd buf size empty fl loc counts)
    (hL : wp (loop ⟨buf, 0⟩ (fpd * ((s.env X).nf * (s.si.nctr * s.sk.nctr) * X.nComp)))
      (Post2c K X s keep w buf 0 empty fl loc (h.setI empty 1)) (h.setI empty 1))
    (trans : (buf c : Nat) → Ptr → Prog α Ptr) {nfo : Nat → Nat} (hn2 : ∀ t, 2 ≤ t → nfo t = 1) (out : Ptr) (dims : Option Ptr)
    (Q : Bool → Heap α → Prop)
    (hQ : ∀ has h1, Looped h h1 (V2c K X s keep w) (Call2c.ls s) (Call2c.nctrs s) X.nComp buf empty fl loc has →
      (has = true ↔ loopAny2c s keep) →
      wp (outStage 2 has X.nComp (blkLen (Call2c.ls s) * nctrOf (Call2c.nctrs s))
          (c2sFun 2 (shapeOf nfo (Call2c.nctrs s) (blkLen (Call2c.ls s)))
          (trans buf (fpd * (blkLen (Call2c.ls s) * nctrOf (Call2c.nctrs s) * X.nComp)))) out ⟨buf, 0⟩ dims counts
          (fun t => nfo t * Call2c.nctrs s t))
        (fun _ h2 => Q has h2) h1) :
    wp (drv2c2eBy X s loop fpd trans nfo out dims buf 0 empty counts) Q h := by
  have hf := M.fpd_pos
  have hncE : (s.env X).nf * s.si.nctr * s.sk.nctr = (s.env X).nf * (s.si.nctr * s.sk.nctr) := by ring
  unfold drv2c2eBy
  dsimp only
  rw [hncE]
  rw [show mallocD fpd buf 0 ((s.env X).nf * (s.si.nctr * s.sk.nctr) * X.nComp) =
      (⟨buf, 0⟩, fpd * ((s.env X).nf * (s.si.nctr * s.sk.nctr) * X.nComp)) from by
    have := mallocD_eq hf buf 0 ((s.env X).nf * (s.si.nctr * s.sk.nctr) * X.nComp); rw [Nat.zero_add] at this; exact this]
  dsimp only
  rw [wp_mbind]
  refine (wp_stI _ _ _ _).2 ⟨M.emw, ?_⟩
  let h0 := h.setI empty 1
  have hI0 : ∀ q, q ≠ empty → h0.I q = h.I q := fun q hq => Heap.setI_I_ne _ _ hq
  have am0 : AllocMono h h0 := by
    refine ⟨fun q hq => hq, fun q hq => ?_⟩
    by_cases he : q = empty
    · subst he
      rw [show h0.I q = .val 1 from Heap.setI_I_self _ _ _]
      intro x; cases x
    · rw [hI0 q he]; exact hq
  rw [wp_mbind]
  refine wp_mono (wp_allocMono hL) ?_
  rintro res h1 ⟨⟨hfl, hv, hD, hI, hret⟩, hm⟩
  rw [wp_mbind]
  refine (wp_ldI _ _ _).2 ⟨_, hfl, ?_⟩
  have hres : decide ((if res then (0:Int) else 1) = 0) = res := by cases res <;> rfl
  rw [hres]
  have hIh : AgreeI h h1 (fun q => q.buf = buf ∨ q.buf = empty.buf ∨ q.buf = fl.buf ∨ q.buf = loc.buf) := by
    intro q hq
    rw [hI q hq, hI0 q (fun e => hq (by rw [e]; exact Or.inr (Or.inl rfl)))]
  have D : Looped h h1 (V2c K X s keep w) (Call2c.ls s) (Call2c.nctrs s) X.nComp buf empty fl loc res := by
    refine ⟨fun hr => ?_, fun hr m => loopVal2c_empty (fun x => ?_) _ _ _ _, hD, hIh, am0.trans hm⟩
    · have := hv hr
      rw [nf_env2c, nctr_env2c] at this
      exact this
    · rw [hret.2 x] at hr; cases hr
  have := hQ res h1 D hret
  have hsh : ({ ic := s.si.nctr, jc := s.sk.nctr, di := nfo 0, dj := nfo 1, nf := (s.env X).nf } : Shape) =
      shapeOf nfo (Call2c.nctrs s) (blkLen (Call2c.ls s)) := by
    rw [nf_env2c]
    unfold shapeOf
    rw [hn2 2 (by omega), hn2 3 (by omega)]
    rfl
  have hcn : (fun t => if t = 0 then nfo 0 * s.si.nctr else if t = 1 then nfo 1 * s.sk.nctr else 1) =
      fun t => nfo t * Call2c.nctrs s t := by
    funext t
    match t with
    | 0 => rfl
    | 1 => rfl
    | 2 => show 1 = nfo 2 * 1; rw [hn2 2 (by omega)]
    | t+3 => show 1 = nfo (t+3) * 1; rw [hn2 (t+3) (by omega)]
  rw [hsh, hcn, nf_env2c, nctr_env2c, wp_mbind]
  refine wp_mono this ?_
  intro _ h2 hq
  rw [wp_pure]
  exact hq

theorem ls2c_zero (s : Call2c α) : ∀ t, 2 ≤ t → Call2c.ls s t = 0
  | 2, _ => rfl
  | _+3, _ => rfl

/-- Cartesian output -/
theorem drv2c2eBy_cart {h : Heap α} {fpd buf size : Nat} {empty fl loc counts out : Ptr} {dims : Option Ptr} {nd : Nat → Nat}
    {loop : Ptr → Nat → Prog α Bool}
    (M : CallMem3 h fpd buf size empty fl loc counts)
    (hL : wp (loop ⟨buf, 0⟩ (fpd * ((s.env X).nf * (s.si.nctr * s.sk.nctr) * X.nComp)))
      (Post2c K X s keep w buf 0 empty fl loc (h.setI empty 1)) (h.setI empty 1))
    (hs : Sizes 2 (ncar (Call2c.ls s)) (Call2c.nctrs s) nd)
    (O : OutArg2 2 h nd (fun t => ncar (Call2c.ls s) t * Call2c.nctrs s t) X.nComp out dims buf empty fl loc counts)
    (hd2 : ∀ d, dims = some d → ∃ x, h.I (d + 2) = .val x)
    :
    ∃ has h', run (drv2c2eBy X s loop fpd (fun _ _ => pure) (ncar (Call2c.ls s)) out dims buf 0 empty counts) h
        = some (has, h') ∧
      (∀ n ic kc i k, n < X.nComp → ic < s.si.nctr → kc < s.sk.nctr → i < ncart s.si.l → k < ncart s.sk.l →
        h'.D (out + outAt nd n (ic*ncart s.si.l+i) (kc*ncart s.sk.l+k) 0 0) =
          .val (loopVal2c K X s keep w n ic kc (pos4c (ncar (Call2c.ls s)) i k 0 0))) ∧
      (has = false → ∀ m, InBlock nd (fun t => ncar (Call2c.ls s) t * Call2c.nctrs s t) X.nComp m → h'.D (out + m) = .val 0) ∧
      Frame2 h h' nd (fun t => ncar (Call2c.ls s) t * Call2c.nctrs s t) X.nComp buf out empty fl loc counts ∧
      (has = true ↔ loopAny2c s keep) := by
  refine (wp_iff_run _ (fun has h' => _) _).1 ?_
  refine drv2c2eBy_loop M hL _ (fun t ht => ?_) _ _ _ ?_
  · unfold ncar
    rw [ls2c_zero s t ht, ncart_zero]
  intro has h1 D hret
  refine wp_mono (cartOut D hs O (fun d hd _ => hd2 d hd) M.countsw) ?_
  rintro _ h2 ⟨v, z, f⟩
  refine ⟨?_, z, f, hret⟩
  intro n ic kc i k hn q1 q2 p1 p2
  have := v n ic kc 0 0 i k 0 0 hn q1 q2 Nat.one_pos Nat.one_pos p1 p2 (ncart_pos _) (ncart_pos _)
  rw [Nat.zero_mul, Nat.zero_mul] at this
  exact this

theorem drv2c2e_cart {h : Heap α} {fpd buf size : Nat} {empty fl loc counts out : Ptr} {dims : Option Ptr} {nd : Nat → Nat}
    (M : CallMem3 h fpd buf size empty fl loc counts) (hsize : cacheSize2c2e X s ≤ size)
    (hs : Sizes 2 (ncar (Call2c.ls s)) (Call2c.nctrs s) nd)
    (O : OutArg2 2 h nd (fun t => ncar (Call2c.ls s) t * Call2c.nctrs s t) X.nComp out dims buf empty fl loc counts)
    (hd2 : ∀ d, dims = some d → ∃ x, h.I (d + 2) = .val x)
    (hK : EvalOK2c R K X s keep w) (hnc : 1 ≤ X.nComp) (hl : ∀ t, t < 4 → Call2c.ls s t ≤ 15) :
    ∃ has h', run (drv2c2e X s R K fpd (fun _ _ => pure) (ncar (Call2c.ls s)) out dims buf 0 empty fl loc counts) h
        = some (has, h') ∧
      (∀ n ic kc i k, n < X.nComp → ic < s.si.nctr → kc < s.sk.nctr → i < ncart s.si.l → k < ncart s.sk.l →
        h'.D (out + outAt nd n (ic*ncart s.si.l+i) (kc*ncart s.sk.l+k) 0 0) =
          .val (loopVal2c K X s keep w n ic kc (pos4c (ncar (Call2c.ls s)) i k 0 0))) ∧
      (has = false → ∀ m, InBlock nd (fun t => ncar (Call2c.ls s) t * Call2c.nctrs s t) X.nComp m → h'.D (out + m) = .val 0) ∧
      Frame2 h h' nd (fun t => ncar (Call2c.ls s) t * Call2c.nctrs s t) X.nComp buf out empty fl loc counts ∧
      (has = true ↔ loopAny2c s keep) := 
  drv2c2eBy_cart M (drv2c2e_nopt M hsize hs.nctr_pos hK hnc hl) hs O hd2

/-- the transformed integral -/
def sphVal2c (K : Consts α) (X : Int2e α) (s : Call2c α) (keep : Nat → Nat → Bool) (w : Nat → Nat → Nat → α)
    (n ic kc i k : Nat) : α :=
  ∑ a ∈ Finset.range (ncart s.si.l), ∑ c ∈ Finset.range (ncart s.sk.l),
    c2sCoef s.si.l i a * c2sCoef s.sk.l k c * loopVal2c K X s keep w n ic kc (pos4c (ncar (Call2c.ls s)) a c 0 0)

theorem sphGen2 (V : Nat → Nat → Nat → Nat → Nat → Nat → α) {ls : Nat → Nat} (h2 : ls 2 = 0) (h3 : ls 3 = 0) (n ic jc i j : Nat) :
    sphGen ls V n ic jc 0 0 i j 0 0 = ∑ a ∈ Finset.range (ncart (ls 0)), ∑ b ∈ Finset.range (ncart (ls 1)),
      c2sCoef (ls 0) i a * c2sCoef (ls 1) j b * V n ic jc 0 0 (pos4c (ncar ls) a b 0 0) := by
  rw [sphGen3 V h3]
  refine Finset.sum_congr rfl fun a _ => Finset.sum_congr rfl fun b _ => ?_
  rw [h2]
  have h1 : ncart 0 = 1 := ncart_zero
  have h4 : (c2sCoef 0 0 0 : α) = 1 := (coef_id (by omega) (by omega)).trans (if_pos rfl)
  rw [h1, Finset.sum_range_one, h4, mul_one]

/-- Spherical output -/
theorem drv2c2eBy_sph {h : Heap α} {fpd buf size : Nat} {empty fl loc counts out tab : Ptr} {dims : Option Ptr} {nd : Nat → Nat}
    {loop : Ptr → Nat → Prog α Bool}
    (M : CallMem3 h fpd buf size empty fl loc counts)
    (hL : wp (loop ⟨buf, 0⟩ (fpd * ((s.env X).nf * (s.si.nctr * s.sk.nctr) * X.nComp)))
      (Post2c K X s keep w buf 0 empty fl loc (h.setI empty 1)) (h.setI empty 1)) (hsize : cacheSize2c2e X s ≤ size)
    (hs : Sizes 2 (nsph (Call2c.ls s)) (Call2c.nctrs s) nd)
    (O : OutArg2 2 h nd (fun t => nsph (Call2c.ls s) t * Call2c.nctrs s t) X.nComp out dims buf empty fl loc counts)
    (hd2 : ∀ d, dims = some d → ∃ x, h.I (d + 2) = .val x)
    (hT : HoldsTab h tab) (htb : tab.buf ≠ buf) (hto : out.buf ≠ tab.buf)
    (hl : ∀ t, t < 4 → Call2c.ls s t ≤ 15) :
    ∃ has h', run (drv2c2eBy X s loop fpd (sphTrans1e tab fpd s.si.l s.sk.l) (nsph (Call2c.ls s)) out dims
        buf 0 empty counts) h = some (has, h') ∧
      (∀ n ic kc i k, n < X.nComp → ic < s.si.nctr → kc < s.sk.nctr → i < s.si.l*2+1 → k < s.sk.l*2+1 →
        h'.D (out + outAt nd n (ic*(s.si.l*2+1)+i) (kc*(s.sk.l*2+1)+k) 0 0) =
          .val (sphVal2c K X s keep w n ic kc i k)) ∧
      (has = false → ∀ m, InBlock nd (fun t => nsph (Call2c.ls s) t * Call2c.nctrs s t) X.nComp m → h'.D (out + m) = .val 0) ∧
      Frame2 h h' nd (fun t => nsph (Call2c.ls s) t * Call2c.nctrs s t) X.nComp buf out empty fl loc counts ∧
      (has = true ↔ loopAny2c s keep) := by
  have hfree : blkLen (Call2c.ls s) * nctrOf (Call2c.nctrs s) * X.nComp + blkLen (Call2c.ls s) * 2 ≤ size := by
    refine le_trans ?_ hsize
    unfold cacheSize2c2e
    refine le_trans ?_ (le_max_right _ _)
    rw [← nf_env2c (X := X), ← nctr_env2c]
    have : (s.env X).nf * s.si.nctr * s.sk.nctr = (s.env X).nf * (s.si.nctr * s.sk.nctr) := by ring
    rw [this]
    omega
  refine (wp_iff_run _ (fun has h' => _) _).1 ?_
  refine drv2c2eBy_loop M hL _ (fun t ht => ?_) _ _ _ ?_
  · unfold nsph
    rw [ls2c_zero s t ht]
  intro has h1 D hret
  refine wp_mono (sphOut D hs O (fun d hd _ => hd2 d hd) M.countsw M.fpd_pos hl (fun t a b => ls2c_zero s t a) hT htb hto
    (le_refl _) hfree M.dbl) ?_
  rintro _ h2 ⟨v, z, f⟩
  refine ⟨?_, z, f, hret⟩
  intro n ic kc i k hn q1 q2 p1 p2
  have := v n ic kc 0 0 i k 0 0 hn q1 q2 Nat.one_pos Nat.one_pos p1 p2 Nat.one_pos Nat.one_pos
  rw [Nat.zero_mul, Nat.zero_mul, sphGen2 (V2c K X s keep w) (ls := Call2c.ls s) rfl rfl] at this
  exact this

theorem drv2c2e_sph {h : Heap α} {fpd buf size : Nat} {empty fl loc counts out tab : Ptr} {dims : Option Ptr} {nd : Nat → Nat}
    (M : CallMem3 h fpd buf size empty fl loc counts) (hsize : cacheSize2c2e X s ≤ size)
    (hs : Sizes 2 (nsph (Call2c.ls s)) (Call2c.nctrs s) nd)
    (O : OutArg2 2 h nd (fun t => nsph (Call2c.ls s) t * Call2c.nctrs s t) X.nComp out dims buf empty fl loc counts)
    (hd2 : ∀ d, dims = some d → ∃ x, h.I (d + 2) = .val x)
    (hT : HoldsTab h tab) (htb : tab.buf ≠ buf) (hto : out.buf ≠ tab.buf)
    (hK : EvalOK2c R K X s keep w) (hnc : 1 ≤ X.nComp) (hl : ∀ t, t < 4 → Call2c.ls s t ≤ 15) :
    ∃ has h', run (drv2c2e X s R K fpd (sphTrans1e tab fpd s.si.l s.sk.l) (nsph (Call2c.ls s)) out dims
        buf 0 empty fl loc counts) h = some (has, h') ∧
      (∀ n ic kc i k, n < X.nComp → ic < s.si.nctr → kc < s.sk.nctr → i < s.si.l*2+1 → k < s.sk.l*2+1 →
        h'.D (out + outAt nd n (ic*(s.si.l*2+1)+i) (kc*(s.sk.l*2+1)+k) 0 0) =
          .val (sphVal2c K X s keep w n ic kc i k)) ∧
      (has = false → ∀ m, InBlock nd (fun t => nsph (Call2c.ls s) t * Call2c.nctrs s t) X.nComp m → h'.D (out + m) = .val 0) ∧
      Frame2 h h' nd (fun t => nsph (Call2c.ls s) t * Call2c.nctrs s t) X.nComp buf out empty fl loc counts ∧
      (has = true ↔ loopAny2c s keep) := 
  drv2c2eBy_sph M (drv2c2e_nopt M hsize hs.nctr_pos hK hnc hl) hsize hs O hd2 hT htb hto hl

end Verif.Lemmas
