import Verif.Lemmas.Kern4c1e
import Verif.Lemmas.Loop4c1e

/-! CINT4c1e_loop_nopt on its part of the cache, and CINT4c1e_drv. -/
namespace Verif.Lemmas
open Verif Verif.Model Verif.Prog Verif.Props Verif.Spec

variable {α : Type}

/-- positions of the arrays, in doubles, when the loop's cache starts at `o` -/
def posTbl4 (s : Call2 α) (fpd o : Nat) : Nat := o + dblOf fpd (s.env4.nf * 3)
def posG4 (s : Call2 α) (fpd o : Nat) : Nat := posTbl4 s fpd o + dblOf fpd s.tblLen4

theorem arrays4c1e_eq {s : Call2 α} {fpd : Nat} (hf : 0 < fpd) (buf o : Nat) :
    arrays4c1e s fpd buf (fpd*o) =
      { idx := ⟨buf, fpd * o⟩, tbl := ⟨buf, fpd * posTbl4 s fpd o⟩
        g := ⟨buf, posG4 s fpd o⟩, b := ⟨buf, posG4 s fpd o + s.len4⟩ } := by
  unfold arrays4c1e
  simp only [mallocD_eq' hf, mallocI_eq hf, mallocI_eq' hf, Nat.mul_div_cancel_left _ hf]
  rfl

/-- the doubles of the cache used as FINTs by CINT4c1e_loop_nopt -/
def intSlots4 (s : Call2 α) (fpd o : Nat) (k : Nat) : Prop := o ≤ k ∧ k < posG4 s fpd o

/-- doubles of the cache the two functions need -/
def need4c1e (fpd : Nat) (s : Call2 α) : Nat :=
  posG4 s fpd (s.env4.nf * s.nctr) + (s.len4 + 3 * bSize4 s.env4)

variable [Field α] [LinearOrder α]

/-- the numbers computed by the loop -/
def loopVal4 (K : Consts α) (L : MathLib α) (s : Call2 α) (w : Nat → Nat → Nat → Nat → Nat → α) (comp ic jc kc lc n : Nat) : α :=
  expected (s.quartet4 K L ⟨⟨0,0⟩,⟨0,0⟩,⟨0,0⟩,⟨0,0⟩⟩) (fun _ _ _ _ => true) w comp ic jc kc lc n

/-- the primitive quartet is evaluated -/
def kept4 (s : Call2 α) (ip jp kp lp : Nat) : Prop :=
  s.ekl4 kp lp ≤ 60 ∧ s.eij4 ip jp + s.ekl4 kp lp ≤ 60 ∧ s.eijkl4 ip jp kp lp ≤ 60

/-- some primitive quartet contributes -/
def loopAny4 (s : Call2 α) : Prop :=
  ∃ ip jp kp lp, ip < s.si.nprim ∧ jp < s.sj.nprim ∧ kp < s.sk.nprim ∧ lp < s.sl.nprim ∧ kept4 s ip jp kp lp

variable {K : Consts α} {L : MathLib α} {s : Call2 α} {w : Nat → Nat → Nat → Nat → Nat → α}

theorem survives4 (A : Arrays4c1e) (ip jp kp lp : Nat) :
    survives (s.quartet4 K L A) (fun _ _ _ _ => true) ip jp kp lp = true ↔ kept4 s ip jp kp lp := by
  unfold survives kept4 Call2.quartet4
  simp [not_lt]

theorem usedGen4_le (A : Arrays4c1e) : s.leng4 + (s.quartet4 K L A).usedGen ≤ s.len4 := by
  unfold Quartet.usedGen
  have a1 := aliasLen_le (s.quartet4 K L A).nComp (s.quartet4 K L A).lenl
  have a2 := aliasLen_le (s.quartet4 K L A).lCtr (s.quartet4 K L A).lenk
  have a3 := aliasLen_le (s.quartet4 K L A).kCtr (s.quartet4 K L A).lenj
  have a4 := aliasLen_le (s.quartet4 K L A).jCtr (s.quartet4 K L A).leni
  have a5 := aliasLen_le (s.quartet4 K L A).iCtr (s.quartet4 K L A).len0
  have e1 : (s.quartet4 K L A).lenl = s.env4.nf * (s.si.nctr * s.sj.nctr * s.sk.nctr * s.sl.nctr) := by
    show s.env4.nf * (s.si.nctr * s.sj.nctr * s.sk.nctr * s.sl.nctr) * 1 = _; ring
  have e2 : (s.quartet4 K L A).lenk = s.env4.nf * s.si.nctr * s.sj.nctr * s.sk.nctr := by
    show s.env4.nf * s.si.nctr * s.sj.nctr * s.sk.nctr * 1 = _; ring
  have e3 : (s.quartet4 K L A).lenj = s.env4.nf * s.si.nctr * s.sj.nctr := by
    show s.env4.nf * s.si.nctr * s.sj.nctr * 1 = _; ring
  have e4 : (s.quartet4 K L A).leni = s.env4.nf * s.si.nctr := by
    show s.env4.nf * s.si.nctr * 1 = _; ring
  have e5 : (s.quartet4 K L A).len0 = s.env4.nf := by
    show s.env4.nf * 1 = _; ring
  rw [e1] at a1 ⊢
  rw [e2] at a2 ⊢
  rw [e3] at a3 ⊢
  rw [e4] at a4 ⊢
  rw [e5] at a5 ⊢
  unfold Call2.len4
  dsimp only
  omega

/-- Memory of CINT4c1e_loop_nopt: the cache is buffer `buf`; `gctr` sits at double `o0`, the loop's own
arrays start at double `o`; `empty`, `fl` and `loc` are not in the cache. -/
structure LoopMem4 (s : Call2 α) (h : Heap α) (fpd buf size o0 o : Nat) (empty fl loc : Ptr) : Prop where
  fpd_pos : 0 < fpd
  cache : CacheMem h fpd buf size (intSlots4 s fpd o)
  room : posG4 s fpd o + (s.len4 + 3 * bSize4 s.env4) ≤ size
  ctr : o0 + s.env4.nf * s.nctr ≤ o
  emw : h.I empty ≠ .oob
  flw : ∀ k, k < 5 → h.I (fl + k) ≠ .oob
  locw : ∀ k, k < 12*136 → h.I (loc + k) ≠ .oob
  ebuf : empty.buf ≠ buf
  efl : empty.buf ≠ fl.buf
  eloc : empty.buf ≠ loc.buf
  flbuf : fl.buf ≠ buf
  locbuf : loc.buf ≠ buf

/-- CINT4c1e_loop_nopt runs within its part of the cache and computes the contracted integrals. -/
theorem loop4c1eRun_wp {h : Heap α} {fpd buf size o0 o : Nat} {empty fl loc : Ptr}
    (M : LoopMem4 s h fpd buf size o0 o empty fl loc) (hK : EvalOK4 K L s w)
    (hic : 1 ≤ s.si.nctr) (hjc : 1 ≤ s.sj.nctr) (hkc : 1 ≤ s.sk.nctr) (hlc : 1 ≤ s.sl.nctr)
    (hli : s.si.l ≤ 15) (hlj : s.sj.l ≤ 15) (hlk : s.sk.l ≤ 15) (hll : s.sl.l ≤ 15) :
    wp (loop4c1eRun s K L fpd ⟨buf, o0⟩ empty buf (fpd*o) fl loc) (fun res h' =>
      (res = true → HoldsD h' ⟨buf, o0⟩ (s.env4.nf * s.nctr)
        (ctrVal (loopVal4 K L s w) s.env4.nf s.si.nctr s.sj.nctr s.sk.nctr s.sl.nctr)) ∧
      (res = false → ∀ comp ic jc kc lc n, loopVal4 K L s w comp ic jc kc lc n = 0) ∧
      AgreeD h h' (fun q => q.buf = buf) ∧
      AgreeI h h' (fun q => q.buf = buf ∨ q.buf = empty.buf ∨ q.buf = fl.buf ∨ q.buf = loc.buf) ∧
      (res = true ↔ loopAny4 s)) h := by
  have hf := M.fpd_pos
  let e := s.env4
  have hctr : o0 + e.nf * s.nctr ≤ o := M.ctr
  have hnfi : e.nfi = Spec.ncart e.i_l := rfl
  have hnfj : e.nfj = Spec.ncart e.j_l := rfl
  have hnfk : e.nfk = Spec.ncart e.k_l := rfl
  have hnfl : e.nfl = Spec.ncart e.l_l := rfl
  have hnf : e.nf = e.nfj * e.nfl * e.nfk * e.nfi := by
    show e.nfi * e.nfk * e.nfl * e.nfj = _; ring
  have dI : e.nf * 3 ≤ fpd * dblOf fpd (e.nf*3) := dblOf_mul hf _
  have dT : s.tblLen4 ≤ fpd * dblOf fpd s.tblLen4 := dblOf_mul hf _
  have hroom : o + dblOf fpd (e.nf*3) + dblOf fpd s.tblLen4 + (s.len4 + 3 * bSize4 e) ≤ size := M.room
  have hGo : o ≤ posG4 s fpd o := by
    show _ ≤ o + dblOf fpd (e.nf*3) + dblOf fpd s.tblLen4
    omega
  -- access to the cache
  have slotD : ∀ k, k < o ∨ (posG4 s fpd o ≤ k ∧ k < size) → h.D ⟨buf, k⟩ ≠ .oob := by
    intro k hk
    refine M.cache.dbl k (by omega) ?_
    rintro ⟨h1, h2⟩
    omega
  have slotI : ∀ m, fpd * o ≤ m →
      m < fpd * (o + dblOf fpd (e.nf*3) + dblOf fpd s.tblLen4) → h.I ⟨buf, m⟩ ≠ .oob := by
    intro m h1 h2
    refine M.cache.int m (lt_of_lt_of_le h2 (Nat.mul_le_mul_left _ (by omega))) ⟨?_, ?_⟩
    · exact (Nat.le_div_iff_mul_le hf).2 (by rw [Nat.mul_comm]; exact h1)
    · exact (Nat.div_lt_iff_lt_mul hf).2 (by rw [Nat.mul_comm]; exact h2)
  have m3 : fpd * (o + dblOf fpd (e.nf*3) + dblOf fpd s.tblLen4) =
      fpd * o + fpd * dblOf fpd (e.nf*3) + fpd * dblOf fpd s.tblLen4 := by ring
  have m4 : fpd * posTbl4 s fpd o = fpd * o + fpd * dblOf fpd (e.nf*3) := by
    show fpd * (o + dblOf fpd (e.nf*3)) = _
    ring
  unfold loop4c1eRun
  dsimp only
  rw [arrays4c1e_eq hf]
  dsimp only
  rw [wp_mbind]
  refine (wp_stI _ _ _ _).2 ⟨M.emw, ?_⟩
  let h0 := h.setI empty 1
  have hI0 : ∀ q, q ≠ empty → h0.I q = h.I q := fun q hq => Heap.setI_I_ne _ _ hq
  have am0 : AllocMono h h0 := by
    refine ⟨fun q hq => hq, fun q hq => ?_⟩
    by_cases he : q = empty
    · subst he
      rw [show h0.I q = .val 1 from Heap.setI_I_self _ _ _]
      intro x; cases x
    · rw [hI0 q he]; exact hq
  rw [wp_mbind]
  refine wp_mono (wp_allocMono (g2eIndex_wp (e := e) (idx := ⟨buf, fpd * o⟩) (loc := loc) hli hlj hlk hll hnfi hnfj hnfk hnfl
    ⟨?_, fun k hk => am0.I _ (M.locw k hk), ?_⟩)) ?_
  · intro k hk
    refine am0.I _ (slotI _ (Nat.le_add_right _ _) ?_)
    rw [m3]
    show fpd * o + k < _
    rw [← hnf] at hk
    omega
  · intro i j _ _ hh
    exact M.locbuf (Ptr.ext_iff'.1 hh).1
  · rintro _ h4 ⟨⟨v4, a4, d4⟩, k4'⟩
    have k04 := am0.trans k4'
    rw [← hnf] at v4 a4
    let F := tblF e.nfi (g2eVal e)
    let idx : Ptr := ⟨buf, fpd * o⟩
    let T : Ptr → Option Int := fun q => if q.buf = buf ∧ fpd * o ≤ q.off ∧ q.off < fpd * o + 3 * e.nf then
      some (F (q.off - fpd * o)) else none
    have hTv : ∀ k, k < 3 * e.nf → T (idx + k) = some (F k) := by
      intro k hk
      show (if buf = buf ∧ fpd * o ≤ fpd * o + k ∧ fpd * o + k < fpd * o + 3 * e.nf then
        some (F (fpd * o + k - fpd * o)) else none) = _
      rw [if_pos ⟨rfl, by omega, by omega⟩, Nat.add_sub_cancel_left]
    have hTn : ∀ q : Ptr, q.buf ≠ buf → T q = none := fun q hq => if_neg (fun hh => hq hh.1)
    let A : Arrays4c1e := { idx := idx, tbl := ⟨buf, fpd * posTbl4 s fpd o⟩, g := ⟨buf, posG4 s fpd o⟩
                            b := ⟨buf, posG4 s fpd o + s.len4⟩ }
    let P := s.quartet4 K L A
    have htl : P.tblSize = s.tblLen4 := rfl
    have hused : s.leng4 + P.usedGen ≤ s.len4 := usedGen4_le A
    let used := s.len4 - s.leng4 + 3 * bSize4 e
    have hlu : s.leng4 + used = s.len4 + 3 * bSize4 e := by
      show s.leng4 + (s.len4 - s.leng4 + 3 * bSize4 e) = _
      omega
    have hG : ∀ i, i < s.leng4 + used → posG4 s fpd o + i < size := by
      intro i hi
      have := M.room
      have : posG4 s fpd o + (s.len4 + 3 * bSize4 e) ≤ size := this
      omega
    have S : SetupNoptG P (mem2e ⟨buf, o0⟩ empty A.g fl A.tbl) A.tbl T (fun _ _ _ _ => true) w (Gs4 s A) used
        false (fun _ => 0) h4 := by
      refine ⟨hic, hjc, hkc, hlc, Nat.le_refl 1, ?_, ?_, ?_, ?_, ?_, ?_, ?_, ?_, ?_, ?_, ?_, ?_, ?_⟩
      · intro q x hq
        by_cases hc : q.buf = buf ∧ fpd * o ≤ q.off ∧ q.off < fpd * o + 3 * e.nf
        · have hq2 : T q = some (F (q.off - fpd * o)) := if_pos hc
          rw [hq2] at hq
          obtain rfl : F (q.off - fpd * o) = x := by simpa using hq
          have := v4 (q.off - fpd * o) (by omega)
          rw [show (⟨buf, fpd * o⟩ : Ptr) + (q.off - fpd * o) = q from
            Ptr.ext_iff'.2 ⟨hc.1.symm, by show fpd * o + _ = _; omega⟩] at this
          exact this
        · have hq2 : T q = none := if_neg hc
          rw [hq2] at hq; cases hq
      · intro k hk
        rw [htl] at hk
        refine k04.I _ (slotI _ ?_ ?_)
        · show _ ≤ fpd * posTbl4 s fpd o + k
          rw [m4]; omega
        · show fpd * posTbl4 s fpd o + k < _
          rw [m3, m4]; omega
      · intro k hk
        refine if_neg ?_
        rintro ⟨_, _, h3⟩
        have h3' : fpd * posTbl4 s fpd o + k < fpd * o + 3 * e.nf := h3
        rw [m4] at h3'
        omega
      · intro i j _ _ hh
        exact M.flbuf (Ptr.ext_iff'.1 hh).1.symm
      · intro k _ hh
        exact M.ebuf (by rw [show empty = A.tbl + k from hh]; rfl)
      · intro k hk; exact k04.I _ (M.flw k hk)
      · intro k hk; exact hTn _ M.flbuf
      · exact hTn _ M.ebuf
      · intro k _ hh
        exact M.efl (by rw [show empty = fl + k from hh]; rfl)
      · intro i hi
        exact k04.D _ (slotD _ (by right; exact ⟨Nat.le_add_right _ _, hG i hi⟩))
      · intro i j hi hj hh
        have hi' : i < e.nf * s.nctr * 1 := hi
        have h2 : o0 + i = posG4 s fpd o + j := (Ptr.ext_iff'.1 hh).2
        omega
      · refine ⟨?_, ?_, fun hb => Bool.noConfusion hb, fun _ _ _ => rfl⟩
        · show h4.I empty = .val 1
          rw [a4]
          · exact Heap.setI_I_self _ _ _
          · rintro (hq | hq)
            · exact M.ebuf (blk_buf hq)
            · exact M.eloc (blk_buf hq)
        · intro i hi
          have hi' : i < e.nf * s.nctr * 1 := hi
          exact k04.D _ (slotD _ (by left; show o0 + i < _; omega))
      · intro ip jp kp lp hip hjp hkp hlp
        have := hK ip jp kp lp A T hip hjp hkp hlp rfl (by show posG4 s fpd o + s.leng4 ≤ posG4 s fpd o + s.len4; omega)
          (idxT_int2e e hTv)
        rw [show P.len0 = s.env4.nf from Nat.mul_one _]
        exact this
    have hGs : ∀ q, Gs4 s A q → q.buf = A.g.buf ∧ ((A.g.off ≤ q.off ∧ q.off < A.g.off + P.leng) ∨
        (A.g.off + (P.leng + P.usedGen) ≤ q.off ∧ q.off < A.g.off + (P.leng + used))) := by
      rintro q (⟨i, hi, rfl⟩ | ⟨i, hi, rfl⟩)
      · exact ⟨rfl, Or.inl ⟨Nat.le_add_right _ _, Nat.add_lt_add_left hi _⟩⟩
      · refine ⟨rfl, Or.inr ⟨?_, ?_⟩⟩
        · show posG4 s fpd o + (s.leng4 + P.usedGen) ≤ posG4 s fpd o + s.len4 + i
          omega
        · show posG4 s fpd o + s.len4 + i < posG4 s fpd o + (s.leng4 + used)
          have hi' : i < 3 * bSize4 e := hi
          omega
    refine wp_mono (loop2eNoptG_wp S (by show P.usedGen ≤ s.len4 - s.leng4 + 3 * bSize4 e; omega) hGs) ?_
    rintro res h5 ⟨c1, c2, hd, hi⟩
    obtain ⟨hret, hfl, hv, hz⟩ := contracted_of c1 c2
    refine ⟨?_, ?_, ?_, ?_, ?_⟩
    · intro hr m hm
      let N := s.si.nctr * s.sj.nctr * s.sk.nctr * s.sl.nctr
      let Rr := e.nf * N
      have hm' : m < e.nf * N * 1 := by rw [Nat.mul_one]; exact hm
      have hnfp : 0 < e.nf := by
        rcases Nat.eq_zero_or_pos e.nf with h0 | h0
        · rw [h0] at hm'; simp at hm'
        · exact h0
      have hN : 0 < N := Nat.mul_pos (Nat.mul_pos (Nat.mul_pos hic hjc) hkc) hlc
      have hR : 0 < Rr := Nat.mul_pos hnfp hN
      have b1 : m / Rr < 1 := (Nat.div_lt_iff_lt_mul hR).2 (by rw [Nat.mul_comm]; exact hm')
      have b2 : m % Rr < Rr := Nat.mod_lt _ hR
      have b3 : m % Rr / e.nf < s.sl.nctr * s.sk.nctr * s.sj.nctr * s.si.nctr := (Nat.div_lt_iff_lt_mul hnfp).2 (by
        calc m % Rr < Rr := b2
          _ = _ := by show e.nf * (s.si.nctr * s.sj.nctr * s.sk.nctr * s.sl.nctr) = _; ring)
      have b4 : m % Rr / e.nf / s.si.nctr < s.sl.nctr * s.sk.nctr * s.sj.nctr := (Nat.div_lt_iff_lt_mul hic).2 b3
      have b5 : m % Rr / e.nf / s.si.nctr / s.sj.nctr < s.sl.nctr * s.sk.nctr := (Nat.div_lt_iff_lt_mul hjc).2 b4
      have b6 : m % Rr / e.nf / s.si.nctr / s.sj.nctr / s.sk.nctr < s.sl.nctr := (Nat.div_lt_iff_lt_mul hkc).2 b5
      have c1 : m % Rr / e.nf % s.si.nctr < s.si.nctr := Nat.mod_lt _ hic
      have c2 : m % Rr / e.nf / s.si.nctr % s.sj.nctr < s.sj.nctr := Nat.mod_lt _ hjc
      have c3 : m % Rr / e.nf / s.si.nctr / s.sj.nctr % s.sk.nctr < s.sk.nctr := Nat.mod_lt _ hkc
      have c4 : m % Rr % e.nf < e.nf := Nat.mod_lt _ hnfp
      have b7 : m % Rr % e.nf = m % e.nf := Nat.mod_mod_of_dvd _ (Dvd.intro _ rfl)
      have := hv hr (m/Rr) _ _ _ _ (m % Rr % e.nf) b1 c1 c2 c3 b6 c4
      have hix : Spec.outIdx4 e.nf s.si.nctr s.sj.nctr s.sk.nctr s.sl.nctr (m/Rr) (m % Rr / e.nf % s.si.nctr)
          (m % Rr / e.nf / s.si.nctr % s.sj.nctr) (m % Rr / e.nf / s.si.nctr / s.sj.nctr % s.sk.nctr)
          (m % Rr / e.nf / s.si.nctr / s.sj.nctr / s.sk.nctr) (m % Rr % e.nf) = m := by
        unfold Spec.outIdx4
        have q1 := Nat.div_add_mod' (m % Rr / e.nf) s.si.nctr
        have q2 := Nat.div_add_mod' (m % Rr) e.nf
        have q3 := Nat.div_add_mod' m Rr
        have q4 := Nat.div_add_mod' (m % Rr / e.nf / s.si.nctr) s.sj.nctr
        have q5 := Nat.div_add_mod' (m % Rr / e.nf / s.si.nctr / s.sj.nctr) s.sk.nctr
        rw [q5, q4, q1, q2]
        exact q3
      have hix' : Spec.outIdx4 P.nf P.iCtr P.jCtr P.kCtr P.lCtr (m/Rr) (m % Rr / e.nf % s.si.nctr)
          (m % Rr / e.nf / s.si.nctr % s.sj.nctr) (m % Rr / e.nf / s.si.nctr / s.sj.nctr % s.sk.nctr)
          (m % Rr / e.nf / s.si.nctr / s.sj.nctr / s.sk.nctr) (m % Rr % e.nf) = m := hix
      rw [hix', b7, zero_add] at this
      exact this
    · intro hr comp ic jc kc lc n
      exact hz hr comp ic jc kc lc n
    · refine AgreeD.trans (W1 := fun _ => False) (W := fun q => q.buf = buf) (AgreeD.of_eq d4 _) hd
        (fun _ x => x.elim) ?_
      rintro q (hq | hq) <;> exact blk_buf hq
    · have AI4 : AgreeI h h4 (fun q => q.buf = buf ∨ q.buf = empty.buf ∨ q.buf = fl.buf ∨ q.buf = loc.buf) := by
        refine AgreeI.trans (h1 := h0) (W1 := fun q => q = empty) (fun q hq => hI0 q hq) a4 ?_ ?_
        · intro q hq; exact Or.inr (Or.inl (by rw [hq]))
        rintro q (hq | hq)
        · exact Or.inl (blk_buf hq)
        · exact Or.inr (Or.inr (Or.inr (blk_buf hq)))
      refine AI4.trans hi (fun _ => id) ?_
      rintro q (hq | hq | hq)
      · exact Or.inr (Or.inl (by rw [hq]; rfl))
      · exact Or.inr (Or.inr (Or.inl (blk_buf hq)))
      · exact Or.inl (blk_buf hq)
    · rw [hret]
      constructor
      · rintro (hb | ⟨ip, jp, kp, lp, q1, q2, q3, q4, q5⟩)
        · exact absurd hb (by simp)
        · exact ⟨ip, jp, kp, lp, q1, q2, q3, q4, (survives4 A ip jp kp lp).1 q5⟩
      · rintro ⟨ip, jp, kp, lp, q1, q2, q3, q4, q5⟩
        exact Or.inr ⟨ip, jp, kp, lp, q1, q2, q3, q4, (survives4 A ip jp kp lp).2 q5⟩

/-- the values of the array of contracted integrals -/
def Call2.ctrArr4 (K : Consts α) (L : MathLib α) (s : Call2 α) (w : Nat → Nat → Nat → Nat → Nat → α) : Nat → α :=
  ctrVal (loopVal4 K L s w) s.env4.nf s.si.nctr s.sj.nctr s.sk.nctr s.sl.nctr

theorem nf_env4 : s.env4.nf = ncart s.si.l * ncart s.sj.l * ncart s.sk.l * ncart s.sl.l := by
  show lenCart s.si.l * lenCart s.sk.l * lenCart s.sl.l * lenCart s.sj.l = _
  simp only [lenCart_eq]
  ring

/-- the part of the driver up to the output stage -/
theorem drv4c1e_loop {h : Heap α} {fpd buf size : Nat} {empty fl loc counts : Ptr}
    (M : CallMem2 h fpd buf size empty fl loc counts) (hsize : need4c1e fpd s ≤ size)
    (hp : ∀ t, t < 4 → 0 < Call2.nctrs s t) (hK : EvalOK4 K L s w)
    (hl : ∀ t, t < 4 → Call2.ls s t ≤ 15)
    (trans : (buf c : Nat) → Ptr → Prog α Ptr) (nfo : Nat → Nat) (out : Ptr) (dims : Option Ptr)
    (Q : Bool → Heap α → Prop)
    (hQ : ∀ has h1, (has = true → HoldsD h1 ⟨buf, 0⟩ (s.env4.nf * s.nctr) (Call2.ctrArr4 K L s w)) →
      (has = false → ∀ m, Call2.ctrArr4 K L s w m = 0) →
      AgreeD h h1 (fun q => q.buf = buf) →
      AgreeI h h1 (fun q => q.buf = buf ∨ q.buf = empty.buf ∨ q.buf = fl.buf ∨ q.buf = loc.buf) → AllocMono h h1 →
      (has = true ↔ loopAny4 s) →
      wp (outStage 4 has 1 (s.env4.nf * s.nctr) (c2sFun 4 (shapeOf nfo (Call2.nctrs s) s.env4.nf)
          (trans buf (fpd * (s.env4.nf * s.nctr)))) out ⟨buf, 0⟩ dims counts (fun t => nfo t * Call2.nctrs s t))
        (fun _ h2 => Q has h2) h1) :
    wp (drv4c1e s K L fpd trans nfo out dims buf 0 empty fl loc counts) Q h := by
  have hf := M.fpd_pos
  have hic : 1 ≤ s.si.nctr := hp 0 (by omega)
  have hjc : 1 ≤ s.sj.nctr := hp 1 (by omega)
  have hkc : 1 ≤ s.sk.nctr := hp 2 (by omega)
  have hlc : 1 ≤ s.sl.nctr := hp 3 (by omega)
  have hncE : s.env4.nf * s.si.nctr * s.sj.nctr * s.sk.nctr * s.sl.nctr = s.env4.nf * s.nctr := by
    unfold Call2.nctr; ring
  unfold drv4c1e
  dsimp only
  rw [hncE]
  rw [show mallocD fpd buf 0 (s.env4.nf * s.nctr) = (⟨buf, 0⟩, fpd * (s.env4.nf * s.nctr)) from by
    have := mallocD_eq hf buf 0 (s.env4.nf * s.nctr); rw [Nat.zero_add] at this; exact this]
  dsimp only
  have LM : LoopMem4 s h fpd buf size 0 (s.env4.nf * s.nctr) empty fl loc :=
    ⟨hf, ⟨fun k hk _ => M.dbl k hk, fun m hm _ => M.int m hm⟩, hsize, by omega, M.emw,
      M.flw, M.locw, M.ebuf, M.efl, M.eloc, M.flbuf, M.locbuf⟩
  rw [wp_mbind]
  refine wp_mono (wp_allocMono (loop4c1eRun_wp LM hK hic hjc hkc hlc (hl 0 (by omega)) (hl 1 (by omega))
    (hl 2 (by omega)) (hl 3 (by omega)))) ?_
  rintro res h1 ⟨⟨hv, hz, hD, hI, hret⟩, hm⟩
  have := hQ res h1 hv (fun hr m => hz hr _ _ _ _ _ _) hD hI hm hret
  rw [wp_mbind]
  refine wp_mono this ?_
  intro _ h2 hq
  rw [wp_pure]
  exact hq

/-- Cartesian output -/
theorem drv4c1e_cart {h : Heap α} {fpd buf size : Nat} {empty fl loc counts out : Ptr} {dims : Option Ptr} {nd : Nat → Nat}
    (M : CallMem2 h fpd buf size empty fl loc counts) (hsize : need4c1e fpd s ≤ size)
    (hs : Sizes 4 (ncar (Call2.ls s)) (Call2.nctrs s) nd)
    (O : OutArg2 4 h nd (fun t => ncar (Call2.ls s) t * Call2.nctrs s t) 1 out dims buf empty fl loc counts)
    (hK : EvalOK4 K L s w) (hl : ∀ t, t < 4 → Call2.ls s t ≤ 15) :
    ∃ has h', run (drv4c1e s K L fpd (fun _ _ => pure) (ncar (Call2.ls s)) out dims buf 0 empty fl loc counts) h
        = some (has, h') ∧
      (∀ n ic jc kc lc i j k l, n < 1 → ic < s.si.nctr → jc < s.sj.nctr → kc < s.sk.nctr → lc < s.sl.nctr →
        i < ncart s.si.l → j < ncart s.sj.l → k < ncart s.sk.l → l < ncart s.sl.l →
        h'.D (out + outAt nd n (ic*ncart s.si.l+i) (jc*ncart s.sj.l+j) (kc*ncart s.sk.l+k) (lc*ncart s.sl.l+l)) =
          .val (loopVal4 K L s w n ic jc kc lc (pos4c (ncar (Call2.ls s)) i j k l))) ∧
      (has = false → ∀ m, InBlock nd (fun t => ncar (Call2.ls s) t * Call2.nctrs s t) 1 m → h'.D (out + m) = .val 0) ∧
      Frame2 h h' nd (fun t => ncar (Call2.ls s) t * Call2.nctrs s t) 1 buf out empty fl loc counts ∧
      (has = true ↔ loopAny4 s) := by
  refine (wp_iff_run _ (fun has h' => _) _).1 ?_
  refine drv4c1e_loop M hsize hs.nctr_pos hK hl _ _ _ _ _ ?_
  intro has h1 hv hz hD hI hm hret
  have hd1 := dims_kept O hI
  have hcn : ∀ t, t < 4 → h1.I (counts + t) ≠ .oob := fun t ht => hm.I _ (M.countsw t ht)
  have hal : ∀ m, InBlock nd (fun t => ncar (Call2.ls s) t * Call2.nctrs s t) 1 m →
      h1.D (out + m) ≠ .oob := fun m hm' => hm.D _ (O.h_out m hm')
  have enf : s.env4.nf = ncar (Call2.ls s) 0 * ncar (Call2.ls s) 1 * ncar (Call2.ls s) 2 * ncar (Call2.ls s) 3 := nf_env4
  have enc : s.nctr = Call2.nctrs s 0 * Call2.nctrs s 1 * Call2.nctrs s 2 * Call2.nctrs s 3 := rfl
  have elen : s.env4.nf * s.nctr = 1 * (ncar (Call2.ls s) 0 * ncar (Call2.ls s) 1 * ncar (Call2.ls s) 2 *
      ncar (Call2.ls s) 3 * (Call2.nctrs s 0 * Call2.nctrs s 1 * Call2.nctrs s 2 * Call2.nctrs s 3)) := by
    rw [enf, enc]; ring
  cases has with
  | true =>
    have hh := hv rfl
    rw [elen] at hh
    have St : Stage 4 (ncar (Call2.ls s)) (Call2.nctrs s) nd 1 out dims ⟨buf, 0⟩ counts (Call2.ctrArr4 K L s w) h1 :=
      { h_sizes := hs, h_dims := hd1, h_counts := hcn, h_gctr := hh, h_out := hal
        h_disj := fun i m _ _ e => O.h_obuf (congrArg Ptr.buf e :).symm }
    obtain ⟨h2, r2, v2, f2, i2⟩ := C17_cartesian_placement St
    refine (wp_iff_run _ _ _).2 ⟨(), h2, ?_, ?_, fun x => Bool.noConfusion x, ⟨?_, ?_⟩, hret⟩
    · rw [← r2]
      unfold cartStage
      rw [enf, enc]
    · intro n ic jc kc lc i j k l hn q1 q2 q3 q4 p1 p2 p3 p4
      have := v2 n ic jc kc lc i j k l hn q1 q2 q3 q4 p1 p2 p3 p4
      refine this.trans ?_
      congr 1
      unfold Call2.ctrArr4
      rw [enf]
      exact ctrVal_at (nctr := Call2.nctrs s) _ q1 q2 q3 q4 p1 p2 p3 p4
    · intro q hq hb
      rw [f2 q hb]
      exact hD q hq
    · intro q p1 p2 p3 p4 p5
      rw [i2 q (fun t _ e => p5 (by rw [e]; rfl))]
      exact hI q (by rintro (x | x | x | x) <;> [exact p1 x; exact p2 x; exact p3 x; exact p4 x])
  | false =>
    obtain ⟨h2, r2, v2, f2, i2⟩ := C18_zero_block (nComp := 1) (nc := s.env4.nf * s.nctr) (out := out) (gctr := ⟨buf, 0⟩)
      (c2s := c2sFun 4 (shapeOf (ncar (Call2.ls s)) (Call2.nctrs s) s.env4.nf) pure) hs hd1
      (fun _ _ x => absurd x (by omega)) hcn hal
    refine (wp_iff_run _ _ _).2 ⟨(), h2, r2, ?_, fun _ => v2, ⟨?_, ?_⟩, hret⟩
    · intro n ic jc kc lc i j k l hn q1 q2 q3 q4 p1 p2 p3 p4
      have hz' := hz rfl (ctrAt (Call2.nctrs s) (ncar (Call2.ls s)) n ic jc kc lc i j k l)
      unfold Call2.ctrArr4 at hz'
      rw [enf] at hz'
      have hc := ctrVal_at (nctr := Call2.nctrs s) (nf := ncar (Call2.ls s)) (n := n) (loopVal4 K L s w) q1 q2 q3 q4 p1 p2 p3 p4
      rw [← hc]
      refine Eq.trans ?_ (congrArg Cell.val hz').symm
      exact v2 _ ⟨n, _, _, _, _, hn, digit_lt p1 q1, digit_lt p2 q2, digit_lt p3 q3, digit_lt p4 q4, rfl⟩
    · intro q hq hb
      rw [f2 q hb]
      exact hD q hq
    · intro q p1 p2 p3 p4 p5
      rw [i2 q (fun t _ e => p5 (by rw [e]; rfl))]
      exact hI q (by rintro (x | x | x | x) <;> [exact p1 x; exact p2 x; exact p3 x; exact p4 x])

/-- the transformed integral -/
def sphVal4 (K : Consts α) (L : MathLib α) (s : Call2 α)
    (w : Nat → Nat → Nat → Nat → Nat → α) (n ic jc kc lc i j k l : Nat) : α :=
  ∑ a ∈ Finset.range (ncart s.si.l), ∑ b ∈ Finset.range (ncart s.sj.l), ∑ c ∈ Finset.range (ncart s.sk.l),
    ∑ d ∈ Finset.range (ncart s.sl.l),
    c2sCoef s.si.l i a * c2sCoef s.sj.l j b * c2sCoef s.sk.l k c * c2sCoef s.sl.l l d *
      loopVal4 K L s w n ic jc kc lc (pos4c (ncar (Call2.ls s)) a b c d)

theorem sphOf_eq4 {n ic jc kc lc i j k l : Nat} (q1 : ic < s.si.nctr) (q2 : jc < s.sj.nctr) (q3 : kc < s.sk.nctr)
    (q4 : lc < s.sl.nctr) : sphOf (Call2.ls s) (Call2.nctrs s) (Call2.ctrArr4 K L s w) n ic jc kc lc i j k l =
      sphVal4 K L s w n ic jc kc lc i j k l := by
  unfold sphOf sphVal4
  refine Finset.sum_congr rfl fun a ha => Finset.sum_congr rfl fun b hb => Finset.sum_congr rfl fun c hc =>
    Finset.sum_congr rfl fun d hd => ?_
  refine congrArg (c2sCoef s.si.l i a * c2sCoef s.sj.l j b * c2sCoef s.sk.l k c * c2sCoef s.sl.l l d * ·) ?_
  unfold Call2.ctrArr4
  rw [show s.env4.nf = ncar (Call2.ls s) 0 * ncar (Call2.ls s) 1 * ncar (Call2.ls s) 2 * ncar (Call2.ls s) 3 from nf_env4]
  exact ctrVal_at (nctr := Call2.nctrs s) _ q1 q2 q3 q4 (Finset.mem_range.1 ha) (Finset.mem_range.1 hb)
    (Finset.mem_range.1 hc) (Finset.mem_range.1 hd)

/-- Spherical output -/
theorem drv4c1e_sph {h : Heap α} {fpd buf size : Nat} {empty fl loc counts out tab : Ptr} {dims : Option Ptr} {nd : Nat → Nat}
    (M : CallMem2 h fpd buf size empty fl loc counts) (hsize : need4c1e fpd s ≤ size)
    (hsz2 : s.env4.nf * s.nctr + s.env4.nf * 4 ≤ size)
    (hs : Sizes 4 (nsph (Call2.ls s)) (Call2.nctrs s) nd)
    (O : OutArg2 4 h nd (fun t => nsph (Call2.ls s) t * Call2.nctrs s t) 1 out dims buf empty fl loc counts)
    (hT : HoldsTab h tab) (htb : tab.buf ≠ buf) (hto : out.buf ≠ tab.buf)
    (hK : EvalOK4 K L s w) (hl : ∀ t, t < 4 → Call2.ls s t ≤ 15) :
    ∃ has h', run (drv4c1e s K L fpd (sphTrans2e tab fpd s.si.l s.sj.l s.sk.l s.sl.l) (nsph (Call2.ls s)) out dims
        buf 0 empty fl loc counts) h = some (has, h') ∧
      (∀ n ic jc kc lc i j k l, n < 1 → ic < s.si.nctr → jc < s.sj.nctr → kc < s.sk.nctr → lc < s.sl.nctr →
        i < s.si.l*2+1 → j < s.sj.l*2+1 → k < s.sk.l*2+1 → l < s.sl.l*2+1 →
        h'.D (out + outAt nd n (ic*(s.si.l*2+1)+i) (jc*(s.sj.l*2+1)+j) (kc*(s.sk.l*2+1)+k) (lc*(s.sl.l*2+1)+l)) =
          .val (sphVal4 K L s w n ic jc kc lc i j k l)) ∧
      (has = false → ∀ m, InBlock nd (fun t => nsph (Call2.ls s) t * Call2.nctrs s t) 1 m → h'.D (out + m) = .val 0) ∧
      Frame2 h h' nd (fun t => nsph (Call2.ls s) t * Call2.nctrs s t) 1 buf out empty fl loc counts ∧
      (has = true ↔ loopAny4 s) := by
  refine (wp_iff_run _ (fun has h' => _) _).1 ?_
  refine drv4c1e_loop M hsize hs.nctr_pos hK hl _ _ _ _ _ ?_
  intro has h1 hv hz hD hI hm hret
  have hd1 := dims_kept O hI
  have hcn : ∀ t, t < 4 → h1.I (counts + t) ≠ .oob := fun t ht => hm.I _ (M.countsw t ht)
  have hal : ∀ m, InBlock nd (fun t => nsph (Call2.ls s) t * Call2.nctrs s t) 1 m →
      h1.D (out + m) ≠ .oob := fun m hm' => hm.D _ (O.h_out m hm')
  have enf : s.env4.nf = blkLen (Call2.ls s) := nf_env4
  have enf' : s.env4.nf = ncar (Call2.ls s) 0 * ncar (Call2.ls s) 1 * ncar (Call2.ls s) 2 * ncar (Call2.ls s) 3 := nf_env4
  have enc : s.nctr = Call2.nctrs s 0 * Call2.nctrs s 1 * Call2.nctrs s 2 * Call2.nctrs s 3 := rfl
  have elen : s.env4.nf * s.nctr = 1 * (blkLen (Call2.ls s) *
      (Call2.nctrs s 0 * Call2.nctrs s 1 * Call2.nctrs s 2 * Call2.nctrs s 3)) := by
    rw [enf, enc]; ring
  have htab : HoldsTab h1 tab := holdsTab_agree hT hD (fun q hq => by rw [hq]; exact htb.symm)
  have hfree : s.env4.nf * s.nctr + blkLen (Call2.ls s) * 4 ≤ size := by
    rw [← enf]; exact hsz2
  cases has with
  | true =>
    have hh := hv rfl
    rw [elen] at hh
    have St : SphStage 4 (Call2.ls s) (Call2.nctrs s) nd 1 out dims ⟨buf, 0⟩ counts tab fpd buf
        (s.env4.nf * s.nctr) size (Call2.ctrArr4 K L s w) h1 :=
      { h_fpd := M.fpd_pos, h_l := hl, h_l0 := fun t a b => absurd a (by omega), h_sizes := hs, h_dims := hd1
        h_counts := hcn, h_tab := htab, h_gctr := hh, h_gbuf := rfl
        h_used := by rw [elen]; exact le_of_eq (Nat.zero_add _)
        h_free := hfree, h_cache := fun k hk => hm.D _ (M.dbl k hk), h_out := hal, h_tbuf := htb
        h_obuf := ⟨O.h_obuf, hto⟩ }
    obtain ⟨h2, r2, v2, f2, i2⟩ := C19_spherical_block St
    refine (wp_iff_run _ _ _).2 ⟨(), h2, ?_, ?_, fun x => Bool.noConfusion x, ⟨?_, ?_⟩, hret⟩
    · rw [← r2]
      unfold sphStage
      rw [enf, enc]
      rfl
    · intro n ic jc kc lc i j k l hn q1 q2 q3 q4 p1 p2 p3 p4
      have := v2 n ic jc kc lc i j k l hn q1 q2 q3 q4 p1 p2 p3 p4
      exact this.trans (congrArg Cell.val (sphOf_eq4 q1 q2 q3 q4))
    · intro q hq hb
      rw [f2 q (fun x => hq x.1) hb]
      exact hD q hq
    · intro q p1 p2 p3 p4 p5
      rw [i2 q (fun t _ e => p5 (by rw [e]; rfl))]
      exact hI q (by rintro (x | x | x | x) <;> [exact p1 x; exact p2 x; exact p3 x; exact p4 x])
  | false =>
    obtain ⟨h2, r2, v2, f2, i2⟩ := C18_zero_block (nComp := 1) (nc := s.env4.nf * s.nctr) (out := out) (gctr := ⟨buf, 0⟩)
      (c2s := c2sFun 4 (shapeOf (nsph (Call2.ls s)) (Call2.nctrs s) s.env4.nf)
        (sphTrans2e tab fpd s.si.l s.sj.l s.sk.l s.sl.l buf (fpd * (s.env4.nf * s.nctr)))) hs hd1
      (fun _ _ x => absurd x (by omega)) hcn hal
    refine (wp_iff_run _ _ _).2 ⟨(), h2, r2, ?_, fun _ => v2, ⟨?_, ?_⟩, hret⟩
    · intro n ic jc kc lc i j k l hn q1 q2 q3 q4 p1 p2 p3 p4
      have hz0 : sphVal4 K L s w n ic jc kc lc i j k l = 0 := by
        unfold sphVal4
        refine Finset.sum_eq_zero fun a ha => Finset.sum_eq_zero fun b hb => Finset.sum_eq_zero fun c hc =>
          Finset.sum_eq_zero fun d hd => ?_
        have hz' := hz rfl (ctrAt (Call2.nctrs s) (ncar (Call2.ls s)) n ic jc kc lc a b c d)
        unfold Call2.ctrArr4 at hz'
        rw [enf'] at hz'
        have hc := ctrVal_at (nctr := Call2.nctrs s) (nf := ncar (Call2.ls s)) (n := n) (loopVal4 K L s w) q1 q2 q3 q4
          (Finset.mem_range.1 ha) (Finset.mem_range.1 hb) (Finset.mem_range.1 hc) (Finset.mem_range.1 hd)
        rw [← hc]
        exact (congrArg _ hz').trans (mul_zero _)
      rw [hz0]
      exact v2 _ ⟨n, _, _, _, _, hn, digit_lt p1 q1, digit_lt p2 q2, digit_lt p3 q3, digit_lt p4 q4, rfl⟩
    · intro q hq hb
      rw [f2 q hb]
      exact hD q hq
    · intro q p1 p2 p3 p4 p5
      rw [i2 q (fun t _ e => p5 (by rw [e]; rfl))]
      exact hI q (by rintro (x | x | x | x) <;> [exact p1 x; exact p2 x; exact p3 x; exact p4 x])

end Verif.Lemmas
