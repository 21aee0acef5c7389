import Verif.Lemmas.Drv2e
import Verif.Props.Loop3c

/-! The three-centre primitive loops on their part of the cache, after the index table is built. -/
namespace Verif.Lemmas
open Verif Verif.Model Verif.Prog Verif.Props

variable {α : Type} [Field α] [LinearOrder α]

/-- Memory of the loops: the cache is buffer `buf`, with the array of contracted integrals at double `o0`, the index table at
FINT `iI` (holding `F`), the sparsity tables at FINT `iT` and `g` at double `pG`. -/
structure NestMem3 (P : Nest3 α) (h : Heap α) (F : Nat → Int) (buf o0 iI iT pG : Nat) (empty fl : Ptr) : Prop where
  ictr : 1 ≤ P.iCtr
  jctr : 1 ≤ P.jCtr
  kctr : 1 ≤ P.kCtr
  ncomp : 1 ≤ P.nComp
  flag : h.I empty = .val 1
  idx : ∀ k, k < 3 * P.nf → h.I ⟨buf, iI + k⟩ = .val (F k)
  tblw : ∀ k, k < P.tblSize → h.I ⟨buf, iT + k⟩ ≠ .oob
  sep : iI + 3 * P.nf ≤ iT
  g : ∀ i, i < P.leng + P.used → h.D ⟨buf, pG + i⟩ ≠ .oob
  gctr : ∀ i, i < P.nf * P.nc * P.nComp → h.D ⟨buf, o0 + i⟩ ≠ .oob
  ctr : o0 + P.nf * P.nc * P.nComp ≤ pG
  flw : ∀ k, k < 4 → h.I (fl + k) ≠ .oob
  ebuf : empty.buf ≠ buf
  efl : empty.buf ≠ fl.buf
  flbuf : fl.buf ≠ buf

theorem nest3_wp {P : Nest3 α} {h : Heap α} {F : Nat → Int} {buf o0 iI iT pG : Nat} {empty fl : Ptr}
    {keep : Nat → Nat → Nat → Bool} {w : Nat → Nat → Nat → Nat → α}
    (M : NestMem3 P h F buf o0 iI iT pG empty fl)
    (hK : ∀ (T : Ptr → Option Int), (∀ k, k < 3 * P.nf → T ((⟨buf, iI⟩ : Ptr) + k) = some (F k)) →
      ∀ ip jp kp, ip < P.iPrim → jp < P.jPrim → kp < P.kPrim →
        KernelSpec T (P.g0 ip jp kp) (P.gout ip jp kp) (Blk ⟨buf, pG⟩ P.leng) P.len0 (keep ip jp kp) (w ip jp kp)) :
    wp (loop3cNopt P ⟨⟨buf, o0⟩, empty, ⟨buf, pG⟩, fl⟩ ⟨buf, iT⟩ false) (fun res h' =>
      h'.I empty = .val (if res then 0 else 1) ∧
      (res = true → HoldsD h' ⟨buf, o0⟩ (P.nf * P.nc * P.nComp)
        (ctrVal (fun comp ic jc kc _ n => expected3 P keep w comp ic jc kc n) P.nf P.iCtr P.jCtr P.kCtr 1)) ∧
      (res = false → ∀ comp ic jc kc n, expected3 P keep w comp ic jc kc n = 0) ∧
      AgreeD h h' (fun q => q.buf = buf) ∧
      AgreeI h h' (fun q => q.buf = buf ∨ q.buf = empty.buf ∨ q.buf = fl.buf) ∧
      (res = true ↔ ∃ ip jp kp, ip < P.iPrim ∧ jp < P.jPrim ∧ kp < P.kPrim ∧ P.skip ip jp kp = false ∧
        keep ip jp kp = true)) h := by
  let T : Ptr → Option Int := fun q => if q.buf = buf ∧ iI ≤ q.off ∧ q.off < iI + 3 * P.nf then
    some (F (q.off - iI)) else none
  have hTv : ∀ k, k < 3 * P.nf → T ((⟨buf, iI⟩ : Ptr) + k) = some (F k) := by
    intro k hk
    show (if buf = buf ∧ iI ≤ iI + k ∧ iI + k < iI + 3 * P.nf then some (F (iI + k - iI)) else none) = _
    rw [if_pos ⟨rfl, by omega, by omega⟩, Nat.add_sub_cancel_left]
  have hTn : ∀ q : Ptr, q.buf ≠ buf → T q = none := fun q hq => if_neg (fun hh => hq hh.1)
  have S : Setup3Nopt P ⟨⟨buf, o0⟩, empty, ⟨buf, pG⟩, fl⟩ ⟨buf, iT⟩ T keep w false (fun _ => 0) h := by
    refine ⟨M.ictr, M.jctr, M.kctr, M.ncomp, ?_, M.tblw, ?_, ?_, ?_, M.flw, fun k _ => hTn _ M.flbuf, hTn _ M.ebuf, ?_,
      M.g, ?_, ⟨M.flag, M.gctr, fun hb => Bool.noConfusion hb, fun _ _ _ => rfl⟩, hK T hTv⟩
    · intro q x hq
      by_cases hc : q.buf = buf ∧ iI ≤ q.off ∧ q.off < iI + 3 * P.nf
      · have hq2 : T q = some (F (q.off - iI)) := if_pos hc
        rw [hq2] at hq
        obtain rfl : F (q.off - iI) = x := by simpa using hq
        have := M.idx (q.off - iI) (by omega)
        rw [show (⟨buf, iI + (q.off - iI)⟩ : Ptr) = q from
          Ptr.ext_iff'.2 ⟨hc.1.symm, by show iI + _ = _; omega⟩] at this
        exact this
      · have hq2 : T q = none := if_neg hc
        rw [hq2] at hq; cases hq
    · intro k hk
      refine if_neg ?_
      rintro ⟨_, _, h3⟩
      have h3' : iT + k < iI + 3 * P.nf := h3
      have := M.sep
      omega
    · intro i j _ _ hh
      exact M.flbuf (Ptr.ext_iff'.1 hh).1.symm
    · intro k _ hh
      exact M.ebuf (by rw [show empty = (⟨buf, iT⟩ : Ptr) + k from hh]; rfl)
    · intro k _ hh
      exact M.efl (by rw [show empty = fl + k from hh]; rfl)
    · intro i j hi hj hh
      have hi' : i < P.nf * P.nc * P.nComp := hi
      have h2 : o0 + i = pG + j := (Ptr.ext_iff'.1 hh).2
      have := M.ctr
      omega
  refine wp_mono ((wp_iff_run _ _ _).2 (C41_loop_nopt S)) ?_
  rintro res h5 ⟨⟨hret, hfl, hv, hz⟩, hd, hi⟩
  refine ⟨hfl, ?_, hz, ?_, ?_, ?_⟩
  · intro hr m hm
    let N := P.iCtr * P.jCtr * P.kCtr
    let Rr := P.nf * (N * 1)
    have hm' : m < P.nf * N * P.nComp := hm
    have hm2 : m < P.nComp * Rr := by
      calc m < P.nf * N * P.nComp := hm'
        _ = P.nComp * (P.nf * (N * 1)) := by ring
    have hnfp : 0 < P.nf := by
      rcases Nat.eq_zero_or_pos P.nf with h0 | h0
      · rw [h0] at hm'; simp at hm'
      · exact h0
    have hN : 0 < N := Nat.mul_pos (Nat.mul_pos M.ictr M.jctr) M.kctr
    have hR : 0 < Rr := Nat.mul_pos hnfp (by omega)
    have b1 : m / Rr < P.nComp := (Nat.div_lt_iff_lt_mul hR).2 hm2
    have b2 : m % Rr < Rr := Nat.mod_lt _ hR
    have b3 : m % Rr / P.nf < P.kCtr * P.jCtr * P.iCtr := (Nat.div_lt_iff_lt_mul hnfp).2 (by
      calc m % Rr < Rr := b2
        _ = _ := by show P.nf * (P.iCtr * P.jCtr * P.kCtr * 1) = _; ring)
    have b4 : m % Rr / P.nf / P.iCtr < P.kCtr * P.jCtr := (Nat.div_lt_iff_lt_mul M.ictr).2 b3
    have b5 : m % Rr / P.nf / P.iCtr / P.jCtr < P.kCtr := (Nat.div_lt_iff_lt_mul M.jctr).2 b4
    have c1 : m % Rr / P.nf % P.iCtr < P.iCtr := Nat.mod_lt _ M.ictr
    have c2 : m % Rr / P.nf / P.iCtr % P.jCtr < P.jCtr := Nat.mod_lt _ M.jctr
    have c4 : m % Rr % P.nf < P.nf := Nat.mod_lt _ hnfp
    have b7 : m % Rr % P.nf = m % P.nf := Nat.mod_mod_of_dvd _ (Dvd.intro _ rfl)
    have b8 : m % Rr / P.nf / P.iCtr / P.jCtr % P.kCtr = m % Rr / P.nf / P.iCtr / P.jCtr := Nat.mod_eq_of_lt b5
    have := hv hr (m/Rr) _ _ _ (m % Rr % P.nf) b1 c1 c2 b5 c4
    have hix : Spec.outIdx3 P.nf P.iCtr P.jCtr P.kCtr (m/Rr) (m % Rr / P.nf % P.iCtr)
        (m % Rr / P.nf / P.iCtr % P.jCtr) (m % Rr / P.nf / P.iCtr / P.jCtr) (m % Rr % P.nf) = m := by
      unfold Spec.outIdx3
      have q1 := Nat.div_add_mod' (m % Rr / P.nf) P.iCtr
      have q2 := Nat.div_add_mod' (m % Rr) P.nf
      have q3 := Nat.div_add_mod' m Rr
      have q4 := Nat.div_add_mod' (m % Rr / P.nf / P.iCtr) P.jCtr
      have eR : P.nf * (P.iCtr * P.jCtr * P.kCtr) = Rr := by
        show _ = P.nf * (P.iCtr * P.jCtr * P.kCtr * 1); rw [Nat.mul_one]
      rw [q4, q1, q2, eR]
      exact q3
    rw [hix, b7, zero_add] at this
    refine this.trans ?_
    show _ = Cell.val (expected3 P keep w (m/Rr) (m % Rr / P.nf % P.iCtr) (m % Rr / P.nf / P.iCtr % P.jCtr)
      (m % Rr / P.nf / P.iCtr / P.jCtr % P.kCtr) (m % P.nf))
    rw [b8]
  · refine hd.mono ?_
    rintro q (hq | hq) <;> exact blk_buf hq
  · refine hi.mono ?_
    rintro q (hq | hq | hq)
    · exact Or.inr (Or.inl (by rw [hq]))
    · exact Or.inr (Or.inr (blk_buf hq))
    · exact Or.inl (blk_buf hq)
  · rw [hret]
    simp

end Verif.Lemmas
