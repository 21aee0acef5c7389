import Verif.Model.Int3c2eOpt
import Verif.Lemmas.OptBuild
import Verif.Lemmas.OptIdx
import Verif.Lemmas.Drv3c

/-! The three-centre loops with an optimizer on their part of the cache, CINT3c2e_drv and CINTall_3c2e_optimizer. -/
namespace Verif.Lemmas
open Verif Verif.Model Verif.Prog Verif.Props Verif.Spec

variable {α : Type} [Field α] [LinearOrder α]

/-- the pair data the loop will find: from the table, or computed on the spot -/
def PairAt (L : MathLib α) (X : Int2e α) (s : Call3 α) (O : Opt2) (h : Heap α) (i j : Nat) (V : Nat → Nat → Nat → α)
    (E : Prop) : Prop :=
  match O.pair with
  | some (t, p) => PairCell h t p O.nbas i j s.si.nprim s.sj.nprim V E
  | none => V = pairVal L (s.pairArgs X) ∧ (E ↔ PairEmpty L (s.pairArgs X))

/-- what has been read -/
def TabOK (s : Call3 α) (P : Nat → α) (V : Nat → Nat → Nat → α) : Prop :=
  ∀ ip jp c, ip < s.si.nprim → jp < s.sj.nprim → c < 5 → P (5*(jp*s.si.nprim+ip)+c) = V ip jp c

variable {R : Rys2 α} {K : Consts α} {L : MathLib α} {X : Int2e α} {s : Call3 α}

theorem tabOK_of {x : Nat → α} {V : Nat → Nat → Nat → α}
    (hx : ∀ q, q < 5*(s.si.nprim*s.sj.nprim) → x q = pairF s.si.nprim V q) : TabOK s x V := by
  intro ip jp c hi hj hc
  have := radix_lt hj hi
  rw [Nat.mul_comm s.sj.nprim] at this
  exact (hx _ (by omega)).trans (pairF_eq hi hc)

/-- the loop function returns before the primitive loops: the pair is marked in the table, or found negligible on the spot -/
def Stops3 (L : MathLib α) (X : Int2e α) (s : Call3 α) (O : Opt2) (h : Heap α) (i j : Nat) : Prop :=
  match O.pair with
  | some (t, _) => h.I (t + (i*O.nbas+j)) = .val (-1)
  | none => PairEmpty L (s.pairArgs X)

theorem Stops3.congr {L : MathLib α} {X : Int2e α} {s : Call3 α} {O : Opt2} {h h' : Heap α} {i j : Nat}
    (H : ∀ t p, O.pair = some (t, p) → ∀ q : Ptr, q.buf = t.buf → h'.I q = h.I q) :
    Stops3 L X s O h' i j ↔ Stops3 L X s O h i j := by
  unfold Stops3
  cases hO : O.pair with
  | none => exact Iff.rfl
  | some tp =>
    obtain ⟨t, p⟩ := tp
    dsimp only
    rw [H t p hO (t + (i*O.nbas+j)) rfl]

theorem optPair_wp {O : Opt2} {h : Heap α} {i j : Nat} {V : Nat → Nat → Nat → α} {E : Prop} {pd : Ptr}
    (H : PairAt L X s O h i j V E)
    (ha : O.pair = none → ∀ q, q < 5*(s.si.nprim*s.sj.nprim) → h.D (pd + q) ≠ .oob) :
    wp (optPair X s L O i j pd) (fun r h' =>
      (r = none → E) ∧ (∀ P, r = some P → TabOK s P V ∧ (E → O.pair.isSome ∧ i = 0 ∧ j = 0)) ∧
      AgreeD h h' (Blk pd (5*(s.si.nprim*s.sj.nprim))) ∧ h'.I = h.I ∧ (r = none ↔ Stops3 L X s O h i j)) h := by
  unfold PairAt at H
  unfold optPair Stops3
  cases hO : O.pair with
  | some tp =>
    obtain ⟨t, p⟩ := tp
    rw [hO] at H
    dsimp only at H
    dsimp only
    rw [wp_mbind]
    rcases H with ⟨c1, e1⟩ | ⟨o1, c1, b1, e1⟩
    · refine (wp_ldI _ _ _).2 ⟨_, c1, ?_⟩
      rw [if_pos rfl, wp_pure]
      exact ⟨fun _ => e1, fun P hP => (nomatch hP), AgreeD.refl _ _, rfl, iff_of_true rfl c1⟩
    · refine (wp_ldI _ _ _).2 ⟨_, c1, ?_⟩
      rw [if_neg (by omega), wp_mbind, Int.toNat_natCast]
      refine wp_mono (readBlk_wp (fun q hq => PairBlk.flat b1 hq)) ?_
      rintro x _ ⟨rfl, hx⟩
      rw [wp_pure]
      refine ⟨fun e => (nomatch e), ?_, AgreeD.refl _ _, rfl, iff_of_false (fun e => nomatch e) ?_⟩
      · rintro P hP
        cases hP
        exact ⟨tabOK_of hx, fun hE => ⟨rfl, e1 hE⟩⟩
      · rw [c1]
        intro e
        injection e
        omega
  | none =>
    rw [hO] at H
    obtain ⟨rfl, hE⟩ := H
    replace ha := ha hO
    dsimp only
    rw [wp_mbind]
    have eN : (s.pairArgs X).sj.nprim * (s.pairArgs X).si.nprim = s.si.nprim*s.sj.nprim := Nat.mul_comm _ _
    refine wp_mono (wp_allocMono (setPairdata_wp (pd := pd) (p := s.pairArgs X) ?_)) ?_
    · intro q hq
      rw [eN] at hq
      exact ha q hq
    rintro e1 h1 ⟨⟨he1, v1, a1, i1⟩, m1⟩
    rw [eN] at a1
    by_cases c1 : e1 = true
    · rw [if_pos c1, wp_pure]
      exact ⟨fun _ => hE.2 (he1.1 c1), fun P hP => (nomatch hP), a1, i1, iff_of_true rfl (he1.1 c1)⟩
    rw [if_neg c1, wp_mbind]
    refine wp_mono (readBlk_wp (fun q hq => PairBlk.flat (V := pairVal L (s.pairArgs X)) v1 hq)) ?_
    rintro x _ ⟨rfl, hx⟩
    rw [wp_pure]
    refine ⟨fun e => (nomatch e), ?_, a1, i1, iff_of_false (fun e => nomatch e) (fun e => c1 (he1.2 e))⟩
    rintro P hP
    cases hP
    exact ⟨tabOK_of hx, fun hx => absurd (he1.2 (hE.1 hx)) c1⟩

/-- `index_xyz_array` has no table for these angular momenta -/
def ixNull3 (O : Opt2) (h : Heap α) (li lj lk : Nat) : Prop := h.I (O.ixa + ixPos3 li lj lk) = .val (-1)

/-- the entry of `index_xyz_array`: NULL, or the index table -/
def IxAt3 (O : Opt2) (h : Heap α) (li lj lk : Nat) (e : EnvG) : Prop :=
  ixNull3 O h li lj lk ∨ ∃ b : Nat, h.I (O.ixa + ixPos3 li lj lk) = .val (b : Int) ∧
    ∀ m, m < 3 * e.nf → h.I (O.ixbuf + b + m) = .val (tblF e.nfi (g2eVal e) m)

theorem IxAt3.agree {O : Opt2} {h h' : Heap α} {li lj lk : Nat} {e : EnvG} (H : IxAt3 O h li lj lk e)
    {W' : Ptr → Prop} (hI : AgreeI h h' W') (hA : ∀ q, W' q → Avoids O q.buf) : IxAt3 O h' li lj lk e := by
  have e1 : h'.I (O.ixa + ixPos3 li lj lk) = h.I (O.ixa + ixPos3 li lj lk) :=
    hI _ (fun e => (hA _ e).2.2.2.2.1 rfl)
  rcases H with c | ⟨b, c, v⟩
  · exact Or.inl (e1.trans c)
  · refine Or.inr ⟨b, e1.trans c, fun m hm => ?_⟩
    rw [hI (O.ixbuf + b + m) (fun e => (hA _ e).2.2.2.2.2 rfl)]
    exact v m hm

theorem optIdx3_wp {O : Opt2} {h : Heap α} {fpd buf c o : Nat} {loc : Ptr} (hf : 0 < fpd)
    (hc : alignUp fpd c = fpd * o)
    (hix : IxAt3 O h s.si.l s.sj.l s.sk.l (s.env X))
    (hint : ixNull3 O h s.si.l s.sj.l s.sk.l → ∀ m, fpd * o ≤ m → m < fpd * (o + dblOf fpd ((s.env X).nf*3)) →
      h.I ⟨buf, m⟩ ≠ .oob)
    (hlocw : ∀ k, k < 12*136 → h.I (loc + k) ≠ .oob) (hlb : loc.buf ≠ buf)
    (hli : s.si.l ≤ 15) (hlj : s.sj.l ≤ 15) (hlk : s.sk.l ≤ 15) :
    wp (optIdx3 X s O fpd buf c loc) (fun ix h' =>
      (∀ m, m < 3 * (s.env X).nf → h'.I (ix.1 + m) = .val (tblF (s.env X).nfi (g2eVal (s.env X)) m)) ∧
      (ix.1.buf = buf ∨ ix.1.buf = O.ixbuf.buf) ∧
      (ixNull3 O h s.si.l s.sj.l s.sk.l → alignUp fpd ix.2 / fpd = o + dblOf fpd ((s.env X).nf*3)) ∧
      (¬ ixNull3 O h s.si.l s.sj.l s.sk.l → alignUp fpd ix.2 / fpd = o) ∧
      h'.D = h.D ∧ AgreeI h h' (fun q => (q.buf = buf ∧ fpd * o ≤ q.off) ∨ q.buf = loc.buf)) h := by
  let e := s.env X
  have hnf : e.nf = e.nfj * e.nfl * e.nfk * e.nfi := by
    show e.nfi * e.nfk * e.nfj = e.nfj * 1 * e.nfk * e.nfi; ring
  have hnfl : e.nfl = Spec.ncart e.l_l := ncart_zero.symm
  have dI : e.nf * 3 ≤ fpd * dblOf fpd (e.nf*3) := dblOf_mul hf _
  have hm : mallocI fpd buf c (e.nf*3) = (⟨buf, fpd*o⟩, fpd*o + e.nf*3) := by
    unfold mallocI
    rw [hc]
  unfold optIdx3
  rw [wp_mbind]
  rcases hix with hn | ⟨b, hb, hv⟩
  · refine (wp_ldI _ _ _).2 ⟨_, hn, ?_⟩
    rw [if_pos rfl]
    dsimp only
    rw [hm, wp_mbind]
    refine wp_mono (g2eIndex_wp (e := e) (idx := ⟨buf, fpd * o⟩) (loc := loc) hli hlj hlk (Nat.zero_le 15 : e.l_l ≤ 15)
      rfl rfl rfl hnfl ⟨?_, hlocw, ?_⟩) ?_
    · intro k hk
      refine hint hn _ (Nat.le_add_right _ _) ?_
      rw [← hnf] at hk
      rw [Nat.mul_add]
      show fpd*o + k < fpd*o + fpd * dblOf fpd (e.nf*3)
      omega
    · intro i j _ _ hh
      exact hlb (Ptr.ext_iff'.1 hh).1
    · rintro _ h4 ⟨v4, a4, d4⟩
      rw [← hnf] at v4 a4
      rw [wp_pure]
      refine ⟨v4, Or.inl rfl, fun _ => ?_, fun x => absurd hn x, d4, a4.mono ?_⟩
      · show alignUp fpd (fpd*o + e.nf*3) / fpd = _
        rw [alignUp_eq hf, Nat.mul_div_cancel_left _ hf]
      · rintro q (⟨k, _, rfl⟩ | hq)
        · exact Or.inl ⟨rfl, Nat.le_add_right _ _⟩
        · exact Or.inr (blk_buf hq)
  · refine (wp_ldI _ _ _).2 ⟨_, hb, ?_⟩
    rw [if_neg (by omega), wp_pure, Int.toNat_natCast]
    refine ⟨hv, Or.inr rfl, fun x => ?_, fun _ => ?_, rfl, AgreeI.refl _ _⟩
    · exfalso
      unfold ixNull3 at x
      rw [hb] at x
      injection x with x
      omega
    · show alignUp fpd c / fpd = o
      rw [hc, Nat.mul_div_cancel_left _ hf]

/-- the triples computed from the pair data `V` -/
def tripleV (R : Rys2 α) (K : Consts α) (L : MathLib α) (X : Int2e α) (s : Call3 α) (V : Nat → Nat → Nat → α) : Nest3 α :=
  s.tripleP X R K L (pairF s.si.nprim V) ⟨0,0⟩ ⟨0,0⟩

/-- the evaluator gives `w` for the primitives it keeps, when the pair data are `V` -/
def EvalOK3V (R : Rys2 α) (K : Consts α) (L : MathLib α) (X : Int2e α) (s : Call3 α) (V : Nat → Nat → Nat → α)
    (keep : Nat → Nat → Nat → Bool) (w : Nat → Nat → Nat → Nat → α) : Prop :=
  ∀ ip jp kp (rij : Nat → α) (g idx : Ptr) (T : Ptr → Option Int), ip < s.si.nprim → jp < s.sj.nprim → kp < s.sk.nprim →
    (∀ c, c < 3 → rij c = V ip jp c) →
    IdxT T idx (s.env X).nf (adr4 (s.env X) (i4 (s.env X)) (j4 (s.env X)) (l4 (s.env X)) (k4 (s.env X))) →
    KernelSpec T (fun fac => g0_2e R K (s.env X) { s.g3P rij ip jp kp with rk := fun _ => 0 }
        (s.cutoff X L - V ip jp 4) g fac)
      (fun _ gout em => X.gout (s.env X) (s.g3P rij ip jp kp) idx g gout em) (Blk g (s.leng X))
      ((s.env X).nf * X.nComp) (keep ip jp kp) (w ip jp kp)

/-- in particular with the pair data computed on the spot -/
theorem EvalOK3V.nopt {keep : Nat → Nat → Nat → Bool} {w : Nat → Nat → Nat → Nat → α}
    (H : EvalOK3V R K L X s (pairVal L (s.pairArgs X)) keep w) : EvalOK3 R K L X s keep w :=
  fun ip jp kp g idx T h1 h2 h3 hT => H ip jp kp (fun c => pairVal L (s.pairArgs X) ip jp c) g idx T h1 h2 h3 (fun _ _ => rfl) hT

/-- two families of triples with the same contributing primitives -/
theorem expected3_congr {Q Q' : Nest3 α} {keep keep' : Nat → Nat → Nat → Bool}
    {w w' : Nat → Nat → Nat → Nat → α} (h0 : Q.common = Q'.common)
    (h1 : Q.iPrim = Q'.iPrim ∧ Q.jPrim = Q'.jPrim ∧ Q.kPrim = Q'.kPrim)
    (h2 : Q.ci = Q'.ci ∧ Q.cj = Q'.cj ∧ Q.ck = Q'.ck) (h3 : Q.nComp = Q'.nComp)
    (h4 : ∀ ip jp kp m, ip < Q.iPrim → jp < Q.jPrim → kp < Q.kPrim →
      (if Q.skip ip jp kp = false ∧ keep ip jp kp = true then Q.eij ip jp kp * w ip jp kp m else 0) =
      (if Q'.skip ip jp kp = false ∧ keep' ip jp kp = true then Q'.eij ip jp kp * w' ip jp kp m else 0))
    (comp ic jc kc n : Nat) : expected3 Q keep w comp ic jc kc n = expected3 Q' keep' w' comp ic jc kc n := by
  unfold expected3 Spec.contract3
  obtain ⟨a1, a2, a3⟩ := h1
  obtain ⟨b1, b2, b3⟩ := h2
  rw [h0, ← a1, ← a2, ← a3, b1, b2, b3, ← h3]
  refine congrArg (Q'.common * ·) ?_
  refine Finset.sum_congr rfl fun kp hk => Finset.sum_congr rfl fun jp hj => Finset.sum_congr rfl fun ip hi => ?_
  exact congrArg _ (h4 ip jp kp _ (Finset.mem_range.1 hi) (Finset.mem_range.1 hj) (Finset.mem_range.1 hk))

theorem skipP {P : Nat → α} {V : Nat → Nat → Nat → α} (H : TabOK s P V) {idx g : Ptr} {ip jp kp : Nat}
    (hi : ip < s.si.nprim) (hj : jp < s.sj.nprim) :
    (s.tripleP X R K L P idx g).skip ip jp kp = (tripleV R K L X s V).skip ip jp kp := by
  have e : P (5*(jp*s.si.nprim+ip)+4) = pairF s.si.nprim V (5*(jp*s.si.nprim+ip)+4) :=
    (H ip jp 4 hi hj (by omega)).trans (pairF_eq hi (by omega)).symm
  show decide (P (5*(jp*s.si.nprim+ip)+4) > s.cutoff X L) =
    decide (pairF s.si.nprim V (5*(jp*s.si.nprim+ip)+4) > s.cutoff X L)
  simp only [e]

theorem expected3P {P : Nat → α} {V : Nat → Nat → Nat → α} (H : TabOK s P V) {idx g : Ptr}
    {keep : Nat → Nat → Nat → Bool} {w : Nat → Nat → Nat → Nat → α} (comp ic jc kc n : Nat) :
    expected3 (s.tripleP X R K L P idx g) keep w comp ic jc kc n = expected3 (tripleV R K L X s V) keep w comp ic jc kc n := by
  refine expected3_congr (Q := s.tripleP X R K L P idx g) (Q' := tripleV R K L X s V) ?_ ⟨?_, ?_, ?_⟩
    ⟨?_, ?_, ?_⟩ ?_ ?_ _ _ _ _ _
  any_goals rfl
  intro ip jp kp m hi hj hk
  rw [skipP H hi hj]
  have e1 : (s.tripleP X R K L P idx g).eij ip jp kp = (tripleV R K L X s V).eij ip jp kp :=
    (H ip jp 3 hi hj (by omega)).trans (pairF_eq hi (by omega)).symm
  rw [e1]

/-- the array of contracted integrals over three shells, element by element -/
theorem holds_ctrVal3 {h : Heap α} {p : Ptr} {V : Nat → Nat → Nat → Nat → Nat → α} {nf I J Kc nComp : Nat}
    (hI : 1 ≤ I) (hJ : 1 ≤ J) (hK : 1 ≤ Kc)
    (hv : ∀ comp ic jc kc n, comp < nComp → ic < I → jc < J → kc < Kc → n < nf →
      h.D (p + Spec.outIdx3 nf I J Kc comp ic jc kc n) = .val (V comp ic jc kc n)) :
    HoldsD h p (nf * (I*J*Kc) * nComp) (ctrVal (fun comp ic jc kc _ n => V comp ic jc kc n) nf I J Kc 1) := by
  have := holds_ctrVal (V := fun comp ic jc kc _ n => V comp ic jc kc n) (p := p) (h := h) (nComp := nComp) (nf := nf)
    hI hJ hK (le_refl 1) (by
      intro comp ic jc kc lc n a1 a2 a3 a4 a5 a6
      obtain rfl : lc = 0 := by omega
      have e : Spec.outIdx4 nf I J Kc 1 comp ic jc kc 0 n = Spec.outIdx3 nf I J Kc comp ic jc kc n := by
        unfold Spec.outIdx4 Spec.outIdx3
        rw [Nat.mul_one, Nat.zero_mul, Nat.zero_add]
      rw [e]
      exact hv comp ic jc kc n a1 a2 a3 a4 a6)
  rw [Nat.mul_one] at this
  exact this

/-- some primitive triple contributes -/
def anyV3 (R : Rys2 α) (K : Consts α) (L : MathLib α) (X : Int2e α) (s : Call3 α) (V : Nat → Nat → Nat → α)
    (keep : Nat → Nat → Nat → Bool) : Prop :=
  ∃ ip jp kp, ip < s.si.nprim ∧ jp < s.sj.nprim ∧ kp < s.sk.nprim ∧ (tripleV R K L X s V).skip ip jp kp = false ∧
    keep ip jp kp = true

theorem used_tripleP (P : Nat → α) (idx g : Ptr) : (s.tripleP X R K L P idx g).used = Call3.used X s :=
  used_triple (R := R) (K := K) (L := L) (X := X) (s := s) ⟨⟨0,0⟩,⟨0,0⟩,⟨0,0⟩,⟨0,0⟩,⟨0,0⟩⟩

theorem optLoops3_wp {O : Opt2} {h : Heap α} {i j fpd buf o0 og : Nat} {empty fl loc : Ptr} {P : Nat → α} {tk : Tbl}
    {V : Nat → Nat → Nat → α} {keep : Nat → Nat → Nat → Bool} {w : Nat → Nat → Nat → Nat → α}
    {ix : Ptr × Nat} (hP : TabOK s P V) (hK : EvalOK3V R K L X s V keep w)
    (ti : TabAt O h i s.si) (tj : TabAt O h j s.sj) (htk : TblIn h tk.ctr tk.idx s.sk.c s.sk.nprim s.sk.nctr)
    (hkb : tk.ctr.buf = buf ∧ tk.idx.buf = buf)
    (hix : ∀ m, m < 3 * (s.env X).nf → h.I (ix.1 + m) = .val (tblF (s.env X).nfi (g2eVal (s.env X)) m))
    (hixb : ix.1.buf ≠ empty.buf ∧ ix.1.buf ≠ fl.buf)
    (hg : alignUp fpd ix.2 / fpd = og) (hgD : ∀ q, q < s.leng X + Call3.used X s → h.D ⟨buf, og + q⟩ ≠ .oob)
    (hctr : o0 + (s.env X).nf * s.nctr * X.nComp ≤ og)
    (hctrD : ∀ q, q < (s.env X).nf * s.nctr * X.nComp → h.D ⟨buf, o0 + q⟩ ≠ .oob)
    (hflag : h.I empty = .val 1) (hflw : ∀ k, k < 4 → h.I (fl + k) ≠ .oob) (hefl : empty.buf ≠ fl.buf)
    (ebuf : empty.buf ≠ buf) (flbuf : fl.buf ≠ buf)
    (oem : Avoids O empty.buf) (ofl : Avoids O fl.buf)
    (hic : 1 ≤ s.si.nctr) (hjc : 1 ≤ s.sj.nctr) (hkc : 1 ≤ s.sk.nctr) (hnc : 1 ≤ X.nComp) :
    wp (optLoops3 X s R K L O i j P tk fpd ⟨buf, o0⟩ empty buf fl ix)
      (Post3 X s (expected3 (tripleV R K L X s V) keep w) (fun res => res = true ↔ anyV3 R K L X s V keep) buf o0 empty fl loc h)
      h := by
  obtain ⟨c1, s1, hc1, hs1, t1⟩ := ti
  obtain ⟨c2, s2, hc2, hs2, t2⟩ := tj
  unfold optLoops3
  rw [wp_mbind]; refine (wp_ldI _ _ _).2 ⟨_, hc1, ?_⟩
  rw [wp_mbind]; refine (wp_ldI _ _ _).2 ⟨_, hc2, ?_⟩
  rw [wp_mbind]; refine (wp_ldI _ _ _).2 ⟨_, hs1, ?_⟩
  rw [wp_mbind]; refine (wp_ldI _ _ _).2 ⟨_, hs2, ?_⟩
  dsimp only
  rw [hg]
  simp only [Int.toNat_natCast]
  let Q := s.tripleP X R K L P ix.1 ⟨buf, og⟩
  let M : MemN := ⟨⟨buf, o0⟩, empty, ⟨buf, og⟩, fl⟩
  let T := roAll h empty.buf fl.buf
  have hused : Q.used = Call3.used X s := used_tripleP P _ _
  obtain ⟨_, _, e3, e4, _, _⟩ := oem
  obtain ⟨_, _, f3, f4, _, _⟩ := ofl
  have hTv : ∀ m, m < 3 * (s.env X).nf → T (ix.1 + m) = some (tblF (s.env X).nfi (g2eVal (s.env X)) m) :=
    fun m hm => roAll_some hixb.1 hixb.2 (hix m hm)
  have S : Setup3 Q M ⟨O.cpool + c1, O.spool + s1⟩ ⟨O.cpool + c2, O.spool + s2⟩ tk T keep w Q.used false (fun _ => 0) h := by
    refine ⟨hic, hjc, hkc, hnc, tblRO_all t1 ⟨e3, f3⟩ ⟨e4, f4⟩, tblRO_all t2 ⟨e3, f3⟩ ⟨e4, f4⟩,
      tblRO_all htk (by rw [hkb.1]; exact ⟨ebuf.symm, flbuf.symm⟩) (by rw [hkb.2]; exact ⟨ebuf.symm, flbuf.symm⟩),
      roAll_ro, hflw, fun k _ => roAll_none (Or.inr rfl),
      roAll_none (Or.inl rfl), ?_, ?_, ?_, ?_, ?_⟩
    · intro k _ hh
      exact hefl (by rw [show empty = fl + k from hh]; rfl)
    · intro q hq
      rw [hused] at hq
      exact hgD q hq
    · intro a b ha hb hh
      have ha' : a < (s.env X).nf * s.nctr * X.nComp := ha
      have h2 : o0 + a = og + b := (Ptr.ext_iff'.1 hh).2
      omega
    · refine ⟨hflag, hctrD, fun hb => Bool.noConfusion hb, fun _ _ _ => rfl⟩
    · intro ip jp kp hip hjp hkp
      have := hK ip jp kp (fun c => P (5*(jp*s.si.nprim+ip)+c)) ⟨buf, og⟩ ix.1 T hip hjp hkp
        (fun c hc => hP ip jp c hip hjp (by omega)) (idxT_int3c2e rfl hTv)
      rw [← hP ip jp 4 hip hjp (by omega)] at this
      exact this
  have hfin := (wp_iff_run _ _ _).2 (C41_dispatch S)
  refine wp_mono hfin ?_
  rintro res h5 ⟨⟨hret, hfl, hv, hz⟩, hd, hi⟩
  refine ⟨hfl, ?_, ?_, ?_, ?_, ?_⟩
  · intro hr
    refine holds_ctrVal3 hic hjc hkc ?_
    intro comp ic jc kc n a1 a2 a3 a4 a6
    have := hv hr comp ic jc kc n a1 a2 a3 a4 a6
    rw [zero_add] at this
    exact this.trans (congrArg Cell.val (expected3P hP comp ic jc kc n))
  · intro hr comp ic jc kc n
    rw [← expected3P hP (idx := ix.1) (g := ⟨buf, og⟩)]
    exact hz hr comp ic jc kc n
  · refine hd.mono ?_
    rintro q (hq | hq) <;> exact blk_buf hq
  · refine hi.mono ?_
    rintro q (hq | hq)
    · exact Or.inr (Or.inl (by rw [hq]))
    · exact Or.inr (Or.inr (Or.inl (blk_buf hq)))
  · constructor
    · intro hr
      rcases hret.1 hr with hb | ⟨ip, jp, kp, a1, a2, a3, a4, a5⟩
      · exact absurd hb (by simp)
      · exact ⟨ip, jp, kp, a1, a2, a3, by rw [← skipP hP a1 a2 (idx := ix.1) (g := ⟨buf, og⟩)]; exact a4, a5⟩
    · rintro ⟨ip, jp, kp, a1, a2, a3, a4, a5⟩
      exact hret.2 (Or.inr ⟨ip, jp, kp, a1, a2, a3, by
        rw [← skipP hP a1 a2 (idx := ix.1) (g := ⟨buf, og⟩)] at a4; exact a4, a5⟩)

/-- where the cache of the loop continues after the pair data, and after the table of the third shell -/
def posTbl3O (O : Opt2) (s : Call3 α) (o : Nat) : Nat := o + if O.pair.isSome then 0 else 5*(s.si.nprim*s.sj.nprim)
def posIdx3O (O : Opt2) (s : Call3 α) (fpd o : Nat) : Nat := posTbl3O O s o + dblOf fpd (s.sk.nprim + s.sk.nprim*s.sk.nctr)

/-- the doubles of the cache used as FINTs -/
def intSlots3O (X : Int2e α) (s : Call3 α) (O : Opt2) (h : Heap α) (fpd o k : Nat) : Prop :=
  (posTbl3O O s o ≤ k ∧ k < posIdx3O O s fpd o) ∨
  (ixNull3 O h s.si.l s.sj.l s.sk.l ∧ posIdx3O O s fpd o ≤ k ∧ k < posIdx3O O s fpd o + dblOf fpd ((s.env X).nf * 3))

/-- Memory of the loop function -/
structure LoopMem3O (X : Int2e α) (s : Call3 α) (O : Opt2) (h : Heap α) (fpd buf size o0 o : Nat) (empty fl loc : Ptr) :
    Prop where
  fpd_pos : 0 < fpd
  cache : CacheMem h fpd buf size (intSlots3O X s O h fpd o)
  room : o + 5*(s.si.nprim*s.sj.nprim) + dblOf fpd (s.sk.nprim + s.sk.nprim*s.sk.nctr) + dblOf fpd ((s.env X).nf * 3) +
    (s.leng X + Call3.used X s) ≤ size
  ctr : o0 + (s.env X).nf * s.nctr * X.nComp ≤ o
  flag : h.I empty = .val 1
  flw : ∀ k, k < 4 → h.I (fl + k) ≠ .oob
  locw : ∀ k, k < 12*136 → h.I (loc + k) ≠ .oob
  ebuf : empty.buf ≠ buf
  efl : empty.buf ≠ fl.buf
  eloc : empty.buf ≠ loc.buf
  flbuf : fl.buf ≠ buf
  locbuf : loc.buf ≠ buf
  obuf : Avoids O buf
  oem : Avoids O empty.buf
  ofl : Avoids O fl.buf
  oloc : Avoids O loc.buf

/-- The optimizer's memory as far as a call with these shells uses it. -/
structure OptAt3 (L : MathLib α) (X : Int2e α) (s : Call3 α) (O : Opt2) (h : Heap α) (i j : Nat)
    (V : Nat → Nat → Nat → α) (E : Prop) : Prop where
  pairs : PairAt L X s O h i j V E
  ti : TabAt O h i s.si
  tj : TabAt O h j s.sj
  ix : IxAt3 O h s.si.l s.sj.l s.sk.l (s.env X)

/-- the optimizer's memory survives changes elsewhere -/
theorem OptAt3.agree {O : Opt2} {h h' : Heap α} {i j : Nat} {V : Nat → Nat → Nat → α} {E : Prop}
    (A : OptAt3 L X s O h i j V E) {W W' : Ptr → Prop} (hD : AgreeD h h' W) (hI : AgreeI h h' W')
    (h1 : ∀ q, W q → OptSep O q.buf) (h2 : ∀ q, W' q → OptSep O q.buf) : OptAt3 L X s O h' i j V E := by
  have hA : ∀ q, W' q → Avoids O q.buf := fun q hq => (h2 q hq).1
  refine ⟨?_, A.ti.agree hI hA, A.tj.agree hI hA, A.ix.agree hI hA⟩
  have := A.pairs
  unfold PairAt at this ⊢
  cases hO : O.pair with
  | none => rw [hO] at this; exact this
  | some tp =>
    obtain ⟨t, p⟩ := tp
    rw [hO] at this
    have a1 : ∀ q : Ptr, q.buf = t.buf → ¬ W' q := fun q hq hw => ((h2 q hw).2 t p hO).1 hq.symm
    have a2 : ∀ q : Ptr, q.buf = p.buf → ¬ W q := fun q hq hw => ((h1 q hw).2 t p hO).2 hq.symm
    exact PairCell.agree this hD hI a1 a2

/-- an empty pair has no exponential factor -/
def EmptyZero3 (s : Call3 α) (V : Nat → Nat → Nat → α) (E : Prop) : Prop :=
  E → ∀ ip jp, ip < s.si.nprim → jp < s.sj.nprim → V ip jp 3 = 0

theorem expected3_emptyV {V : Nat → Nat → Nat → α} {E : Prop} (hz : EmptyZero3 s V E) (hE : E)
    {keep : Nat → Nat → Nat → Bool} {w : Nat → Nat → Nat → Nat → α} (comp ic jc kc n : Nat) :
    expected3 (tripleV R K L X s V) keep w comp ic jc kc n = 0 := by
  unfold expected3 Spec.contract3
  rw [Finset.sum_eq_zero, mul_zero]
  intro kp hkp
  refine Finset.sum_eq_zero (fun jp hjp => Finset.sum_eq_zero (fun ip hip => ?_))
  have hip' := Finset.mem_range.1 hip
  have hjp' := Finset.mem_range.1 hjp
  have e1 : (tripleV R K L X s V).eij ip jp kp = V ip jp 3 := pairF_eq hip' (by omega)
  dsimp only
  rw [e1, hz hE ip jp hip' hjp']
  simp

/-- what the loop says about the contributions when it returns `has` -/
def RetO3 (R : Rys2 α) (K : Consts α) (L : MathLib α) (X : Int2e α) (s : Call3 α) (O : Opt2) (i j : Nat)
    (V : Nat → Nat → Nat → α) (E : Prop) (keep : Nat → Nat → Nat → Bool) (St : Prop) (has : Bool) : Prop :=
  (has = true → anyV3 R K L X s V keep) ∧ (anyV3 R K L X s V keep → has = true ∨ E) ∧
    (E → has = true → O.pair.isSome ∧ i = 0 ∧ j = 0) ∧ (has = true ↔ anyV3 R K L X s V keep ∧ ¬ St)

theorem loop3c2eOpt_wp {O : Opt2} {h : Heap α} {i j fpd buf size o0 o : Nat} {empty fl loc : Ptr}
    {V : Nat → Nat → Nat → α} {E : Prop} {keep : Nat → Nat → Nat → Bool}
    {w : Nat → Nat → Nat → Nat → α} (M : LoopMem3O X s O h fpd buf size o0 o empty fl loc)
    (A : OptAt3 L X s O h i j V E) (hz : EmptyZero3 s V E) (hK : EvalOK3V R K L X s V keep w)
    (hic : 1 ≤ s.si.nctr) (hjc : 1 ≤ s.sj.nctr) (hkc : 1 ≤ s.sk.nctr) (hnc : 1 ≤ X.nComp)
    (hli : s.si.l ≤ 15) (hlj : s.sj.l ≤ 15) (hlk : s.sk.l ≤ 15) :
    wp (loop3c2eOpt X s R K L O i j fpd ⟨buf, o0⟩ empty buf (fpd*o) fl loc)
      (Post3 X s (expected3 (tripleV R K L X s V) keep w) (RetO3 R K L X s O i j V E keep (Stops3 L X s O h i j))
        buf o0 empty fl loc h) h := by
  have hf := M.fpd_pos
  let np := 5*(s.si.nprim*s.sj.nprim)
  let nT := dblOf fpd (s.sk.nprim + s.sk.nprim*s.sk.nctr)
  let nI := dblOf fpd ((s.env X).nf * 3)
  let ot := posTbl3O O s o
  have hot : ot = o + if O.pair.isSome then 0 else np := rfl
  have hopl : o ≤ ot ∧ ot ≤ o + np := by rw [hot]; split <;> omega
  have hop : posIdx3O O s fpd o = ot + nT := rfl
  have hroom : o + np + nT + nI + (s.leng X + Call3.used X s) ≤ size := M.room
  have dT : s.sk.nprim + s.sk.nprim*s.sk.nctr ≤ fpd * nT := dblOf_mul hf _
  have hctr := M.ctr
  unfold loop3c2eOpt
  dsimp only
  rw [mallocD_eq hf]
  dsimp only
  rw [wp_mbind]
  have hpd : O.pair = none → ∀ q, q < np → h.D ((⟨buf, o⟩ : Ptr) + q) ≠ .oob := by
    intro hn q hq
    refine M.cache.dbl (o+q) (by omega) ?_
    have h2 : ot = o + np := by rw [hot, hn]; rfl
    rintro (⟨h3, _⟩ | ⟨_, h3, _⟩)
    · have : ot ≤ o + q := h3
      omega
    · rw [hop] at h3
      omega
  have W1 : wp (optPair X s L O i j ⟨buf, o⟩) (fun r h' =>
      (r = none → E) ∧ (∀ P, r = some P → TabOK s P V ∧ (E → O.pair.isSome ∧ i = 0 ∧ j = 0)) ∧
      AgreeD h h' (fun q => q.buf = buf) ∧ h'.I = h.I ∧ (r = none ↔ Stops3 L X s O h i j)) h := by
    refine wp_mono (optPair_wp A.pairs hpd) ?_
    rintro r h' ⟨a, b, c, d⟩
    exact ⟨a, b, c.mono (fun q hq => blk_buf hq), d⟩
  refine wp_mono (wp_allocMono W1) ?_
  rintro r h1 ⟨⟨hnone, hsome, aD1, hI1, hst⟩, m1⟩
  cases r with
  | none =>
    dsimp only
    rw [wp_pure]
    exact ⟨by rw [hI1]; exact M.flag, fun x => Bool.noConfusion x, fun _ => expected3_emptyV hz (hnone rfl), aD1,
      AgreeI.of_eq hI1 _, fun x => Bool.noConfusion x, fun _ => Or.inr (hnone rfl), fun _ x => Bool.noConfusion x,
      iff_of_false (fun x => Bool.noConfusion x) (fun x => x.2 (hst.1 rfl))⟩
  | some P =>
    obtain ⟨hP, hEP⟩ := hsome P rfl
    dsimp only
    have hcur : (if O.pair.isSome then fpd*o else fpd*(o + np)) = fpd*ot := by
      rw [hot]; split <;> simp
    rw [hcur, mallocI_eq hf]
    dsimp only
    have slotI : ∀ m, fpd * ot ≤ m → m < fpd * (ot + nT) → h.I ⟨buf, m⟩ ≠ .oob := by
      intro m h1 h2
      refine M.cache.int m (lt_of_lt_of_le h2 (Nat.mul_le_mul_left _ (by omega))) (Or.inl ⟨?_, ?_⟩)
      · exact (Nat.le_div_iff_mul_le hf).2 (by rw [Nat.mul_comm]; exact h1)
      · exact (Nat.div_lt_iff_lt_mul hf).2 (by rw [Nat.mul_comm]; exact h2)
    rw [wp_mbind]
    let tb : Ptr := ⟨buf, fpd*ot⟩
    have TW := non0coeff_blk (base := tb) (size := s.sk.nprim + s.sk.nprim*s.sk.nctr) (oc := 0) (oi := s.sk.nprim) (c := s.sk.c)
      (prim := s.sk.nprim) (ctr := s.sk.nctr) (h := h1) (by
        intro k hk
        refine m1.I _ (slotI (fpd*ot + k) (Nat.le_add_right _ _) ?_)
        rw [Nat.mul_add]; omega) (by omega) (by omega)
    refine wp_mono (wp_allocMono TW) ?_
    rintro _ h2 ⟨⟨t2, a2, d2, _⟩, m2⟩
    have m12 := m1.trans m2
    have aI2 : AgreeI h h2 (fun q => q.buf = buf) := by
      intro q hq
      rw [a2 q (by rintro ⟨k, rfl, _⟩; exact hq rfl), hI1]
    rw [wp_mbind]
    have hix2 : IxAt3 O h2 s.si.l s.sj.l s.sk.l (s.env X) := A.ix.agree aI2 (by rintro q hq; rw [hq]; exact M.obuf)
    have hnull : ixNull3 O h2 s.si.l s.sj.l s.sk.l ↔ ixNull3 O h s.si.l s.sj.l s.sk.l := by
      unfold ixNull3; rw [aI2 (O.ixa + ixPos3 s.si.l s.sj.l s.sk.l) M.obuf.2.2.2.2.1]
    refine wp_mono (wp_allocMono (optIdx3_wp (o := ot + nT) hf (alignUp_eq hf _ _) hix2 ?_
      (fun q hq => m12.I _ (M.locw q hq)) M.locbuf hli hlj hlk)) ?_
    · intro hn m hm1 hm2
      refine m12.I _ (M.cache.int m ?_ (Or.inr ⟨hnull.1 hn, ?_, ?_⟩))
      · exact lt_of_lt_of_le hm2 (Nat.mul_le_mul_left _ (by omega))
      · exact (Nat.le_div_iff_mul_le hf).2 (by rw [Nat.mul_comm]; exact hm1)
      · exact (Nat.div_lt_iff_lt_mul hf).2 (by rw [Nat.mul_comm]; exact hm2)
    rintro ix h3 ⟨⟨v3, b3, g1, g2, d3, a3⟩, m3⟩
    have m13 := m12.trans m3
    have aI3 : AgreeI h h3 (fun q => q.buf = buf ∨ q.buf = loc.buf) := by
      intro q hq
      rw [not_or] at hq
      rw [a3 q (by rintro (⟨e, _⟩ | e); exacts [hq.1 e, hq.2 e]), aI2 q hq.1]
    have hA3 : ∀ q : Ptr, (q.buf = buf ∨ q.buf = loc.buf) → Avoids O q.buf := by
      rintro q (e | e) <;> rw [e]
      exacts [M.obuf, M.oloc]
    obtain ⟨og, hog⟩ : ∃ og, og = alignUp fpd ix.2 / fpd := ⟨_, rfl⟩
    have hog1 : ot + nT ≤ og ∧ og ≤ ot + nT + nI := by
      rw [hog]
      by_cases hn : ixNull3 O h2 s.si.l s.sj.l s.sk.l
      · rw [g1 hn]; exact ⟨Nat.le_add_right _ _, le_refl _⟩
      · rw [g2 hn]; exact ⟨le_refl _, Nat.le_add_right _ _⟩
    have hogD : ∀ q, q < s.leng X + Call3.used X s → h.D ⟨buf, og + q⟩ ≠ .oob := by
      intro q hq
      refine M.cache.dbl (og+q) (by omega) ?_
      rintro (⟨_, h3⟩ | ⟨hn, _, h3⟩)
      · rw [hop] at h3; omega
      · have h3' : og + q < ot + nT + nI := h3
        have : og = ot + nT + nI := by rw [hog, g1 (hnull.2 hn)]
        omega
    have t3 : TblIn h3 (tb + 0) (tb + s.sk.nprim) s.sk.c s.sk.nprim s.sk.nctr := by
      refine t2.agree a3 ?_ ?_
      · rintro q hq (⟨_, e⟩ | e)
        · have e' : fpd * (ot + nT) ≤ fpd * ot + s.sk.nprim + q := e
          rw [Nat.mul_add] at e'
          omega
        · exact M.locbuf (Eq.symm e)
      · rintro q hq (⟨_, e⟩ | e)
        · have e' : fpd * (ot + nT) ≤ fpd * ot + 0 + q := e
          rw [Nat.mul_add] at e'
          omega
        · exact M.locbuf (Eq.symm e)
    have W := optLoops3_wp (R := R) (K := K) (fpd := fpd) (buf := buf) (o0 := o0) (og := og) (empty := empty) (fl := fl)
      (loc := loc) (ix := ix) (tk := ⟨tb + 0, tb + s.sk.nprim⟩)
      hP hK (A.ti.agree aI3 hA3) (A.tj.agree aI3 hA3) t3 ⟨rfl, rfl⟩ v3
      (by
        rcases b3 with e | e
        · rw [e]; exact ⟨M.ebuf.symm, M.flbuf.symm⟩
        · rw [e]; exact ⟨M.oem.2.2.2.2.2, M.ofl.2.2.2.2.2⟩)
      hog.symm (fun q hq => m13.D _ (hogD q hq)) (by omega)
      (fun q hq => m13.D _ (M.cache.dbl (o0+q) (by omega) (by
        rintro (⟨h2, _⟩ | ⟨_, h2, _⟩)
        · have h2' : ot ≤ o0 + q := h2
          omega
        · rw [hop] at h2
          omega)))
      (by
        rw [aI3 empty (by rintro (e | e); exacts [M.ebuf e, M.eloc e])]
        exact M.flag)
      (fun q hq => m13.I _ (M.flw q hq)) M.efl M.ebuf M.flbuf M.oem M.ofl hic hjc hkc hnc
    refine wp_mono W ?_
    rintro res h4 ⟨p1, p2, p3, p4, p5, p6⟩
    refine ⟨p1, p2, p3, ?_, ?_, p6.1, fun x => Or.inl (p6.2 x), fun hE _ => hEP hE,
      fun x => ⟨p6.1 x, fun y => nomatch hst.2 y⟩, fun x => p6.2 x.1⟩
    · intro q hq
      rw [p4 q hq, d3, d2, aD1 q hq]
    · refine aI3.trans p5 ?_ (fun _ => id)
      rintro q (e | e)
      exacts [Or.inl e, Or.inr (Or.inr (Or.inr e))]

theorem used3O_le_cacheSize (X : Int2e α) (s : Call3 α) {fpd : Nat} (hf : 0 < fpd)
    (hj : 1 ≤ s.sj.nctr) (hk : 1 ≤ s.sk.nctr) :
    (s.env X).nf * s.nctr * X.nComp + 5*(s.si.nprim*s.sj.nprim) + dblOf fpd (s.sk.nprim + s.sk.nprim*s.sk.nctr) +
      dblOf fpd ((s.env X).nf * 3) + (s.leng X + Call3.used X s) ≤ cacheSize3c2e X s := by
  have h := used3_le_cacheSize X s hf hj hk
  unfold posG3 posTbl3 posIdx3 at h
  have hncE : (s.env X).nf * s.si.nctr * s.sj.nctr * s.sk.nctr = (s.env X).nf * s.nctr := by
    unfold Call3.nctr; ring
  rw [hncE] at h
  have hm : dblOf fpd (s.sk.nprim + s.sk.nprim*s.sk.nctr) ≤ dblOf fpd s.tblLen := by
    unfold dblOf
    refine Nat.div_le_div_right ?_
    unfold Call3.tblLen
    omega
  omega

/-- the loop function as called by the driver -/
theorem drv3c2e_opt {O : Opt2} {h : Heap α} {i j fpd buf size : Nat} {empty fl loc counts : Ptr}
    {V : Nat → Nat → Nat → α} {E : Prop} {keep : Nat → Nat → Nat → Bool} {w : Nat → Nat → Nat → Nat → α}
    (M : CallMem3 h fpd buf size empty fl loc counts) (hsize : cacheSize3c2e X s ≤ size) (S : OptArg O buf empty fl loc)
    (A : OptAt3 L X s O h i j V E) (hz : EmptyZero3 s V E)
    (hp : ∀ t, t < 4 → 0 < Call3.nctrs s t) (hK : EvalOK3V R K L X s V keep w) (hnc : 1 ≤ X.nComp)
    (hl : ∀ t, t < 4 → Call3.ls s t ≤ 15) :
    wp (loop3c2eOpt X s R K L O i j fpd ⟨buf, 0⟩ empty buf (fpd * ((s.env X).nf * s.nctr * X.nComp)) fl loc)
      (Post3 X s (expected3 (tripleV R K L X s V) keep w) (RetO3 R K L X s O i j V E keep (Stops3 L X s O h i j))
        buf 0 empty fl loc (h.setI empty 1))
      (h.setI empty 1) := by
  have hf := M.fpd_pos
  have hic : 1 ≤ s.si.nctr := hp 0 (by omega)
  have hjc : 1 ≤ s.sj.nctr := hp 1 (by omega)
  have hkc : 1 ≤ s.sk.nctr := hp 2 (by omega)
  have am0 := allocMono_setI (h := h) (q := empty) (x := 1)
  have A0 : OptAt3 L X s O (h.setI empty 1) i j V E := by
    refine A.agree (W := fun _ => False) (W' := fun q => q = empty) (fun q _ => rfl) (fun q hq => Heap.setI_I_ne _ _ hq)
      (fun q x => x.elim) ?_
    rintro q rfl
    exact S.sem
  have LM : LoopMem3O X s O (h.setI empty 1) fpd buf size 0 ((s.env X).nf * s.nctr * X.nComp) empty fl loc := by
    refine ⟨hf, ⟨fun k hk _ => M.dbl k hk, fun m hm _ => am0.I _ (M.int m hm)⟩, ?_, by omega, Heap.setI_I_self _ _ _,
      fun k hk => am0.I _ (M.flw k hk), fun k hk => am0.I _ (M.locw k hk), M.ebuf, M.efl, M.eloc, M.flbuf, M.locbuf,
      S.sbuf.1, S.sem.1, S.sfl.1, S.sloc.1⟩
    exact le_trans (used3O_le_cacheSize X s hf hjc hkc) hsize
  have hst : Stops3 L X s O (h.setI empty 1) i j = Stops3 L X s O h i j :=
    propext (Stops3.congr fun t p hO q hq => Heap.setI_I_ne _ _ (fun e => (S.sem.2 t p hO).1 (by rw [← e]; exact hq.symm)))
  rw [← hst]
  exact loop3c2eOpt_wp LM A0 hz hK hic hjc hkc hnc (hl 0 (by omega)) (hl 1 (by omega)) (hl 2 (by omega))

/-! ### the constructor -/

/-- what CINTall_3c2e_optimizer leaves in memory -/
structure OptOK3 (L : MathLib α) (X : Int2e α) (B : Nat → PShell α) (nbas : Nat) (envCut omega : α) (O : Opt2)
    (h : Heap α) : Prop where
  n : O.nbas = nbas
  pairs : ∀ t p, O.pair = some (t, p) → ∀ a b, a < nbas → b < nbas →
    PairCell h t p nbas a b (B a).nprim (B b).nprim
      (pairTblVal L B (ijklInc X.ng.i X.ng.j X.ng.k X.ng.l) (setijCutoff envCut) omega a b)
      (pairTblEmpty L B (ijklInc X.ng.i X.ng.j X.ng.k X.ng.l) (setijCutoff envCut) omega a b)
  none : O.pair = none ↔ 2048 < totPrim B nbas
  tab : ∀ x, x < nbas → TabAt O h x (B x)
  ix : ∀ i j k, i < nbas → j < nbas → k < nbas → IxAt3 O h (B i).l (B j).l (B k).l
    (initInt3c2e (B i).l (B j).l (B k).l X.ng (decide (omega < 0)))

theorem OptOK3.agree {B : Nat → PShell α} {nbas : Nat} {envCut omega : α} {O : Opt2}
    {h h' : Heap α} (A : OptOK3 L X B nbas envCut omega O h) {W W' : Ptr → Prop} (hD : AgreeD h h' W) (hI : AgreeI h h' W')
    (h1 : ∀ q, W q → OptSep O q.buf) (h2 : ∀ q, W' q → OptSep O q.buf) : OptOK3 L X B nbas envCut omega O h' := by
  have hA : ∀ q, W' q → Avoids O q.buf := fun q hq => (h2 q hq).1
  refine ⟨A.n, ?_, A.none, fun x hx => (A.tab x hx).agree hI hA, fun i j k a b c => (A.ix i j k a b c).agree hI hA⟩
  intro t p hO a b ha hb
  exact (A.pairs t p hO a b ha hb).agree hD hI (fun q hq hw => ((h2 q hw).2 t p hO).1 hq.symm)
    (fun q hq hw => ((h1 q hw).2 t p hO).2 hq.symm)

/-- the memory handed out by malloc in the constructor -/
structure OptMem3 (B : Nat → PShell α) (nbas : Nat) (P : OptPtrs) (loc : Ptr) (h : Heap α) : Prop where
  ptab : ∀ q, q < nbas*nbas → h.I (P.ptab + q) ≠ .oob
  ppool : AllocD h P.ppool (5*(totPrim B nbas*totPrim B nbas))
  ctab : ∀ q, q < nbas → h.I (P.ctab + q) ≠ .oob
  stab : ∀ q, q < nbas → h.I (P.stab + q) ≠ .oob
  cpool : ∀ q, q < totPrim B nbas → h.I (P.cpool + q) ≠ .oob
  spool : ∀ q, q < totCoef B nbas → h.I (P.spool + q) ≠ .oob
  ixa : ∀ q, q < (maxAng B nbas + 1)*16*16 → h.I (P.ixa + q) ≠ .oob
  ixbuf : ∀ q, q < 3 * (cumCart (min (maxAng B nbas) 12 + 1))^3 → h.I (P.ixbuf + q) ≠ .oob
  locw : ∀ q, q < 12*136 → h.I (loc + q) ≠ .oob
  distinct : [P.ptab.buf, P.ctab.buf, P.stab.buf, P.cpool.buf, P.spool.buf, P.ixa.buf, P.ixbuf.buf, loc.buf].Nodup

variable {B : Nat → PShell α} {nbas : Nat} {envCut omega : α} {P : OptPtrs} {loc : Ptr}

theorem nf_init3 (i j k : Nat) (ng : Inc) (sr : Bool) : (initInt3c2e i j k ng sr).nf = ncart i * ncart j * ncart k := by
  show lenCart i * lenCart k * lenCart j = _
  simp only [lenCart_eq]
  ring

theorem optimizer3c2e_wp {h : Heap α} (M : OptMem3 B nbas P loc h) (ht : 0 < totPrim B nbas)
    (hl : ∀ i, i < nbas → (B i).l ≤ 15) :
    wp (optimizer3c2e X L B nbas envCut omega P loc) (fun O h' => OptOK3 L X B nbas envCut omega O h' ∧
      AgreeD h h' (fun q => q.buf = P.ppool.buf) ∧ AgreeI h h' (OptBufI P loc) ∧
      O = ⟨nbas, O.pair, P.ctab, P.cpool, P.stab, P.spool, P.ixa, P.ixbuf⟩ ∧
      (O.pair = none ∨ O.pair = some (P.ptab, P.ppool))) h := by
  have hN := M.distinct
  have hn : 0 < nbas := by
    rcases Nat.eq_zero_or_pos nbas with e | e
    · subst e; exact absurd ht (by simp [totPrim])
    · exact e
  have hm15 : maxAng B nbas ≤ 15 := maxAng_le B hl
  let inc := ijklInc X.ng.i X.ng.j X.ng.k X.ng.l
  unfold optimizer3c2e
  rw [wp_mbind]
  have S1 : wp (setij L B nbas inc (setijCutoff envCut) omega P.ptab P.ppool) (fun has h' =>
      (has = true → ∃ c, SetijInv L B nbas inc (setijCutoff envCut) omega P.ptab P.ppool (totPrim B nbas) h h' c (fun _ _ => True)) ∧
      (has = false ↔ 2048 < totPrim B nbas) ∧ AgreeD h h' (fun q => q.buf = P.ppool.buf) ∧
      AgreeI h h' (fun q => q.buf = P.ptab.buf) ∧ AllocMono h h') h := by
    unfold setij
    by_cases hb : totPrim B nbas = 0 ∨ totPrim B nbas > 2048
    · rw [if_pos hb, wp_pure]
      exact ⟨fun e => (nomatch e), ⟨fun _ => by omega, fun _ => rfl⟩, AgreeD.refl _ _, AgreeI.refl _ _, ⟨fun _ => id, fun _ => id⟩⟩
    · rw [if_neg hb, wp_mbind]
      refine wp_mono (setijLoop_wp hn M.ppool M.ptab) ?_
      rintro _ h' ⟨c, hc, H⟩
      rw [wp_pure]
      refine ⟨fun _ => ⟨c, H⟩, ⟨fun e => (nomatch e), fun e => absurd e (by omega)⟩, H.frameD.mono ?_, H.frameI.mono ?_, H.mono⟩
      · intro q hq; exact blk_buf hq
      · intro q hq; exact blk_buf hq
  simp only [List.nodup_cons, List.mem_cons, List.not_mem_nil, or_false, not_or, List.nodup_nil, and_true] at hN
  obtain ⟨⟨p1, p2, p3, p4, p5, p6, p7⟩, ⟨c1, c2, c3, c4, c5, c6⟩, ⟨s1, s2, s3, s4, s5⟩, ⟨k1, k2, k3, k4⟩, ⟨o1, o2, o3⟩,
    ⟨x1, x2⟩, y1, -⟩ := hN
  refine wp_mono S1 ?_
  rintro has h1 ⟨hs, hnone, aD1, aI1, m1⟩
  rw [wp_mbind]
  refine wp_mono (wp_allocMono (setNon0coeff_wp ht ?_ (fun q hq => m1.I _ (M.ctab q hq)) (fun q hq => m1.I _ (M.stab q hq))
    (fun q hq => m1.I _ (M.cpool q hq)) (fun q hq => m1.I _ (M.spool q hq)))) ?_
  · simp only [List.nodup_cons, List.mem_cons, List.not_mem_nil, or_false, not_or, List.nodup_nil, and_true]
    exact ⟨⟨c1, c2, c3⟩, ⟨s1, s2⟩, k1, not_false⟩
  rintro _ h2 ⟨⟨T, dD2, aI2⟩, m2⟩
  have m12 := m1.trans m2
  rw [wp_mbind]
  let e3 := fun (p : Nat × Nat × Nat) => initInt3c2e p.1 p.2.1 p.2.2 X.ng (decide (omega < 0))
  refine wp_mono (genIdx3_wp (F := fun p => tblF (e3 p).nfi (g2eVal (e3 p))) hm15
    (fun i j k => nf_init3 i j k _ _) ?_ ?_ (fun q hq => m12.I _ (M.ixa q hq)) (fun q hq => m12.I _ (M.ixbuf q hq))
    (fun q hq => m12.I _ (M.locw q hq))) ?_
  · rintro ⟨i, j, k⟩ p g hok Mx
    have h1 : i ≤ 15 := by have : i ≤ min (maxAng B nbas) 12 := hok.1; omega
    have h2 : j ≤ 15 := by have : j ≤ min (maxAng B nbas) 12 := hok.2.1; omega
    have h3 : k ≤ 15 := by have : k ≤ min (maxAng B nbas) 12 := hok.2.2; omega
    let e := initInt3c2e i j k X.ng (decide (omega < 0))
    have eN : 3 * (e.nfj * e.nfl * e.nfk * e.nfi) = 3 * (ncart i * ncart j * ncart k) := by
      show 3 * (lenCart j * 1 * lenCart k * lenCart i) = _
      simp only [lenCart_eq]; ring
    have := g2eIndex_wp (h := g) (idx := p) (loc := loc) (e := e) h1 h2 h3 (Nat.zero_le 15 : e.l_l ≤ 15) rfl rfl rfl
      ncart_zero.symm (by rw [eN]; exact Mx)
    rw [eN] at this
    exact this
  · simp only [List.nodup_cons, List.mem_cons, List.not_mem_nil, or_false, not_or, List.nodup_nil, and_true]
    exact ⟨⟨x1, x2⟩, y1, not_false⟩
  rintro _ h3 ⟨c, I⟩
  rw [wp_pure]
  have aI2' : AgreeI h1 h2 (fun q => q.buf = P.ctab.buf ∨ q.buf = P.stab.buf ∨ q.buf = P.cpool.buf ∨ q.buf = P.spool.buf) := by
    refine aI2.mono ?_
    rintro q (e | e | e | e)
    · exact Or.inl (blk_buf e)
    · exact Or.inr (Or.inl (blk_buf e))
    · exact Or.inr (Or.inr (Or.inl (blk_buf e)))
    · exact Or.inr (Or.inr (Or.inr (blk_buf e)))
  have aI3 : AgreeI h2 h3 (fun q => q.buf = P.ixa.buf ∨ q.buf = P.ixbuf.buf ∨ q.buf = loc.buf) := by
    refine I.frame.mono ?_
    rintro q (e | e | e)
    · exact Or.inl (blk_buf e)
    · exact Or.inr (Or.inl (blk_buf e))
    · exact Or.inr (Or.inr (blk_buf e))
  have aD3 : h3.D = h1.D := by rw [I.dbl, dD2]
  refine ⟨⟨rfl, ?_, ?_, ?_, ?_⟩, ?_, ?_, rfl, ?_⟩
  · intro t p hO a b ha hb
    dsimp only at hO
    cases has with
    | false => cases hO
    | true =>
      obtain ⟨rfl, rfl⟩ : P.ptab = t ∧ P.ppool = p := by
        have := Option.some.inj (show some (P.ptab, P.ppool) = some (t, p) from hO)
        exact ⟨congrArg Prod.fst this, congrArg Prod.snd this⟩
      obtain ⟨cc, H⟩ := hs rfl
      have E : PairCell h1 P.ptab P.ppool nbas a b (B a).nprim (B b).nprim
          (pairTblVal L B inc (setijCutoff envCut) omega a b) (pairTblEmpty L B inc (setijCutoff envCut) omega a b) := by
        rcases H.ent a b ha hb True.intro with ⟨e1, e2, _⟩ | ⟨o, e1, _, e3, e4⟩
        · exact Or.inl ⟨e1, e2⟩
        · exact Or.inr ⟨o, e1, e3, fun hE => e4.resolve_left (fun hn => hn hE)⟩
      refine E.agree (W := fun _ => False) (W' := fun q => q.buf ≠ P.ptab.buf) ?_ ?_ (fun q hq hw => hw hq) (fun q _ hw => hw)
      · intro q _; rw [aD3]
      · intro q hq
        have hq' : q.buf = P.ptab.buf := by by_contra hne; exact hq hne
        rw [aI3 q (by simp only [hq', not_or]; exact ⟨p5, p6, p7⟩), aI2' q (by simp only [hq', not_or]; exact ⟨p1, p2, p3, p4⟩)]
  · show (if has = true then some (P.ptab, P.ppool) else none) = none ↔ _
    rw [← hnone]
    cases has <;> simp
  · intro x hx
    refine ⟨totPrim B x, totCoef B x, ?_, ?_, (T.tbl x hx).agree aI3 ?_ ?_⟩
    · show h3.I (P.ctab + x) = _
      rw [aI3 (P.ctab + x) (by simp only [not_or]; exact ⟨c4, c5, c6⟩)]; exact T.c x hx
    · show h3.I (P.stab + x) = _
      rw [aI3 (P.stab + x) (by simp only [not_or]; exact ⟨s3, s4, s5⟩)]; exact T.s x hx
    · intro q _
      simp only [not_or]; exact ⟨o1, o2, o3⟩
    · intro q _
      simp only [not_or]; exact ⟨k2, k3, k4⟩
  · intro i j k hi hj hk
    have hli : (B i).l ≤ maxAng B nbas := le_maxAng B hi
    have hlj := hl j hj
    have hlk := hl k hk
    by_cases hla : (B i).l ≤ min (maxAng B nbas) 12 ∧ (B j).l ≤ min (maxAng B nbas) 12 ∧ (B k).l ≤ min (maxAng B nbas) 12
    · obtain ⟨b, d1, _, d3⟩ := I.done ((B i).l, (B j).l, (B k).l) True.intro hla
      refine Or.inr ⟨b, d1, fun m hm => d3 m ?_⟩
      rw [nf_init3] at hm
      exact hm
    · refine Or.inl (I.null (ixPos3 (B i).l (B j).l (B k).l) ?_ ?_ ?_)
      · unfold ixPos3
        omega
      · show ixPos3 (B i).l (B j).l (B k).l < (maxAng B nbas + 1)*16*16
        unfold ixPos3
        omega
      · rintro ⟨a, b, c⟩ ⟨q1, q2, q3⟩ he
        have he' : a*16*16 + b*16 + c = (B i).l*16*16 + (B j).l*16 + (B k).l := he
        dsimp only at q1 q2 q3
        omega
  · intro q hq; rw [aD3]; exact aD1 q hq
  · intro q hq
    unfold OptBufI at hq
    simp only [List.mem_cons, List.not_mem_nil, or_false, not_or] at hq
    rw [aI3 q (by simp only [not_or]; tauto), aI2' q (by simp only [not_or]; tauto), aI1 q hq.1]
  · show (if has = true then some (P.ptab, P.ppool) else none) = none ∨ (if has = true then some (P.ptab, P.ppool) else none) = _
    cases has <;> simp

end Verif.Lemmas
