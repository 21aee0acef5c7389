import Verif.Model.Int2eOpt
import Verif.Lemmas.OutGen

/-! CINT2e_drv with an optimizer. -/
namespace Verif.Lemmas
open Verif Verif.Model Verif.Prog Verif.Props Verif.Spec

variable {α : Type}

theorem readBlk_wp [Zero α] {p : Ptr} {F : Nat → α} {h : Heap α} :
    ∀ {n : Nat}, (∀ k, k < n → h.D (p + k) = .val (F k)) →
    wp (readBlk p n) (fun f h' => h' = h ∧ ∀ k, k < n → f k = F k) h
  | 0, _ => by
    unfold readBlk
    rw [wp_pure]
    exact ⟨rfl, fun k hk => absurd hk (by omega)⟩
  | n+1, H => by
    unfold readBlk
    rw [wp_mbind]
    refine wp_mono (readBlk_wp (fun k hk => H k (by omega))) ?_
    rintro f h' ⟨rfl, hf⟩
    rw [wp_mbind]
    refine (wp_ld _ _ _).2 ⟨_, H n (by omega), ?_⟩
    rw [wp_pure]
    refine ⟨rfl, fun k hk => ?_⟩
    show (if k = n then F n else f k) = F k
    by_cases e : k = n
    · rw [if_pos e, e]
    · rw [if_neg e, hf k (by omega)]

variable [Field α] [LinearOrder α]

theorem PairBlk.flat {h : Heap α} {pd : Ptr} {I J : Nat} {V : Nat → Nat → Nat → α} (H : PairBlk h pd I J V) {q : Nat}
    (hq : q < 5*(I*J)) : h.D (pd + q) = .val (pairF I V q) := by
  have hI : 0 < I := by
    rcases Nat.eq_zero_or_pos I with e | e
    · rw [e] at hq; simp at hq
    · exact e
  have h5 : q/5 < J*I := by rw [Nat.mul_comm J]; omega
  have hj : q/5/I < J := (Nat.div_lt_iff_lt_mul hI).2 h5
  have hi : q/5%I < I := Nat.mod_lt _ hI
  have := H (q/5%I) (q/5/I) (q%5) hi hj (by omega)
  rw [show 5*(q/5/I*I + q/5%I) + q%5 = q by
    have := Nat.div_add_mod' (q/5) I
    omega] at this
  exact this

/-- entry of a table of pairs -/
def PairCell (h : Heap α) (tbl pool : Ptr) (nbas a b I J : Nat) (V : Nat → Nat → Nat → α) (E : Prop) : Prop :=
  (h.I (tbl + (a*nbas+b)) = .val (-1) ∧ E) ∨
  ∃ o : Nat, h.I (tbl + (a*nbas+b)) = .val (o : Int) ∧ PairBlk h (pool + 5*o) I J V ∧ (E → a = 0 ∧ b = 0)

/-- the pair data the loop will find: from the table, or computed on the spot -/
def PairsAt (L : MathLib α) (X : Int2e α) (s : Call2 α) (O : Opt2) (h : Heap α) (i j k l : Nat)
    (Vij Vkl : Nat → Nat → Nat → α) (Eij Ekl : Prop) : Prop :=
  match O.pair with
  | some (t, p) => PairCell h t p O.nbas i j s.si.nprim s.sj.nprim Vij Eij ∧
      PairCell h t p O.nbas k l s.sk.nprim s.sl.nprim Vkl Ekl
  | none => Vij = pairVal L (s.pairArgs X) ∧ Vkl = pairVal L (s.pairArgsKL X) ∧
      (Eij ↔ PairEmpty L (s.pairArgs X)) ∧ (Ekl ↔ PairEmpty L (s.pairArgsKL X))

/-- what has been read -/
def TabsOK (s : Call2 α) (P : PairTabs α) (Vij Vkl : Nat → Nat → Nat → α) : Prop :=
  (∀ ip jp c, ip < s.si.nprim → jp < s.sj.nprim → c < 5 → P.ij (5*(jp*s.si.nprim+ip)+c) = Vij ip jp c) ∧
  (∀ kp lp c, kp < s.sk.nprim → lp < s.sl.nprim → c < 5 → P.kl (5*(lp*s.sk.nprim+kp)+c) = Vkl kp lp c)

theorem tabsOK_of {s : Call2 α} {x y : Nat → α} {Vij Vkl : Nat → Nat → Nat → α}
    (hx : ∀ q, q < 5*(s.si.nprim*s.sj.nprim) → x q = pairF s.si.nprim Vij q)
    (hy : ∀ q, q < 5*(s.sk.nprim*s.sl.nprim) → y q = pairF s.sk.nprim Vkl q) : TabsOK s ⟨x, y⟩ Vij Vkl := by
  constructor
  · intro ip jp c hi hj hc
    have := radix_lt hj hi
    rw [Nat.mul_comm s.sj.nprim] at this
    exact (hx _ (by omega)).trans (pairF_eq hi hc)
  · intro ip jp c hi hj hc
    have := radix_lt hj hi
    rw [Nat.mul_comm s.sl.nprim] at this
    exact (hy _ (by omega)).trans (pairF_eq hi hc)

variable {R : Rys2 α} {K : Consts α} {L : MathLib α} {X : Int2e α} {s : Call2 α}

/-- the loop function returns before the primitive loops: a pair is marked in the table, or found negligible on the spot -/
def Stops2 (L : MathLib α) (X : Int2e α) (s : Call2 α) (O : Opt2) (h : Heap α) (i j k l : Nat) : Prop :=
  match O.pair with
  | some (t, _) => h.I (t + (i*O.nbas+j)) = .val (-1) ∨ h.I (t + (k*O.nbas+l)) = .val (-1)
  | none => PairEmpty L (s.pairArgs X) ∨ PairEmpty L (s.pairArgsKL X)

theorem Stops2.congr {L : MathLib α} {X : Int2e α} {s : Call2 α} {O : Opt2} {h h' : Heap α} {i j k l : Nat}
    (H : ∀ t p, O.pair = some (t, p) → ∀ q : Ptr, q.buf = t.buf → h'.I q = h.I q) :
    Stops2 L X s O h' i j k l ↔ Stops2 L X s O h i j k l := by
  unfold Stops2
  cases hO : O.pair with
  | none => exact Iff.rfl
  | some tp =>
    obtain ⟨t, p⟩ := tp
    dsimp only
    rw [H t p hO (t + (i*O.nbas+j)) rfl, H t p hO (t + (k*O.nbas+l)) rfl]

theorem optPairs_wp {O : Opt2} {h : Heap α} {i j k l : Nat} {Vij Vkl : Nat → Nat → Nat → α} {Eij Ekl : Prop} {pd : Ptr}
    (H : PairsAt L X s O h i j k l Vij Vkl Eij Ekl)
    (ha : O.pair = none → ∀ q, q < 5*(s.si.nprim*s.sj.nprim + s.sk.nprim*s.sl.nprim) → h.D (pd + q) ≠ .oob) :
    wp (optPairs X s L O i j k l pd) (fun r h' =>
      (r = none → Eij ∨ Ekl) ∧
      (∀ P, r = some P → TabsOK s P Vij Vkl ∧ (Eij → O.pair.isSome ∧ i = 0 ∧ j = 0)) ∧
      AgreeD h h' (Blk pd (5*(s.si.nprim*s.sj.nprim + s.sk.nprim*s.sl.nprim))) ∧ h'.I = h.I ∧
      (r = none ↔ Stops2 L X s O h i j k l)) h := by
  let n1 := 5*(s.si.nprim*s.sj.nprim)
  let n2 := 5*(s.sk.nprim*s.sl.nprim)
  have hn : 5*(s.si.nprim*s.sj.nprim + s.sk.nprim*s.sl.nprim) = n1 + n2 := by
    show _ = 5*(s.si.nprim*s.sj.nprim) + 5*(s.sk.nprim*s.sl.nprim); ring
  rw [hn] at ha ⊢
  unfold PairsAt at H
  unfold optPairs Stops2
  cases hO : O.pair with
  | some tp =>
    obtain ⟨t, p⟩ := tp
    rw [hO] at H
    obtain ⟨H1, H2⟩ := H
    dsimp only
    rw [wp_mbind]
    rcases H1 with ⟨c1, e1⟩ | ⟨o1, c1, b1, e1⟩
    · refine (wp_ldI _ _ _).2 ⟨_, c1, ?_⟩
      rw [if_pos rfl, wp_pure]
      exact ⟨fun _ => Or.inl e1, fun P hP => (nomatch hP), AgreeD.refl _ _, rfl, iff_of_true rfl (Or.inl c1)⟩
    · refine (wp_ldI _ _ _).2 ⟨_, c1, ?_⟩
      rw [if_neg (by omega), wp_mbind]
      rcases H2 with ⟨c2, e2⟩ | ⟨o2, c2, b2, e2⟩
      · refine (wp_ldI _ _ _).2 ⟨_, c2, ?_⟩
        rw [if_pos rfl, wp_pure]
        exact ⟨fun _ => Or.inr e2, fun P hP => (nomatch hP), AgreeD.refl _ _, rfl, iff_of_true rfl (Or.inr c2)⟩
      · refine (wp_ldI _ _ _).2 ⟨_, c2, ?_⟩
        rw [if_neg (by omega), wp_mbind, Int.toNat_natCast, Int.toNat_natCast]
        refine wp_mono (readBlk_wp (fun q hq => PairBlk.flat b1 hq)) ?_
        rintro x _ ⟨rfl, hx⟩
        rw [wp_mbind]
        refine wp_mono (readBlk_wp (fun q hq => PairBlk.flat b2 hq)) ?_
        rintro y _ ⟨rfl, hy⟩
        rw [wp_pure]
        refine ⟨fun e => (nomatch e), ?_, AgreeD.refl _ _, rfl, iff_of_false (fun e => nomatch e) ?_⟩
        · rintro P hP
          cases hP
          exact ⟨tabsOK_of hx hy, fun hE => ⟨rfl, e1 hE⟩⟩
        · rw [c1, c2]
          rintro (e | e) <;> injection e <;> omega
  | none =>
    rw [hO] at H
    obtain ⟨rfl, rfl, hE1, hE2⟩ := H
    replace ha := ha hO
    dsimp only
    rw [wp_mbind]
    refine wp_mono (wp_allocMono (setPairdata_wp (pd := pd) (p := s.pairArgs X) ?_)) ?_
    · intro q hq
      have hq' : q < 5*(s.sj.nprim*s.si.nprim) := hq
      rw [Nat.mul_comm s.sj.nprim] at hq'
      have : q < n1 := hq'
      exact ha q (by omega)
    rintro e1 h1 ⟨⟨he1, v1, a1, i1⟩, m1⟩
    have a1' : AgreeD h h1 (Blk pd (n1+n2)) := by
      refine a1.mono ?_
      rintro q ⟨x, hx, rfl⟩
      have hx' : x < 5*(s.sj.nprim*s.si.nprim) := hx
      rw [Nat.mul_comm s.sj.nprim] at hx'
      have : x < n1 := hx'
      exact ⟨x, by omega, rfl⟩
    by_cases c1 : e1 = true
    · rw [if_pos c1, wp_pure]
      exact ⟨fun _ => Or.inl (hE1.2 (he1.1 c1)), fun P hP => (nomatch hP), a1', i1, iff_of_true rfl (Or.inl (he1.1 c1))⟩
    rw [if_neg c1, wp_mbind]
    refine wp_mono (wp_allocMono (setPairdata_wp (pd := pd + n1) (p := s.pairArgsKL X) ?_)) ?_
    · intro q hq
      have hq' : q < 5*(s.sl.nprim*s.sk.nprim) := hq
      rw [Nat.mul_comm s.sl.nprim] at hq'
      have : q < n2 := hq'
      rw [Ptr.add_assoc]
      exact m1.D _ (ha _ (by omega))
    rintro e2 h2 ⟨⟨he2, v2, a2, i2⟩, m2⟩
    have a2' : AgreeD h1 h2 (Blk (pd + n1) n2) := by
      refine a2.mono ?_
      rintro q ⟨x, hx, rfl⟩
      have hx' : x < 5*(s.sl.nprim*s.sk.nprim) := hx
      rw [Nat.mul_comm s.sl.nprim] at hx'
      exact ⟨x, hx', rfl⟩
    have a12 : AgreeD h h2 (Blk pd (n1+n2)) := by
      refine a1'.trans a2' (fun _ => id) ?_
      rintro q ⟨x, hx, rfl⟩
      exact ⟨n1 + x, by omega, by rw [Ptr.add_assoc]⟩
    have i12 : h2.I = h.I := by rw [i2, i1]
    by_cases c2 : e2 = true
    · rw [if_pos c2, wp_pure]
      exact ⟨fun _ => Or.inr (hE2.2 (he2.1 c2)), fun P hP => (nomatch hP), a12, i12, iff_of_true rfl (Or.inr (he2.1 c2))⟩
    rw [if_neg c2, wp_mbind]
    have v1' : ∀ q, q < n1 → h2.D (pd + q) = .val (pairF s.si.nprim (pairVal L (s.pairArgs X)) q) := by
      intro q hq
      rw [a2' (pd + q) (by
        rintro ⟨x, hx, e⟩
        rw [Ptr.add_assoc] at e
        have := (Ptr.add_right_inj _ _ _).1 e
        omega)]
      exact PairBlk.flat (V := pairVal L (s.pairArgs X)) v1 hq
    refine wp_mono (readBlk_wp v1') ?_
    rintro x _ ⟨rfl, hx⟩
    rw [wp_mbind]
    refine wp_mono (readBlk_wp (fun q hq => PairBlk.flat (V := pairVal L (s.pairArgsKL X)) v2 hq)) ?_
    rintro y _ ⟨rfl, hy⟩
    rw [wp_pure]
    refine ⟨fun e => (nomatch e), ?_, a12, i12, iff_of_false (fun e => nomatch e) ?_⟩
    · rintro P hP
      cases hP
      exact ⟨tabsOK_of hx hy, fun hE => absurd (he1.2 (hE1.1 hE)) c1⟩
    · rintro (e | e)
      exacts [c1 (he1.2 e), c2 (he2.2 e)]

/-- the array of contracted integrals, element by element -/
theorem holds_ctrVal {h : Heap α} {p : Ptr} {V : Nat → Nat → Nat → Nat → Nat → Nat → α} {nf I J Kc Lc nComp : Nat}
    (hI : 1 ≤ I) (hJ : 1 ≤ J) (hK : 1 ≤ Kc) (hL : 1 ≤ Lc)
    (hv : ∀ comp ic jc kc lc n, comp < nComp → ic < I → jc < J → kc < Kc → lc < Lc → n < nf →
      h.D (p + Spec.outIdx4 nf I J Kc Lc comp ic jc kc lc n) = .val (V comp ic jc kc lc n)) :
    HoldsD h p (nf * (I*J*Kc*Lc) * nComp) (ctrVal V nf I J Kc Lc) := by
  intro m hm
  let N := I*J*Kc*Lc
  let Rr := nf * N
  have hm' : m < nf * N * nComp := hm
  have hnfp : 0 < nf := by
    rcases Nat.eq_zero_or_pos nf with h0 | h0
    · rw [h0] at hm'; simp at hm'
    · exact h0
  have hN : 0 < N := Nat.mul_pos (Nat.mul_pos (Nat.mul_pos hI hJ) hK) hL
  have hR : 0 < Rr := Nat.mul_pos hnfp hN
  have b1 : m / Rr < nComp := (Nat.div_lt_iff_lt_mul hR).2 (by rw [Nat.mul_comm]; exact hm')
  have b2 : m % Rr < Rr := Nat.mod_lt _ hR
  have b3 : m % Rr / nf < Lc * Kc * J * I := (Nat.div_lt_iff_lt_mul hnfp).2 (by
    calc m % Rr < Rr := b2
      _ = _ := by show nf * (I*J*Kc*Lc) = _; ring)
  have b4 : m % Rr / nf / I < Lc * Kc * J := (Nat.div_lt_iff_lt_mul hI).2 b3
  have b5 : m % Rr / nf / I / J < Lc * Kc := (Nat.div_lt_iff_lt_mul hJ).2 b4
  have b6 : m % Rr / nf / I / J / Kc < Lc := (Nat.div_lt_iff_lt_mul hK).2 b5
  have b7 : m % Rr % nf = m % nf := Nat.mod_mod_of_dvd _ (Dvd.intro _ rfl)
  have := hv (m/Rr) _ _ _ _ (m % Rr % nf) b1 (Nat.mod_lt (m % Rr / nf) hI) (Nat.mod_lt (m % Rr / nf / I) hJ)
    (Nat.mod_lt (m % Rr / nf / I / J) hK) b6 (Nat.mod_lt _ hnfp)
  have hix : Spec.outIdx4 nf I J Kc Lc (m/Rr) (m % Rr / nf % I) (m % Rr / nf / I % J) (m % Rr / nf / I / J % Kc)
      (m % Rr / nf / I / J / Kc) (m % Rr % nf) = m := by
    unfold Spec.outIdx4
    have q1 := Nat.div_add_mod' (m % Rr / nf) I
    have q2 := Nat.div_add_mod' (m % Rr) nf
    have q3 := Nat.div_add_mod' m Rr
    have q4 := Nat.div_add_mod' (m % Rr / nf / I) J
    have q5 := Nat.div_add_mod' (m % Rr / nf / I / J) Kc
    rw [q5, q4, q1, q2]
    exact q3
  rw [hix, b7] at this
  exact this

/-- everything in integer memory except some buffers, as read-only memory -/
noncomputable def roAll (h : Heap α) (a b : Nat) : Ptr → Option Int := fun q =>
  if q.buf = a ∨ q.buf = b then none else match h.I q with | .val x => some x | _ => none

theorem roAll_ro {h : Heap α} {a b : Nat} : RO (roAll h a b) h := by
  intro q x hq
  unfold roAll at hq
  split at hq
  · cases hq
  · split at hq
    · rename_i e; cases hq; exact e
    · cases hq

theorem roAll_none {h : Heap α} {a b : Nat} {q : Ptr} (hq : q.buf = a ∨ q.buf = b) : roAll h a b q = none := if_pos hq

theorem roAll_some {h : Heap α} {a b : Nat} {q : Ptr} {x : Int} (h1 : q.buf ≠ a) (h2 : q.buf ≠ b) (hx : h.I q = .val x) :
    roAll h a b q = some x := by
  unfold roAll
  rw [if_neg (by rintro (e | e); exacts [h1 e, h2 e]), hx]

theorem tblRO_all {h : Heap α} {a b : Nat} {nc ni : Ptr} {c : Nat → α} {prim ctr : Nat} (H : TblIn h nc ni c prim ctr)
    (h1 : nc.buf ≠ a ∧ nc.buf ≠ b) (h2 : ni.buf ≠ a ∧ ni.buf ≠ b) : TblRO (roAll h a b) nc ni c prim ctr := by
  intro x hx
  have hb : (tblAddr ni nc ctr x).buf ≠ a ∧ (tblAddr ni nc ctr x).buf ≠ b := by
    rcases tblAddr_blk (non0ctr := nc) (non0idx := ni) hx with e | e
    · rw [blk_buf e]; exact h2
    · rw [blk_buf e]; exact h1
  exact roAll_some hb.1 hb.2 (H x hx)

/-- The sparsity tables of a shell as found through the optimizer. -/
def TabAt (O : Opt2) (h : Heap α) (x : Nat) (S : PShell α) : Prop :=
  ∃ c o : Nat, h.I (O.ctab + x) = .val (c : Int) ∧ h.I (O.stab + x) = .val (o : Int) ∧
    TblIn h (O.cpool + c) (O.spool + o) S.c S.nprim S.nctr

/-- `index_xyz_array` has no table for these angular momenta -/
def ixNull (O : Opt2) (h : Heap α) (li lj lk ll : Nat) : Prop := h.I (O.ixa + ixPos li lj lk ll) = .val (-1)

/-- the entry of `index_xyz_array`: NULL, or the index table -/
def IxAt (O : Opt2) (h : Heap α) (li lj lk ll : Nat) (e : EnvG) : Prop :=
  ixNull O h li lj lk ll ∨ ∃ b : Nat, h.I (O.ixa + ixPos li lj lk ll) = .val (b : Int) ∧
    ∀ m, m < 3 * e.nf → h.I (O.ixbuf + b + m) = .val (tblF e.nfi (g2eVal e) m)

/-- buffer `b` is not one of the optimizer's integer arrays used in the loops -/
def Avoids (O : Opt2) (b : Nat) : Prop :=
  O.ctab.buf ≠ b ∧ O.stab.buf ≠ b ∧ O.cpool.buf ≠ b ∧ O.spool.buf ≠ b ∧ O.ixa.buf ≠ b ∧ O.ixbuf.buf ≠ b

/-- where the cache of the loop continues after the pair data -/
def posIdxO (O : Opt2) (s : Call2 α) (o : Nat) : Nat :=
  o + if O.pair.isSome then 0 else 5*(s.si.nprim*s.sj.nprim + s.sk.nprim*s.sl.nprim)

/-- the doubles of the cache used as FINTs -/
def intSlotsO (X : Int2e α) (s : Call2 α) (O : Opt2) (h : Heap α) (fpd o k : Nat) : Prop :=
  ixNull O h s.si.l s.sj.l s.sk.l s.sl.l ∧ posIdxO O s o ≤ k ∧ k < posIdxO O s o + dblOf fpd ((s.env X).nf * 3)

/-- Memory of the loop function -/
structure LoopMemO (X : Int2e α) (s : Call2 α) (O : Opt2) (h : Heap α) (fpd buf size o0 o : Nat) (empty fl loc : Ptr) :
    Prop where
  fpd_pos : 0 < fpd
  cache : CacheMem h fpd buf size (intSlotsO X s O h fpd o)
  room : o + 5*(s.si.nprim*s.sj.nprim + s.sk.nprim*s.sl.nprim) + dblOf fpd ((s.env X).nf * 3) +
    (s.leng X + Call2.used X s) ≤ size
  ctr : o0 + (s.env X).nf * s.nctr * X.nComp ≤ o
  flag : h.I empty = .val 1
  flw : ∀ k, k < 5 → h.I (fl + k) ≠ .oob
  locw : ∀ k, k < 12*136 → h.I (loc + k) ≠ .oob
  ebuf : empty.buf ≠ buf
  efl : empty.buf ≠ fl.buf
  eloc : empty.buf ≠ loc.buf
  flbuf : fl.buf ≠ buf
  locbuf : loc.buf ≠ buf
  obuf : Avoids O buf
  oem : Avoids O empty.buf
  ofl : Avoids O fl.buf
  oloc : Avoids O loc.buf
  locfl : fl.buf ≠ loc.buf

/-- the numbers computed by the loop from the pair data `Vij`, `Vkl` -/
def quartetV (R : Rys2 α) (K : Consts α) (X : Int2e α) (s : Call2 α) (Vij Vkl : Nat → Nat → Nat → α) : Quartet α :=
  s.quartetP X R K ⟨pairF s.si.nprim Vij, pairF s.sk.nprim Vkl⟩ ⟨0,0⟩ ⟨0,0⟩

/-- the evaluator gives `w` for the primitives it keeps, for all tables with these pair data -/
def EvalOKP (R : Rys2 α) (K : Consts α) (X : Int2e α) (s : Call2 α) (Vij Vkl : Nat → Nat → Nat → α)
    (keep : Nat → Nat → Nat → Nat → Bool) (w : Nat → Nat → Nat → Nat → Nat → α) : Prop :=
  ∀ (P : PairTabs α), TabsOK s P Vij Vkl → ∀ ip jp kp lp (g idx : Ptr) (T : Ptr → Option Int), ip < s.si.nprim →
    jp < s.sj.nprim → kp < s.sk.nprim → lp < s.sl.nprim →
    IdxT T idx (s.env X).nf (adr4 (s.env X) (i4 (s.env X)) (j4 (s.env X)) (k4 (s.env X)) (l4 (s.env X))) →
    KernelSpec T ((s.quartetP X R K P idx g).g0 ip jp kp lp) ((s.quartetP X R K P idx g).gout ip jp kp lp)
      (Blk g (s.leng X)) ((s.env X).nf * X.nComp) (keep ip jp kp lp) (w ip jp kp lp)

/-- two quartets with the same contributing primitives -/
theorem expected_congr {Q Q' : Quartet α} {keep keep' : Nat → Nat → Nat → Nat → Bool}
    {w w' : Nat → Nat → Nat → Nat → Nat → α} (h0 : Q.common = Q'.common)
    (h1 : Q.iPrim = Q'.iPrim ∧ Q.jPrim = Q'.jPrim ∧ Q.kPrim = Q'.kPrim ∧ Q.lPrim = Q'.lPrim)
    (h2 : Q.ci = Q'.ci ∧ Q.cj = Q'.cj ∧ Q.ck = Q'.ck ∧ Q.cl = Q'.cl) (h3 : Q.nComp = Q'.nComp)
    (h4 : ∀ ip jp kp lp m, ip < Q.iPrim → jp < Q.jPrim → kp < Q.kPrim → lp < Q.lPrim →
      (if survives Q keep ip jp kp lp then Q.eij ip jp * Q.ekl kp lp * w ip jp kp lp m else 0) =
      (if survives Q' keep' ip jp kp lp then Q'.eij ip jp * Q'.ekl kp lp * w' ip jp kp lp m else 0))
    (comp ic jc kc lc n : Nat) :
    expected Q keep w comp ic jc kc lc n = expected Q' keep' w' comp ic jc kc lc n := by
  unfold expected Spec.contract4
  obtain ⟨a1, a2, a3, a4⟩ := h1
  obtain ⟨b1, b2, b3, b4⟩ := h2
  rw [h0, ← a1, ← a2, ← a3, ← a4, b1, b2, b3, b4, ← h3]
  refine congrArg (Q'.common * ·) ?_
  refine Finset.sum_congr rfl fun lp hl => Finset.sum_congr rfl fun kp hk => Finset.sum_congr rfl fun jp hj =>
    Finset.sum_congr rfl fun ip hi => ?_
  exact congrArg _ (h4 ip jp kp lp _ (Finset.mem_range.1 hi) (Finset.mem_range.1 hj) (Finset.mem_range.1 hk) (Finset.mem_range.1 hl))

theorem survivesP {P : PairTabs α} {Vij Vkl : Nat → Nat → Nat → α} (H : TabsOK s P Vij Vkl) {idx g : Ptr}
    {keep : Nat → Nat → Nat → Nat → Bool} {ip jp kp lp : Nat} (hi : ip < s.si.nprim) (hj : jp < s.sj.nprim)
    (hk : kp < s.sk.nprim) (hl : lp < s.sl.nprim) :
    survives (s.quartetP X R K P idx g) keep ip jp kp lp = survives (quartetV R K X s Vij Vkl) keep ip jp kp lp := by
  unfold survives quartetV Call2.quartetP
  dsimp only
  simp only [H.1 ip jp 4 hi hj (by omega), H.2 kp lp 4 hk hl (by omega), pairF_eq hi (show 4 < 5 by omega),
    pairF_eq hk (show 4 < 5 by omega)]

theorem expectedP {P : PairTabs α} {Vij Vkl : Nat → Nat → Nat → α} (H : TabsOK s P Vij Vkl) {idx g : Ptr}
    {keep : Nat → Nat → Nat → Nat → Bool} {w : Nat → Nat → Nat → Nat → Nat → α} (comp ic jc kc lc n : Nat) :
    expected (s.quartetP X R K P idx g) keep w comp ic jc kc lc n =
      expected (quartetV R K X s Vij Vkl) keep w comp ic jc kc lc n := by
  refine expected_congr (Q := s.quartetP X R K P idx g) (Q' := quartetV R K X s Vij Vkl) ?_ ⟨?_, ?_, ?_, ?_⟩
    ⟨?_, ?_, ?_, ?_⟩ ?_ ?_ _ _ _ _ _ _
  any_goals rfl
  intro ip jp kp lp m hi hj hk hl
  rw [survivesP H hi hj hk hl]
  have e1 : (s.quartetP X R K P idx g).eij ip jp = (quartetV R K X s Vij Vkl).eij ip jp :=
    (H.1 ip jp 3 hi hj (by omega)).trans (pairF_eq hi (by omega)).symm
  have e2 : (s.quartetP X R K P idx g).ekl kp lp = (quartetV R K X s Vij Vkl).ekl kp lp :=
    (H.2 kp lp 3 hk hl (by omega)).trans (pairF_eq hk (by omega)).symm
  rw [e1, e2]

theorem optIdx_wp {O : Opt2} {h0 h : Heap α} {fpd buf o size : Nat} {loc : Ptr} (hf : 0 < fpd)
    (hix : IxAt O h s.si.l s.sj.l s.sk.l s.sl.l (s.env X))
    (hint : ixNull O h s.si.l s.sj.l s.sk.l s.sl.l → ∀ m, fpd * o ≤ m → m < fpd * (o + dblOf fpd ((s.env X).nf*3)) →
      h.I ⟨buf, m⟩ ≠ .oob)
    (hlocw : ∀ k, k < 12*136 → h.I (loc + k) ≠ .oob) (hlb : loc.buf ≠ buf)
    (hli : s.si.l ≤ 15) (hlj : s.sj.l ≤ 15) (hlk : s.sk.l ≤ 15) (hll : s.sl.l ≤ 15) :
    wp (optIdx X s O fpd buf (fpd*o) loc) (fun ix h' =>
      (∀ m, m < 3 * (s.env X).nf → h'.I (ix.1 + m) = .val (tblF (s.env X).nfi (g2eVal (s.env X)) m)) ∧
      (ix.1.buf = buf ∨ ix.1.buf = O.ixbuf.buf) ∧
      (ixNull O h s.si.l s.sj.l s.sk.l s.sl.l → alignUp fpd ix.2 / fpd = o + dblOf fpd ((s.env X).nf*3)) ∧
      (¬ ixNull O h s.si.l s.sj.l s.sk.l s.sl.l → alignUp fpd ix.2 / fpd = o) ∧
      h'.D = h.D ∧ AgreeI h h' (fun q => q.buf = buf ∨ q.buf = loc.buf)) h := by
  let e := s.env X
  have hnf : e.nf = e.nfj * e.nfl * e.nfk * e.nfi := by
    show e.nfi * e.nfk * e.nfl * e.nfj = _; ring
  have dI : e.nf * 3 ≤ fpd * dblOf fpd (e.nf*3) := dblOf_mul hf _
  unfold optIdx
  rw [wp_mbind]
  rcases hix with hn | ⟨b, hb, hv⟩
  · refine (wp_ldI _ _ _).2 ⟨_, hn, ?_⟩
    rw [if_pos rfl]
    dsimp only
    rw [mallocI_eq hf, wp_mbind]
    refine wp_mono (g2eIndex_wp (e := e) (idx := ⟨buf, fpd * o⟩) (loc := loc) hli hlj hlk hll rfl rfl rfl rfl
      ⟨?_, hlocw, ?_⟩) ?_
    · intro k hk
      refine hint hn _ (Nat.le_add_right _ _) ?_
      rw [← hnf] at hk
      rw [Nat.mul_add]
      show fpd*o + k < fpd*o + fpd * dblOf fpd (e.nf*3)
      omega
    · intro i j _ _ hh
      exact hlb (Ptr.ext_iff'.1 hh).1
    · rintro _ h4 ⟨v4, a4, d4⟩
      rw [← hnf] at v4 a4
      rw [wp_pure]
      refine ⟨v4, Or.inl rfl, fun _ => ?_, fun x => absurd hn x, d4, a4.mono ?_⟩
      · show alignUp fpd (fpd*o + e.nf*3) / fpd = _
        rw [alignUp_eq hf, Nat.mul_div_cancel_left _ hf]
      · rintro q (hq | hq)
        · exact Or.inl (blk_buf hq)
        · exact Or.inr (blk_buf hq)
  · refine (wp_ldI _ _ _).2 ⟨_, hb, ?_⟩
    rw [if_neg (by omega), wp_pure, Int.toNat_natCast]
    refine ⟨hv, Or.inr rfl, fun x => ?_, fun _ => ?_, rfl, AgreeI.refl _ _⟩
    · exfalso
      unfold ixNull at x
      rw [hb] at x
      injection x with x
      omega
    · show alignUp fpd (fpd*o) / fpd = o
      rw [alignUp_mul hf, Nat.mul_div_cancel_left _ hf]


/-- some primitive quartet contributes -/
def anyV (R : Rys2 α) (K : Consts α) (X : Int2e α) (s : Call2 α) (Vij Vkl : Nat → Nat → Nat → α)
    (keep : Nat → Nat → Nat → Nat → Bool) : Prop :=
  ∃ ip jp kp lp, ip < s.si.nprim ∧ jp < s.sj.nprim ∧ kp < s.sk.nprim ∧ lp < s.sl.nprim ∧
    survives (quartetV R K X s Vij Vkl) keep ip jp kp lp = true

theorem used_quartetP (P : PairTabs α) (idx g : Ptr) : (s.quartetP X R K P idx g).usedGen = Call2.used X s :=
  used_quartet (R := R) (K := K) (L := ⟨fun x => x, fun x => x, fun x => x⟩) (X := X) (s := s) ⟨⟨0,0⟩,⟨0,0⟩,⟨0,0⟩,⟨0,0⟩,⟨0,0⟩⟩

theorem optLoops_wp {O : Opt2} {h : Heap α} {i j k l fpd buf o0 og : Nat} {empty fl : Ptr} {P : PairTabs α}
    {Vij Vkl : Nat → Nat → Nat → α} {keep : Nat → Nat → Nat → Nat → Bool} {w : Nat → Nat → Nat → Nat → Nat → α}
    {ix : Ptr × Nat} (hP : TabsOK s P Vij Vkl) (hK : EvalOKP R K X s Vij Vkl keep w)
    (ti : TabAt O h i s.si) (tj : TabAt O h j s.sj) (tk : TabAt O h k s.sk) (tl : TabAt O h l s.sl)
    (hix : ∀ m, m < 3 * (s.env X).nf → h.I (ix.1 + m) = .val (tblF (s.env X).nfi (g2eVal (s.env X)) m))
    (hixb : ix.1.buf ≠ empty.buf ∧ ix.1.buf ≠ fl.buf)
    (hg : alignUp fpd ix.2 / fpd = og) (hgD : ∀ q, q < s.leng X + Call2.used X s → h.D ⟨buf, og + q⟩ ≠ .oob)
    (hctr : o0 + (s.env X).nf * s.nctr * X.nComp ≤ og)
    (hctrD : ∀ q, q < (s.env X).nf * s.nctr * X.nComp → h.D ⟨buf, o0 + q⟩ ≠ .oob)
    (hflag : h.I empty = .val 1) (hflw : ∀ k, k < 5 → h.I (fl + k) ≠ .oob) (hefl : empty.buf ≠ fl.buf)
    (oem : Avoids O empty.buf) (ofl : Avoids O fl.buf)
    (hic : 1 ≤ s.si.nctr) (hjc : 1 ≤ s.sj.nctr) (hkc : 1 ≤ s.sk.nctr) (hlc : 1 ≤ s.sl.nctr) (hnc : 1 ≤ X.nComp) :
    wp (optLoops X s R K O i j k l P fpd ⟨buf, o0⟩ empty buf fl ix) (fun res h' =>
      h'.I empty = .val (if res then 0 else 1) ∧
      (res = true → HoldsD h' ⟨buf, o0⟩ ((s.env X).nf * s.nctr * X.nComp)
        (ctrVal (expected (quartetV R K X s Vij Vkl) keep w) (s.env X).nf s.si.nctr s.sj.nctr s.sk.nctr s.sl.nctr)) ∧
      (res = false → ∀ comp ic jc kc lc n, expected (quartetV R K X s Vij Vkl) keep w comp ic jc kc lc n = 0) ∧
      AgreeD h h' (fun q => q.buf = buf) ∧
      AgreeI h h' (fun q => q.buf = empty.buf ∨ q.buf = fl.buf) ∧
      (res = true ↔ anyV R K X s Vij Vkl keep)) h := by
  obtain ⟨c1, s1, hc1, hs1, t1⟩ := ti
  obtain ⟨c2, s2, hc2, hs2, t2⟩ := tj
  obtain ⟨c3, s3, hc3, hs3, t3⟩ := tk
  obtain ⟨c4, s4, hc4, hs4, t4⟩ := tl
  unfold optLoops
  rw [wp_mbind]; refine (wp_ldI _ _ _).2 ⟨_, hc1, ?_⟩
  rw [wp_mbind]; refine (wp_ldI _ _ _).2 ⟨_, hc2, ?_⟩
  rw [wp_mbind]; refine (wp_ldI _ _ _).2 ⟨_, hc3, ?_⟩
  rw [wp_mbind]; refine (wp_ldI _ _ _).2 ⟨_, hc4, ?_⟩
  rw [wp_mbind]; refine (wp_ldI _ _ _).2 ⟨_, hs1, ?_⟩
  rw [wp_mbind]; refine (wp_ldI _ _ _).2 ⟨_, hs2, ?_⟩
  rw [wp_mbind]; refine (wp_ldI _ _ _).2 ⟨_, hs3, ?_⟩
  rw [wp_mbind]; refine (wp_ldI _ _ _).2 ⟨_, hs4, ?_⟩
  dsimp only
  rw [hg]
  simp only [Int.toNat_natCast]
  let Q := s.quartetP X R K P ix.1 ⟨buf, og⟩
  let M : Mem2e := ⟨⟨buf, o0⟩, empty, ⟨buf, og⟩, fl, O.cpool + c1, O.cpool + c2, O.cpool + c3, O.cpool + c4,
      O.spool + s1, O.spool + s2, O.spool + s3, O.spool + s4⟩
  let T := roAll h empty.buf fl.buf
  have hused : Q.usedGen = Call2.used X s := used_quartetP P _ _
  obtain ⟨_, _, e3, e4, _, _⟩ := oem
  obtain ⟨_, _, f3, f4, _, _⟩ := ofl
  have hTv : ∀ m, m < 3 * (s.env X).nf → T (ix.1 + m) = some (tblF (s.env X).nfi (g2eVal (s.env X)) m) :=
    fun m hm => roAll_some hixb.1 hixb.2 (hix m hm)
  have S : Setup2e Q M T keep w Q.usedGen false (fun _ => 0) h := by
    refine ⟨hic, hjc, hkc, hlc, hnc, tblRO_all t1 ⟨e3, f3⟩ ⟨e4, f4⟩, tblRO_all t2 ⟨e3, f3⟩ ⟨e4, f4⟩,
      tblRO_all t3 ⟨e3, f3⟩ ⟨e4, f4⟩, tblRO_all t4 ⟨e3, f3⟩ ⟨e4, f4⟩, roAll_ro, hflw, fun k _ => roAll_none (Or.inr rfl),
      roAll_none (Or.inl rfl), ?_, ?_, ?_, ?_, ?_⟩
    · intro k _ hh
      exact hefl (by rw [show empty = fl + k from hh]; rfl)
    · intro q hq
      rw [hused] at hq
      exact hgD q hq
    · intro a b ha hb hh
      have ha' : a < (s.env X).nf * s.nctr * X.nComp := ha
      have h2 : o0 + a = og + b := (Ptr.ext_iff'.1 hh).2
      omega
    · refine ⟨hflag, hctrD, fun hb => Bool.noConfusion hb, fun _ _ _ => rfl⟩
    · intro ip jp kp lp hip hjp hkp hlp
      exact hK P hP ip jp kp lp _ _ T hip hjp hkp hlp (idxT_int2e (s.env X) hTv)
  have hfin := (wp_iff_run _ _ _).2 (C10_dispatch S)
  refine wp_mono hfin ?_
  rintro res h5 ⟨⟨hret, hfl, hv, hz⟩, hd, hi⟩
  refine ⟨hfl, ?_, ?_, ?_, ?_, ?_⟩
  · intro hr
    refine holds_ctrVal hic hjc hkc hlc ?_
    intro comp ic jc kc lc n a1 a2 a3 a4 a5 a6
    have := hv hr comp ic jc kc lc n a1 a2 a3 a4 a5 a6
    rw [zero_add] at this
    exact this.trans (congrArg Cell.val (expectedP hP comp ic jc kc lc n))
  · intro hr comp ic jc kc lc n
    rw [← expectedP hP (idx := ix.1) (g := ⟨buf, og⟩)]
    exact hz hr comp ic jc kc lc n
  · refine hd.mono ?_
    rintro q (hq | hq) <;> exact blk_buf hq
  · refine hi.mono ?_
    rintro q (hq | hq)
    · exact Or.inl (by rw [hq])
    · exact Or.inr (blk_buf hq)
  · constructor
    · intro hr
      rcases hret.1 hr with hb | ⟨ip, jp, kp, lp, a1, a2, a3, a4, a5⟩
      · exact absurd hb (by simp)
      · exact ⟨ip, jp, kp, lp, a1, a2, a3, a4, by rw [← survivesP hP a1 a2 a3 a4 (idx := ix.1) (g := ⟨buf, og⟩)]; exact a5⟩
    · rintro ⟨ip, jp, kp, lp, a1, a2, a3, a4, a5⟩
      exact hret.2 (Or.inr ⟨ip, jp, kp, lp, a1, a2, a3, a4, by
        rw [← survivesP hP a1 a2 a3 a4 (idx := ix.1) (g := ⟨buf, og⟩)] at a5; exact a5⟩)


/-- The optimizer's memory as far as a call with these shells uses it. -/
structure OptAt (L : MathLib α) (X : Int2e α) (s : Call2 α) (O : Opt2) (h : Heap α) (i j k l : Nat)
    (Vij Vkl : Nat → Nat → Nat → α) (Eij Ekl : Prop) : Prop where
  pairs : PairsAt L X s O h i j k l Vij Vkl Eij Ekl
  ti : TabAt O h i s.si
  tj : TabAt O h j s.sj
  tk : TabAt O h k s.sk
  tl : TabAt O h l s.sl
  ix : IxAt O h s.si.l s.sj.l s.sk.l s.sl.l (s.env X)

/-- the empty pairs have no exponential factor -/
def EmptyZero (s : Call2 α) (Vij Vkl : Nat → Nat → Nat → α) (Eij Ekl : Prop) : Prop :=
  (Eij → ∀ ip jp, ip < s.si.nprim → jp < s.sj.nprim → Vij ip jp 3 = 0) ∧
  (Ekl → ∀ kp lp, kp < s.sk.nprim → lp < s.sl.nprim → Vkl kp lp 3 = 0)

theorem expected_emptyV {Vij Vkl : Nat → Nat → Nat → α} {Eij Ekl : Prop} (hz : EmptyZero s Vij Vkl Eij Ekl)
    (hE : Eij ∨ Ekl) {keep : Nat → Nat → Nat → Nat → Bool} {w : Nat → Nat → Nat → Nat → Nat → α} (comp ic jc kc lc n : Nat) :
    expected (quartetV R K X s Vij Vkl) keep w comp ic jc kc lc n = 0 := by
  unfold expected Spec.contract4
  rw [Finset.sum_eq_zero, mul_zero]
  intro lp hlp
  refine Finset.sum_eq_zero (fun kp hkp => Finset.sum_eq_zero (fun jp hjp => Finset.sum_eq_zero (fun ip hip => ?_)))
  have hip' := Finset.mem_range.1 hip
  have hjp' := Finset.mem_range.1 hjp
  have hkp' := Finset.mem_range.1 hkp
  have hlp' := Finset.mem_range.1 hlp
  have e1 : (quartetV R K X s Vij Vkl).eij ip jp = Vij ip jp 3 := pairF_eq hip' (by omega)
  have e2 : (quartetV R K X s Vij Vkl).ekl kp lp = Vkl kp lp 3 := pairF_eq hkp' (by omega)
  dsimp only
  rw [e1, e2]
  rcases hE with h | h
  · rw [hz.1 h ip jp hip' hjp']; simp
  · rw [hz.2 h kp lp hkp' hlp']; simp

theorem loop2eOpt_wp {O : Opt2} {h : Heap α} {i j k l fpd buf size o0 o : Nat} {empty fl loc : Ptr}
    {Vij Vkl : Nat → Nat → Nat → α} {Eij Ekl : Prop} {keep : Nat → Nat → Nat → Nat → Bool}
    {w : Nat → Nat → Nat → Nat → Nat → α} (M : LoopMemO X s O h fpd buf size o0 o empty fl loc)
    (A : OptAt L X s O h i j k l Vij Vkl Eij Ekl) (hz : EmptyZero s Vij Vkl Eij Ekl)
    (hK : EvalOKP R K X s Vij Vkl keep w)
    (hic : 1 ≤ s.si.nctr) (hjc : 1 ≤ s.sj.nctr) (hkc : 1 ≤ s.sk.nctr) (hlc : 1 ≤ s.sl.nctr) (hnc : 1 ≤ X.nComp)
    (hli : s.si.l ≤ 15) (hlj : s.sj.l ≤ 15) (hlk : s.sk.l ≤ 15) (hll : s.sl.l ≤ 15) :
    wp (loop2eOpt X s R K L O i j k l fpd ⟨buf, o0⟩ empty buf (fpd*o) fl loc) (fun res h' =>
      h'.I empty = .val (if res then 0 else 1) ∧
      (res = true → HoldsD h' ⟨buf, o0⟩ ((s.env X).nf * s.nctr * X.nComp)
        (ctrVal (expected (quartetV R K X s Vij Vkl) keep w) (s.env X).nf s.si.nctr s.sj.nctr s.sk.nctr s.sl.nctr)) ∧
      (res = false → ∀ comp ic jc kc lc n, expected (quartetV R K X s Vij Vkl) keep w comp ic jc kc lc n = 0) ∧
      AgreeD h h' (fun q => q.buf = buf) ∧
      AgreeI h h' (fun q => q.buf = buf ∨ q.buf = empty.buf ∨ q.buf = fl.buf ∨ q.buf = loc.buf) ∧
      ((res = true → anyV R K X s Vij Vkl keep) ∧
        (anyV R K X s Vij Vkl keep → res = true ∨ Eij ∨ Ekl) ∧
        (Eij → res = true → O.pair.isSome ∧ i = 0 ∧ j = 0) ∧
        (res = true ↔ anyV R K X s Vij Vkl keep ∧ ¬ Stops2 L X s O h i j k l))) h := by
  have hf := M.fpd_pos
  let np := 5*(s.si.nprim*s.sj.nprim + s.sk.nprim*s.sl.nprim)
  let nI := dblOf fpd ((s.env X).nf * 3)
  let op := posIdxO O s o
  have hop : op = o + if O.pair.isSome then 0 else np := rfl
  have hopl : o ≤ op ∧ op ≤ o + np := by rw [hop]; split <;> omega
  have hroom : o + np + nI + (s.leng X + Call2.used X s) ≤ size := M.room
  have hctr := M.ctr
  unfold loop2eOpt
  dsimp only
  rw [mallocD_eq hf]
  dsimp only
  rw [wp_mbind]
  -- pair data
  have hpd : O.pair = none → ∀ q, q < np → h.D ((⟨buf, o⟩ : Ptr) + q) ≠ .oob := by
    intro hn q hq
    refine M.cache.dbl (o+q) (by omega) ?_
    rintro ⟨_, h2, _⟩
    have h2' : op ≤ o + q := h2
    rw [hop, hn] at h2'
    simp at h2'
    omega
  have W1 : wp (optPairs X s L O i j k l ⟨buf, o⟩) (fun r h' =>
      (r = none → Eij ∨ Ekl) ∧
      (∀ P, r = some P → TabsOK s P Vij Vkl ∧ (Eij → O.pair.isSome ∧ i = 0 ∧ j = 0)) ∧
      AgreeD h h' (fun q => q.buf = buf) ∧ h'.I = h.I ∧ (r = none ↔ Stops2 L X s O h i j k l)) h := by
    refine wp_mono (optPairs_wp A.pairs hpd) ?_
    rintro r h' ⟨a, b, c, d⟩
    exact ⟨a, b, c.mono (fun q hq => blk_buf hq), d⟩
  refine wp_mono (wp_allocMono W1) ?_
  rintro r h1 ⟨⟨hnone, hsome, aD1, hI1, hst⟩, m1⟩
  cases r with
  | none =>
    dsimp only
    rw [wp_pure]
    refine ⟨by rw [hI1]; exact M.flag, fun x => Bool.noConfusion x, fun _ => expected_emptyV hz (hnone rfl), aD1,
      AgreeI.of_eq hI1 _, fun x => Bool.noConfusion x, fun _ => Or.inr (hnone rfl), fun _ x => Bool.noConfusion x,
      iff_of_false (fun x => Bool.noConfusion x) (fun x => x.2 (hst.1 rfl))⟩
  | some P =>
    obtain ⟨hP, hEP⟩ := hsome P rfl
    dsimp only
    rw [wp_mbind]
    have hcur : (if O.pair.isSome then fpd*o else fpd*(o + np)) = fpd*op := by
      rw [hop]; split <;> simp
    rw [hcur]
    have hix1 : IxAt O h1 s.si.l s.sj.l s.sk.l s.sl.l (s.env X) := by
      have := A.ix
      unfold IxAt ixNull at this ⊢
      rw [hI1]; exact this
    have hnull : ixNull O h1 s.si.l s.sj.l s.sk.l s.sl.l ↔ ixNull O h s.si.l s.sj.l s.sk.l s.sl.l := by
      unfold ixNull; rw [hI1]
    refine wp_mono (wp_allocMono (optIdx_wp (o := op) (size := size) (h0 := h) hf hix1 ?_ (fun q hq => m1.I _ (M.locw q hq)) M.locbuf hli hlj hlk hll)) ?_
    · intro hn m hm1 hm2
      refine m1.I _ (M.cache.int m ?_ ⟨hnull.1 hn, ?_, ?_⟩)
      · exact lt_of_lt_of_le hm2 (Nat.mul_le_mul_left _ (by omega))
      · exact (Nat.le_div_iff_mul_le hf).2 (by rw [Nat.mul_comm]; exact hm1)
      · exact (Nat.div_lt_iff_lt_mul hf).2 (by rw [Nat.mul_comm]; exact hm2)
    rintro ix h2 ⟨⟨v2, b2, g1, g2, d2, a2⟩, m2⟩
    have m12 := m1.trans m2
    have aI2 : AgreeI h h2 (fun q => q.buf = buf ∨ q.buf = loc.buf) := by
      intro q hq; rw [a2 q hq, hI1]
    obtain ⟨og, hog⟩ : ∃ og, og = alignUp fpd ix.2 / fpd := ⟨_, rfl⟩
    have hog1 : op ≤ og ∧ og ≤ op + nI := by
      rw [hog]
      by_cases hn : ixNull O h1 s.si.l s.sj.l s.sk.l s.sl.l
      · rw [g1 hn]; exact ⟨Nat.le_add_right _ _, le_refl _⟩
      · rw [g2 hn]; exact ⟨le_refl _, Nat.le_add_right _ _⟩
    have hogD : ∀ q, q < s.leng X + Call2.used X s → h.D ⟨buf, og + q⟩ ≠ .oob := by
      intro q hq
      refine M.cache.dbl (og+q) (by omega) ?_
      rintro ⟨hn, _, h3⟩
      have h3' : og + q < op + nI := h3
      have : og = op + nI := by rw [hog, g1 (hnull.2 hn)]
      omega
    have tab : ∀ {x : Nat} {S : PShell α}, TabAt O h x S → TabAt O h2 x S := by
      rintro x S ⟨c, p, hc, hp, hT⟩
      obtain ⟨u1, u2, u3, u4, _, _⟩ := M.obuf
      obtain ⟨w1, w2, w3, w4, _, _⟩ := M.oloc
      refine ⟨c, p, ?_, ?_, hT.agree aI2 ?_ ?_⟩
      · rw [aI2 (O.ctab + x) (by rintro (e | e); exacts [u1 e, w1 e]), hc]
      · rw [aI2 (O.stab + x) (by rintro (e | e); exacts [u2 e, w2 e]), hp]
      · rintro q _ (e | e)
        exacts [u4 e, w4 e]
      · rintro q _ (e | e)
        exacts [u3 e, w3 e]
    have W := optLoops_wp (R := R) (K := K) (fpd := fpd) (buf := buf) (o0 := o0) (og := og) (empty := empty) (fl := fl) (ix := ix)
      hP hK (tab A.ti) (tab A.tj) (tab A.tk) (tab A.tl) v2
      (by
        rcases b2 with e | e
        · rw [e]; exact ⟨M.ebuf.symm, M.flbuf.symm⟩
        · rw [e]; exact ⟨M.oem.2.2.2.2.2, M.ofl.2.2.2.2.2⟩)
      hog.symm (fun q hq => m12.D _ (hogD q hq)) (by omega)
      (fun q hq => m12.D _ (M.cache.dbl (o0+q) (by omega) (by
        rintro ⟨_, h2, _⟩
        have h2' : op ≤ o0 + q := h2
        omega)))
      (by
        rw [aI2 empty (by rintro (e | e); exacts [M.ebuf e, M.eloc e])]
        exact M.flag)
      (fun q hq => m12.I _ (M.flw q hq)) M.efl M.oem M.ofl hic hjc hkc hlc hnc
    refine wp_mono W ?_
    rintro res h3 ⟨p1, p2, p3, p4, p5, p6⟩
    refine ⟨p1, p2, p3, ?_, ?_, p6.1, fun x => Or.inl (p6.2 x), fun hE _ => hEP hE,
      fun x => ⟨p6.1 x, fun y => nomatch hst.2 y⟩, fun x => p6.2 x.1⟩
    · refine aD1.trans (AgreeD.trans (W1 := fun _ => False) (W := fun q => q.buf = buf) (AgreeD.of_eq d2 _) p4
        (fun _ x => x.elim) (fun _ => id)) (fun _ => id) (fun _ => id)
    · refine aI2.trans p5 ?_ ?_
      · rintro q (e | e)
        exacts [Or.inl e, Or.inr (Or.inr (Or.inr e))]
      · rintro q (e | e)
        exacts [Or.inr (Or.inl e), Or.inr (Or.inr (Or.inl e))]


/-- buffer `b` holds none of the optimizer's arrays -/
def OptSep (O : Opt2) (b : Nat) : Prop :=
  Avoids O b ∧ ∀ t p, O.pair = some (t, p) → t.buf ≠ b ∧ p.buf ≠ b

theorem PairCell.agree {h h' : Heap α} {t p : Ptr} {nbas a b I J : Nat} {V : Nat → Nat → Nat → α} {E : Prop}
    (H : PairCell h t p nbas a b I J V E) {W W' : Ptr → Prop} (hD : AgreeD h h' W) (hI : AgreeI h h' W')
    (h1 : ∀ q : Ptr, q.buf = t.buf → ¬ W' q) (h2 : ∀ q : Ptr, q.buf = p.buf → ¬ W q) : PairCell h' t p nbas a b I J V E := by
  rcases H with ⟨c, e⟩ | ⟨o, c, v, e⟩
  · exact Or.inl ⟨by rw [hI (t + (a*nbas+b)) (h1 _ rfl), c], e⟩
  · refine Or.inr ⟨o, by rw [hI (t + (a*nbas+b)) (h1 _ rfl), c], ?_, e⟩
    intro ip jp k x y z
    rw [hD (p + 5*o + (5*(jp*I+ip)+k)) (h2 _ rfl)]
    exact v ip jp k x y z

theorem TabAt.agree {O : Opt2} {h h' : Heap α} {x : Nat} {S : PShell α} (H : TabAt O h x S) {W' : Ptr → Prop}
    (hI : AgreeI h h' W') (hA : ∀ q, W' q → Avoids O q.buf) : TabAt O h' x S := by
  obtain ⟨c, p, hc, hp, hT⟩ := H
  refine ⟨c, p, ?_, ?_, hT.agree hI ?_ ?_⟩
  · rw [hI (O.ctab + x) (fun e => (hA _ e).1 rfl), hc]
  · rw [hI (O.stab + x) (fun e => (hA _ e).2.1 rfl), hp]
  · exact fun q _ e => (hA _ e).2.2.2.1 rfl
  · exact fun q _ e => (hA _ e).2.2.1 rfl

theorem IxAt.agree {O : Opt2} {h h' : Heap α} {li lj lk ll : Nat} {e : EnvG} (H : IxAt O h li lj lk ll e)
    {W' : Ptr → Prop} (hI : AgreeI h h' W') (hA : ∀ q, W' q → Avoids O q.buf) : IxAt O h' li lj lk ll e := by
  have e1 : h'.I (O.ixa + ixPos li lj lk ll) = h.I (O.ixa + ixPos li lj lk ll) :=
    hI _ (fun e => (hA _ e).2.2.2.2.1 rfl)
  rcases H with c | ⟨b, c, v⟩
  · exact Or.inl (e1.trans c)
  · refine Or.inr ⟨b, e1.trans c, fun m hm => ?_⟩
    rw [hI (O.ixbuf + b + m) (fun e => (hA _ e).2.2.2.2.2 rfl)]
    exact v m hm

/-- the optimizer's memory survives changes elsewhere -/
theorem OptAt.agree {O : Opt2} {h h' : Heap α} {i j k l : Nat} {Vij Vkl : Nat → Nat → Nat → α} {Eij Ekl : Prop}
    (A : OptAt L X s O h i j k l Vij Vkl Eij Ekl) {W W' : Ptr → Prop} (hD : AgreeD h h' W) (hI : AgreeI h h' W')
    (h1 : ∀ q, W q → OptSep O q.buf) (h2 : ∀ q, W' q → OptSep O q.buf) : OptAt L X s O h' i j k l Vij Vkl Eij Ekl := by
  have hA : ∀ q, W' q → Avoids O q.buf := fun q hq => (h2 q hq).1
  refine ⟨?_, A.ti.agree hI hA, A.tj.agree hI hA, A.tk.agree hI hA, A.tl.agree hI hA, A.ix.agree hI hA⟩
  have := A.pairs
  unfold PairsAt at this ⊢
  cases hO : O.pair with
  | none => rw [hO] at this; exact this
  | some tp =>
    obtain ⟨t, p⟩ := tp
    rw [hO] at this
    have a1 : ∀ q : Ptr, q.buf = t.buf → ¬ W' q := fun q hq hw => ((h2 q hw).2 t p hO).1 hq.symm
    have a2 : ∀ q : Ptr, q.buf = p.buf → ¬ W q := fun q hq hw => ((h1 q hw).2 t p hO).2 hq.symm
    exact ⟨this.1.agree hD hI a1 a2, this.2.agree hD hI a1 a2⟩

theorem usedO_le_cacheSize (X : Int2e α) (s : Call2 α) {fpd : Nat} (hf : 0 < fpd)
    (hj : 1 ≤ s.sj.nctr) (hk : 1 ≤ s.sk.nctr) (hl : 1 ≤ s.sl.nctr) :
    (s.env X).nf * s.nctr * X.nComp + 5*(s.si.nprim*s.sj.nprim + s.sk.nprim*s.sl.nprim) +
      dblOf fpd ((s.env X).nf * 3) + (s.leng X + Call2.used X s) ≤ cacheSize2e X s := by
  have d1 := dblOf_le hf ((s.env X).nf * 3)
  unfold cacheSize2e
  refine le_trans ?_ (le_max_left _ _)
  let N := (s.env X).nf * X.nComp
  have a1 := aliasLen_le X.nComp (N * s.nctr)
  have a2 := aliasLen_le' hl (N * (s.si.nctr*s.sj.nctr*s.sk.nctr))
  have a3 := aliasLen_le' hk (N * (s.si.nctr*s.sj.nctr))
  have a4 := aliasLen_le' hj (N * s.si.nctr)
  have a5 := aliasLen_le s.si.nctr N
  have e2 : N * (s.si.nctr*s.sj.nctr*s.sk.nctr) * s.sl.nctr = N * s.nctr := by unfold Call2.nctr; ring
  have e3 : N * (s.si.nctr*s.sj.nctr) * s.sk.nctr = N * (s.si.nctr*s.sj.nctr*s.sk.nctr) := by ring
  have e4 : N * s.si.nctr * s.sj.nctr = N * (s.si.nctr*s.sj.nctr) := by ring
  rw [e2] at a2
  rw [e3] at a3
  rw [e4] at a4
  have hu : Call2.used X s ≤ 2 * (N * s.nctr) + N := by
    show aliasLen X.nComp (N * s.nctr) + aliasLen s.sl.nctr (N * (s.si.nctr*s.sj.nctr*s.sk.nctr)) +
      aliasLen s.sk.nctr (N * (s.si.nctr*s.sj.nctr)) + aliasLen s.sj.nctr (N * s.si.nctr) + aliasLen s.si.nctr N ≤ _
    omega
  have eN : N * s.nctr = (s.env X).nf * s.si.nctr * s.sj.nctr * s.sk.nctr * s.sl.nctr * X.nComp := by
    show (s.env X).nf * X.nComp * (s.si.nctr * s.sj.nctr * s.sk.nctr * s.sl.nctr) = _
    ring
  have eM : (s.env X).nf * s.nctr * X.nComp = (s.env X).nf * s.si.nctr * s.sj.nctr * s.sk.nctr * s.sl.nctr * X.nComp := by
    unfold Call2.nctr; ring
  rw [eN] at hu
  rw [eM]
  have hN : N = (s.env X).nf * X.nComp := rfl
  have e5 : (s.si.nprim * s.sj.nprim + s.sk.nprim * s.sl.nprim) * 5 = 5 * (s.si.nprim * s.sj.nprim + s.sk.nprim * s.sl.nprim) := by ring
  omega

/-- what the driver says about the contributions when it returns `has` -/
def RetO (R : Rys2 α) (K : Consts α) (X : Int2e α) (s : Call2 α) (O : Opt2) (i j : Nat) (Vij Vkl : Nat → Nat → Nat → α)
    (Eij Ekl : Prop) (keep : Nat → Nat → Nat → Nat → Bool) (St : Prop) (has : Bool) : Prop :=
  (has = true → anyV R K X s Vij Vkl keep) ∧ (anyV R K X s Vij Vkl keep → has = true ∨ Eij ∨ Ekl) ∧
    (Eij → has = true → O.pair.isSome ∧ i = 0 ∧ j = 0) ∧ (has = true ↔ anyV R K X s Vij Vkl keep ∧ ¬ St)

/-- the separation of the optimizer from the memory of the call -/
structure OptArg (O : Opt2) (buf : Nat) (empty fl loc : Ptr) : Prop where
  sbuf : OptSep O buf
  sem : OptSep O empty.buf
  sfl : OptSep O fl.buf
  sloc : OptSep O loc.buf
  flloc : fl.buf ≠ loc.buf

/-- the part of the driver up to the output stage -/
theorem drv2eOpt_loop {O : Opt2} {h : Heap α} {i j k l fpd buf size : Nat} {empty fl loc counts : Ptr}
    {Vij Vkl : Nat → Nat → Nat → α} {Eij Ekl : Prop} {keep : Nat → Nat → Nat → Nat → Bool}
    {w : Nat → Nat → Nat → Nat → Nat → α}
    (M : CallMem2 h fpd buf size empty fl loc counts) (hsize : cacheSize2e X s ≤ size) (S : OptArg O buf empty fl loc)
    (A : OptAt L X s O h i j k l Vij Vkl Eij Ekl) (hz : EmptyZero s Vij Vkl Eij Ekl)
    (hp : ∀ t, t < 4 → 0 < Call2.nctrs s t) (hK : EvalOKP R K X s Vij Vkl keep w) (hnc : 1 ≤ X.nComp)
    (hl : ∀ t, t < 4 → Call2.ls s t ≤ 15)
    (trans : (buf c : Nat) → Ptr → Prog α Ptr) (nfo : Nat → Nat) (out : Ptr) (dims : Option Ptr)
    (Q : Bool → Heap α → Prop)
    (hQ : ∀ has h1, Looped h h1 (expected (quartetV R K X s Vij Vkl) keep w) (Call2.ls s) (Call2.nctrs s) X.nComp buf
        empty fl loc has →
      RetO R K X s O i j Vij Vkl Eij Ekl keep (Stops2 L X s O h i j k l) has →
      wp (outStage 4 has X.nComp (blkLen (Call2.ls s) * nctrOf (Call2.nctrs s))
          (c2sFun 4 (shapeOf nfo (Call2.nctrs s) (blkLen (Call2.ls s)))
          (trans buf (fpd * (blkLen (Call2.ls s) * nctrOf (Call2.nctrs s) * X.nComp)))) out ⟨buf, 0⟩ dims counts
          (fun t => nfo t * Call2.nctrs s t))
        (fun _ h2 => Q has h2) h1) :
    wp (drv2eOpt X s R K L O i j k l fpd trans nfo out dims buf 0 empty fl loc counts) Q h := by
  have hf := M.fpd_pos
  have hic : 1 ≤ s.si.nctr := hp 0 (by omega)
  have hjc : 1 ≤ s.sj.nctr := hp 1 (by omega)
  have hkc : 1 ≤ s.sk.nctr := hp 2 (by omega)
  have hlc : 1 ≤ s.sl.nctr := hp 3 (by omega)
  have enf : (s.env X).nf = blkLen (Call2.ls s) := nf_env2
  have enc : s.nctr = nctrOf (Call2.nctrs s) := rfl
  have hncE : (s.env X).nf * s.si.nctr * s.sj.nctr * s.sk.nctr * s.sl.nctr = (s.env X).nf * s.nctr := by
    unfold Call2.nctr; ring
  unfold drv2eOpt
  dsimp only
  rw [hncE]
  rw [show mallocD fpd buf 0 ((s.env X).nf * s.nctr * X.nComp) = (⟨buf, 0⟩, fpd * ((s.env X).nf * s.nctr * X.nComp)) from by
    have := mallocD_eq hf buf 0 ((s.env X).nf * s.nctr * X.nComp); rw [Nat.zero_add] at this; exact this]
  dsimp only
  rw [wp_mbind]
  refine (wp_stI _ _ _ _).2 ⟨M.emw, ?_⟩
  let h0 := h.setI empty 1
  have hI0 : ∀ q, q ≠ empty → h0.I q = h.I q := fun q hq => Heap.setI_I_ne _ _ hq
  have am0 : AllocMono h h0 := by
    refine ⟨fun q hq => hq, fun q hq => ?_⟩
    by_cases he : q = empty
    · subst he
      rw [show h0.I q = .val 1 from Heap.setI_I_self _ _ _]
      intro x; cases x
    · rw [hI0 q he]; exact hq
  have A0 : OptAt L X s O h0 i j k l Vij Vkl Eij Ekl := by
    refine A.agree (W := fun _ => False) (W' := fun q => q = empty) (fun q _ => rfl) (fun q hq => hI0 q hq)
      (fun q x => x.elim) ?_
    rintro q rfl
    exact S.sem
  have LM : LoopMemO X s O h0 fpd buf size 0 ((s.env X).nf * s.nctr * X.nComp) empty fl loc := by
    refine ⟨hf, ⟨fun k hk _ => M.dbl k hk, fun m hm _ => am0.I _ (M.int m hm)⟩, ?_, by omega, Heap.setI_I_self _ _ _,
      fun k hk => am0.I _ (M.flw k hk), fun k hk => am0.I _ (M.locw k hk), M.ebuf, M.efl, M.eloc, M.flbuf, M.locbuf,
      S.sbuf.1, S.sem.1, S.sfl.1, S.sloc.1, S.flloc⟩
    exact le_trans (usedO_le_cacheSize X s hf hjc hkc hlc) hsize
  rw [wp_mbind]
  refine wp_mono (wp_allocMono (loop2eOpt_wp LM A0 hz hK hic hjc hkc hlc hnc (hl 0 (by omega)) (hl 1 (by omega))
    (hl 2 (by omega)) (hl 3 (by omega)))) ?_
  rintro res h1 ⟨⟨hfl, hv, hzz, hD, hI, hret⟩, hm⟩
  rw [wp_mbind]
  refine (wp_ldI _ _ _).2 ⟨_, hfl, ?_⟩
  have hres : decide ((if res then (0:Int) else 1) = 0) = res := by cases res <;> rfl
  rw [hres]
  have hDh : AgreeD h h1 (fun q => q.buf = buf) := hD
  have hIh : AgreeI h h1 (fun q => q.buf = buf ∨ q.buf = empty.buf ∨ q.buf = fl.buf ∨ q.buf = loc.buf) := by
    intro q hq
    rw [hI q hq, hI0 q (fun e => hq (by rw [e]; exact Or.inr (Or.inl rfl)))]
  have hst : Stops2 L X s O h0 i j k l = Stops2 L X s O h i j k l :=
    propext (Stops2.congr fun t p hO q hq => hI0 q (fun e => (S.sem.2 t p hO).1 (by rw [← e]; exact hq.symm)))
  rw [enf, enc] at *
  have := hQ res h1 ⟨hv, fun hr m => hzz hr _ _ _ _ _ _, hDh, hIh, am0.trans hm⟩ (hst ▸ hret)
  rw [wp_mbind]
  refine wp_mono this ?_
  intro _ h2 hq
  rw [wp_pure]
  exact hq

/-- Cartesian output -/
theorem drv2eOpt_cart {O : Opt2} {h : Heap α} {i j k l fpd buf size : Nat} {empty fl loc counts out : Ptr}
    {dims : Option Ptr} {nd : Nat → Nat}
    {Vij Vkl : Nat → Nat → Nat → α} {Eij Ekl : Prop} {keep : Nat → Nat → Nat → Nat → Bool}
    {w : Nat → Nat → Nat → Nat → Nat → α}
    (M : CallMem2 h fpd buf size empty fl loc counts) (hsize : cacheSize2e X s ≤ size) (S : OptArg O buf empty fl loc)
    (A : OptAt L X s O h i j k l Vij Vkl Eij Ekl) (hz : EmptyZero s Vij Vkl Eij Ekl)
    (hs : Sizes 4 (ncar (Call2.ls s)) (Call2.nctrs s) nd)
    (O' : OutArg2 4 h nd (fun t => ncar (Call2.ls s) t * Call2.nctrs s t) X.nComp out dims buf empty fl loc counts)
    (hK : EvalOKP R K X s Vij Vkl keep w) (hnc : 1 ≤ X.nComp) (hl : ∀ t, t < 4 → Call2.ls s t ≤ 15) :
    ∃ has h', run (drv2eOpt X s R K L O i j k l fpd (fun _ _ => pure) (ncar (Call2.ls s)) out dims buf 0 empty fl loc counts) h
        = some (has, h') ∧
      (∀ n ic jc kc lc a b c d, n < X.nComp → ic < s.si.nctr → jc < s.sj.nctr → kc < s.sk.nctr → lc < s.sl.nctr →
        a < ncart s.si.l → b < ncart s.sj.l → c < ncart s.sk.l → d < ncart s.sl.l →
        h'.D (out + outAt nd n (ic*ncart s.si.l+a) (jc*ncart s.sj.l+b) (kc*ncart s.sk.l+c) (lc*ncart s.sl.l+d)) =
          .val (expected (quartetV R K X s Vij Vkl) keep w n ic jc kc lc (pos4c (ncar (Call2.ls s)) a b c d))) ∧
      (has = false → ∀ m, InBlock nd (fun t => ncar (Call2.ls s) t * Call2.nctrs s t) X.nComp m → h'.D (out + m) = .val 0) ∧
      Frame2 h h' nd (fun t => ncar (Call2.ls s) t * Call2.nctrs s t) X.nComp buf out empty fl loc counts ∧
      RetO R K X s O i j Vij Vkl Eij Ekl keep (Stops2 L X s O h i j k l) has := by
  refine (wp_iff_run _ (fun has h' => _) _).1 ?_
  refine drv2eOpt_loop M hsize S A hz hs.nctr_pos hK hnc hl _ _ _ _ _ ?_
  intro has h1 D hr
  refine wp_mono (cartOut D hs O' (fun _ _ x => absurd x (by omega)) M.countsw) ?_
  rintro _ h2 ⟨a, b, c⟩
  exact ⟨a, b, c, hr⟩

/-- spherical output -/
theorem drv2eOpt_sph {O : Opt2} {h : Heap α} {i j k l fpd buf size : Nat} {empty fl loc counts out tab : Ptr}
    {dims : Option Ptr} {nd : Nat → Nat}
    {Vij Vkl : Nat → Nat → Nat → α} {Eij Ekl : Prop} {keep : Nat → Nat → Nat → Nat → Bool}
    {w : Nat → Nat → Nat → Nat → Nat → α}
    (M : CallMem2 h fpd buf size empty fl loc counts) (hsize : cacheSize2e X s ≤ size) (S : OptArg O buf empty fl loc)
    (A : OptAt L X s O h i j k l Vij Vkl Eij Ekl) (hz : EmptyZero s Vij Vkl Eij Ekl)
    (hs : Sizes 4 (nsph (Call2.ls s)) (Call2.nctrs s) nd)
    (O' : OutArg2 4 h nd (fun t => nsph (Call2.ls s) t * Call2.nctrs s t) X.nComp out dims buf empty fl loc counts)
    (hT : HoldsTab h tab) (htb : tab.buf ≠ buf) (hto : out.buf ≠ tab.buf)
    (hK : EvalOKP R K X s Vij Vkl keep w) (hnc : 1 ≤ X.nComp) (hl : ∀ t, t < 4 → Call2.ls s t ≤ 15) :
    ∃ has h', run (drv2eOpt X s R K L O i j k l fpd (sphTrans2e tab fpd s.si.l s.sj.l s.sk.l s.sl.l) (nsph (Call2.ls s))
        out dims buf 0 empty fl loc counts) h = some (has, h') ∧
      (∀ n ic jc kc lc a b c d, n < X.nComp → ic < s.si.nctr → jc < s.sj.nctr → kc < s.sk.nctr → lc < s.sl.nctr →
        a < s.si.l*2+1 → b < s.sj.l*2+1 → c < s.sk.l*2+1 → d < s.sl.l*2+1 →
        h'.D (out + outAt nd n (ic*(s.si.l*2+1)+a) (jc*(s.sj.l*2+1)+b) (kc*(s.sk.l*2+1)+c) (lc*(s.sl.l*2+1)+d)) =
          .val (sphGen (Call2.ls s) (expected (quartetV R K X s Vij Vkl) keep w) n ic jc kc lc a b c d)) ∧
      (has = false → ∀ m, InBlock nd (fun t => nsph (Call2.ls s) t * Call2.nctrs s t) X.nComp m → h'.D (out + m) = .val 0) ∧
      Frame2 h h' nd (fun t => nsph (Call2.ls s) t * Call2.nctrs s t) X.nComp buf out empty fl loc counts ∧
      RetO R K X s O i j Vij Vkl Eij Ekl keep (Stops2 L X s O h i j k l) has := by
  have hfree : blkLen (Call2.ls s) * nctrOf (Call2.nctrs s) * X.nComp + blkLen (Call2.ls s) * 4 ≤ size := by
    refine le_trans ?_ hsize
    unfold cacheSize2e
    refine le_trans ?_ (le_max_right _ _)
    rw [show (s.env X).nf = blkLen (Call2.ls s) from nf_env2]
    refine le_of_eq ?_
    show _ = blkLen (Call2.ls s) * s.si.nctr * s.sj.nctr * s.sk.nctr * s.sl.nctr * X.nComp + blkLen (Call2.ls s) * 4
    have : nctrOf (Call2.nctrs s) = s.si.nctr * s.sj.nctr * s.sk.nctr * s.sl.nctr := rfl
    rw [this]; ring
  refine (wp_iff_run _ (fun has h' => _) _).1 ?_
  refine drv2eOpt_loop M hsize S A hz hs.nctr_pos hK hnc hl _ _ _ _ _ ?_
  intro has h1 D hr
  refine wp_mono (sphOut (r := 4) (tab := tab) D hs O' (fun _ _ x => absurd x (by omega)) M.countsw M.fpd_pos hl
    (fun t h1 h2 => absurd h1 (by omega)) hT htb hto (le_refl _) hfree M.dbl) ?_
  rintro _ h2 ⟨a, b, c⟩
  exact ⟨a, b, c, hr⟩

end Verif.Lemmas
