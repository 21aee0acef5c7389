import Verif.Lemmas.Int2eOpt

/-! CINTall_2e_optimizer fills all the tables the loops read. -/
namespace Verif.Lemmas
open Verif Verif.Model Verif.Prog Verif.Props Verif.Spec

variable {α : Type}

theorem ne_of_buf {p q : Ptr} (h : p.buf ≠ q.buf) (a b : Nat) : p + a ≠ q + b := by
  intro e
  have : (p + a).buf = (q + b).buf := by rw [e]
  exact h this

/-! ### the sparsity tables -/

section
variable [Field α] [LinearOrder α]

/-- `tot_prim_ctr` -/
def totCoef (B : Nat → PShell α) : Nat → Nat
  | 0 => 0
  | n+1 => totCoef B n + (B n).nprim * (B n).nctr

theorem totCoef_mono (B : Nat → PShell α) {m n : Nat} (h : m ≤ n) : totCoef B m ≤ totCoef B n := by
  induction h with
  | refl => exact Nat.le_refl _
  | step _ ih => exact Nat.le_trans ih (Nat.le_add_right _ _)

/-- the tables of the shells below `i` -/
structure TabsBelow (B : Nat → PShell α) (ctab cpool stab spool : Ptr) (h : Heap α) (i : Nat) : Prop where
  c : ∀ x, x < i → h.I (ctab + x) = .val ((totPrim B x : Nat) : Int)
  s : ∀ x, x < i → h.I (stab + x) = .val ((totCoef B x : Nat) : Int)
  tbl : ∀ x, x < i → TblIn h (cpool + totPrim B x) (spool + totCoef B x) (B x).c (B x).nprim (B x).nctr

theorem setNon0coeff_wp {B : Nat → PShell α} {nbas : Nat} {ctab cpool stab spool : Ptr} {h : Heap α}
    (ht : 0 < totPrim B nbas)
    (hN : [ctab.buf, stab.buf, cpool.buf, spool.buf].Nodup)
    (hc : ∀ q, q < nbas → h.I (ctab + q) ≠ .oob) (hs : ∀ q, q < nbas → h.I (stab + q) ≠ .oob)
    (hcp : ∀ q, q < totPrim B nbas → h.I (cpool + q) ≠ .oob)
    (hsp : ∀ q, q < totCoef B nbas → h.I (spool + q) ≠ .oob) :
    wp (setNon0coeff B nbas ctab cpool stab spool) (fun _ h' => TabsBelow B ctab cpool stab spool h' nbas ∧ h'.D = h.D ∧
      AgreeI h h' (fun q => Blk ctab nbas q ∨ Blk stab nbas q ∨ Blk cpool (totPrim B nbas) q ∨
        Blk spool (totCoef B nbas) q)) h := by
  simp only [List.nodup_cons, List.mem_cons, List.not_mem_nil, or_false, not_or, List.nodup_nil, and_true] at hN
  obtain ⟨⟨n1, n2, n3⟩, ⟨n4, n5⟩, n6, -⟩ := hN
  have hn : 0 < nbas := by
    rcases Nat.eq_zero_or_pos nbas with e | e
    · subst e; exact absurd ht (by simp [totPrim])
    · exact e
  let W : Ptr → Prop := fun q => Blk ctab nbas q ∨ Blk stab nbas q ∨ Blk cpool (totPrim B nbas) q ∨
        Blk spool (totCoef B nbas) q
  have one : ∀ {h1 h2 : Heap α} {q : Ptr}, W q → AgreeI h h1 W → (∀ q', q' ≠ q → h2.I q' = h1.I q') → AgreeI h h2 W := by
    intro h1 h2 q hq ha h12 q' hq'
    rw [h12 q' (fun e => hq' (e ▸ hq)), ha q' hq']
  unfold setNon0coeff
  rw [if_neg (by omega), wp_mbind]
  refine (wp_stI _ _ _ _).2 ⟨hc 0 hn, ?_⟩
  rw [wp_mbind]
  refine (wp_stI _ _ _ _).2 ⟨?_, ?_⟩
  · rw [Heap.setI_I_ne _ _ (ne_of_buf (Ne.symm n1) 0 0)]; exact hs 0 hn
  rw [wp_mbind]
  let h1 := h.setI (ctab + 0) 0
  let h2 := h1.setI (stab + 0) 0
  have a2 : AgreeI h h2 W := one (q := stab + 0) (Or.inr (Or.inl ⟨0, hn, rfl⟩))
    (one (q := ctab + 0) (Or.inl ⟨0, hn, rfl⟩) (AgreeI.refl _ _) (fun q' hq' => Heap.setI_I_ne _ _ hq'))
    (fun q' hq' => Heap.setI_I_ne _ _ hq')
  have setMono : ∀ (g : Heap α) (p : Ptr) (v : Int), AllocMono g (g.setI p v) := by
    intro g p v
    refine ⟨fun q hq => hq, fun q hq => ?_⟩
    by_cases e : q = p
    · subst e; rw [Heap.setI_I_self]; intro x; cases x
    · rw [Heap.setI_I_ne _ _ e]; exact hq
  have m2 : AllocMono h h2 := (setMono h _ _).trans (setMono h1 _ _)
  refine wp_forS (h := h2) (s := (0,0)) (fun i p g => p = (totPrim B i, totCoef B i) ∧ TabsBelow B ctab cpool stab spool g i ∧ g.D = h.D ∧
    AgreeI h g W ∧ AllocMono h g) ⟨rfl, ⟨fun x hx => absurd hx (by omega), fun x hx => absurd hx (by omega),
      fun x hx => absurd hx (by omega)⟩, rfl, ?_, ?_⟩ ?_ ?_
  · exact a2
  · exact m2
  · rintro i hi p g ⟨rfl, T, gD, gI, gm⟩
    dsimp only
    have hp1 : totPrim B i + (B i).nprim ≤ totPrim B nbas := totPrim_mono B (show i+1 ≤ nbas by omega)
    have hp2 : totCoef B i + (B i).nprim * (B i).nctr ≤ totCoef B nbas := totCoef_mono B (show i+1 ≤ nbas by omega)
    rw [wp_mbind]
    refine (wp_stI _ _ _ _).2 ⟨gm.I _ (hc i hi), ?_⟩
    rw [wp_mbind]
    refine (wp_stI _ _ _ _).2 ⟨(setMono g _ _).I _ (gm.I _ (hs i hi)), ?_⟩
    let g1 := g.setI (ctab + i) ((totPrim B i : Nat) : Int)
    let g2 := g1.setI (stab + i) ((totCoef B i : Nat) : Int)
    have gm2 : AllocMono h g2 := gm.trans ((setMono g _ _).trans (setMono g1 _ _))
    have ga : ∀ q, q ≠ ctab + i → q ≠ stab + i → g2.I q = g.I q := by
      intro q e1 e2
      rw [show g2.I q = g1.I q from Heap.setI_I_ne _ _ e2]
      exact Heap.setI_I_ne _ _ e1
    rw [wp_mbind]
    refine wp_mono (wp_allocMono (non0coeff_wp (spool + totCoef B i) (cpool + totPrim B i) (B i).c (B i).nprim (B i).nctr
      g2 ?_ ?_ ?_)) ?_
    · intro q hq; rw [Ptr.add_assoc]; exact gm2.I _ (hsp _ (by omega))
    · intro q hq; rw [Ptr.add_assoc]; exact gm2.I _ (hcp _ (by omega))
    · intro a b _ _ e
      exact n6 (congrArg Ptr.buf e).symm
    rintro _ g3 ⟨H, m3⟩
    rw [wp_pure]
    have fr : ∀ q, ¬ Blk (cpool + totPrim B i) (B i).nprim q → ¬ Blk (spool + totCoef B i) ((B i).nprim * (B i).nctr) q →
        g3.I q = g2.I q := by
      intro q e1 e2
      refine H.frame q ?_
      rintro k hk rfl
      rcases tblAddr_blk (non0ctr := cpool + totPrim B i) (non0idx := spool + totCoef B i) hk with e | e
      · exact e2 e
      · exact e1 e
    have frb : ∀ q : Ptr, q.buf ≠ cpool.buf → q.buf ≠ spool.buf → g3.I q = g2.I q := by
      intro q e1 e2
      refine fr q ?_ ?_
      · rintro ⟨x, _, rfl⟩; exact e1 rfl
      · rintro ⟨x, _, rfl⟩; exact e2 rfl
    refine ⟨rfl, ⟨?_, ?_, ?_⟩, ?_, ?_, gm2.trans m3⟩
    · intro x hx
      rw [frb (ctab + x) n2 n3]
      by_cases e : x = i
      · subst e
        rw [show g2.I (ctab + x) = g1.I (ctab + x) from Heap.setI_I_ne _ _ (ne_of_buf n1 _ _)]
        exact Heap.setI_I_self _ _ _
      · rw [ga _ (fun h => e ((Ptr.add_right_inj _ _ _).1 h)) (ne_of_buf n1 _ _)]
        exact T.c x (by omega)
    · intro x hx
      rw [frb (stab + x) n4 n5]
      by_cases e : x = i
      · subst e
        exact Heap.setI_I_self _ _ _
      · rw [ga _ (ne_of_buf (Ne.symm n1) _ _) (fun h => e ((Ptr.add_right_inj _ _ _).1 h))]
        exact T.s x (by omega)
    · intro x hx
      by_cases e : x = i
      · subst e
        exact H.val
      · have hx' : x + 1 ≤ i := by omega
        have q1 : totPrim B x + (B x).nprim ≤ totPrim B i := totPrim_mono B hx'
        have q2 : totCoef B x + (B x).nprim * (B x).nctr ≤ totCoef B i := totCoef_mono B hx'
        have ag : AgreeI g g3 (fun q => q = ctab + i ∨ q = stab + i ∨ Blk (cpool + totPrim B i) (B i).nprim q ∨
            Blk (spool + totCoef B i) ((B i).nprim * (B i).nctr) q) := by
          intro q hq
          simp only [not_or] at hq
          rw [fr q hq.2.2.1 hq.2.2.2, ga q hq.1 hq.2.1]
        refine (T.tbl x (by omega)).agree ag ?_ ?_
        · rintro z hz (e | e | ⟨y, hy, e⟩ | ⟨y, hy, e⟩)
          · exact n3 (congrArg Ptr.buf e).symm
          · exact n5 (congrArg Ptr.buf e).symm
          · exact n6 (congrArg Ptr.buf e).symm
          · rw [Ptr.add_assoc, Ptr.add_assoc] at e
            have := (Ptr.add_right_inj _ _ _).1 e
            omega
        · rintro z hz (e | e | ⟨y, hy, e⟩ | ⟨y, hy, e⟩)
          · exact n2 (congrArg Ptr.buf e).symm
          · exact n4 (congrArg Ptr.buf e).symm
          · rw [Ptr.add_assoc, Ptr.add_assoc] at e
            have := (Ptr.add_right_inj _ _ _).1 e
            omega
          · rw [Ptr.add_assoc, Ptr.add_assoc] at e
            exact ne_of_buf n6 _ _ e
    · rw [H.dbl]; exact gD
    · intro q hq
      have w1 : q ≠ ctab + i := fun e => hq (Or.inl ⟨i, hi, e⟩)
      have w2 : q ≠ stab + i := fun e => hq (Or.inr (Or.inl ⟨i, hi, e⟩))
      rw [fr q ?_ ?_, ga q w1 w2, gI q hq]
      · rintro ⟨x, hx, rfl⟩
        exact hq (Or.inr (Or.inr (Or.inl ⟨totPrim B i + x, by omega, by rw [Ptr.add_assoc]⟩)))
      · rintro ⟨x, hx, rfl⟩
        exact hq (Or.inr (Or.inr (Or.inr ⟨totCoef B i + x, by omega, by rw [Ptr.add_assoc]⟩)))
  · rintro p g ⟨rfl, T, gD, gI, gm⟩
    rw [wp_pure]
    exact ⟨T, gD, gI⟩
end

/-! ### the index tables -/

/-- number of Cartesian functions below angular momentum `n` -/
def cumCart : Nat → Nat
  | 0 => 0
  | n+1 => cumCart n + ncart n

/-- `cumcart` in the code -/
theorem cumCart_eq (n : Nat) : cumCart n = n*(n+1)*(n+2)/6 := by
  have key : 6 * cumCart n = n*(n+1)*(n+2) := by
    induction n with
    | zero => rfl
    | succ n ih =>
      have h2 : 2 * ncart n = (n+1)*(n+2) := by
        unfold ncart
        have : 2 ∣ (n+1)*(n+2) := by
          rcases Nat.even_or_odd n with ⟨k, hk⟩ | ⟨k, hk⟩
          · exact Dvd.dvd.mul_left ⟨k+1, by omega⟩ _
          · exact Dvd.dvd.mul_right ⟨k+1, by omega⟩ _
        omega
      show 6 * (cumCart n + ncart n) = _
      have : (n+1)*(n+1+1)*(n+1+2) = n*(n+1)*(n+2) + 3*((n+1)*(n+2)) := by ring
      omega
  omega

/-- the tables visited so far (`V`), the cursor `c`, and the entries that stay NULL -/
structure IxInv (maxl la : Nat) (ng : Inc) (sr : Bool) (ixa ixbuf loc : Ptr) (N : Nat) (h0 : Heap α)
    (V : Nat → Nat → Nat → Nat → Prop) (c : Nat) (h : Heap α) : Prop where
  done : ∀ i j k l, V i j k l → i ≤ la → j ≤ la → k ≤ la → l ≤ la → ∃ b : Nat,
    h.I (ixa + ixPos i j k l) = .val (b : Int) ∧ b + 3 * (initInt2e i j k l ng sr).nf ≤ c ∧
    ∀ m, m < 3 * (initInt2e i j k l ng sr).nf → h.I (ixbuf + b + m) = .val (tblF (initInt2e i j k l ng sr).nfi
      (g2eVal (initInt2e i j k l ng sr)) m)
  null : ∀ i j k l, i ≤ maxl → j ≤ 15 → k ≤ 15 → l ≤ 15 → ¬ (i ≤ la ∧ j ≤ la ∧ k ≤ la ∧ l ≤ la) →
    h.I (ixa + ixPos i j k l) = .val (-1)
  dbl : h.D = h0.D
  frame : AgreeI h0 h (fun q => Blk ixa ((maxl+1)*16*16*16) q ∨ Blk ixbuf N q ∨ Blk loc (12*136) q)
  mono : AllocMono h0 h

theorem IxInv.weaken {maxl la : Nat} {ng : Inc} {sr : Bool} {ixa ixbuf loc : Ptr} {N : Nat} {h0 h : Heap α}
    {V V' : Nat → Nat → Nat → Nat → Prop} {c : Nat} (H : IxInv maxl la ng sr ixa ixbuf loc N h0 V c h)
    (hV : ∀ i j k l, i ≤ la → j ≤ la → k ≤ la → l ≤ la → V' i j k l → V i j k l) :
    IxInv maxl la ng sr ixa ixbuf loc N h0 V' c h :=
  ⟨fun i j k l hv a b c d => H.done i j k l (hV i j k l a b c d hv) a b c d, H.null, H.dbl, H.frame, H.mono⟩

theorem ixPos_inj {i j k l i' j' k' l' : Nat} (hj : j ≤ 15) (hk : k ≤ 15) (hl : l ≤ 15) (hj' : j' ≤ 15) (hk' : k' ≤ 15)
    (hl' : l' ≤ 15) (e : ixPos i j k l = ixPos i' j' k' l') : i = i' ∧ j = j' ∧ k = k' ∧ l = l' := by
  unfold ixPos at e
  omega

theorem ixPos_lt {i j k l maxl : Nat} (hi : i ≤ maxl) (hj : j ≤ 15) (hk : k ≤ 15) (hl : l ≤ 15) :
    ixPos i j k l < (maxl+1)*16*16*16 := by
  unfold ixPos
  omega

theorem nf_init (i j k l : Nat) (ng : Inc) (sr : Bool) :
    (initInt2e i j k l ng sr).nf = ncart i * ncart j * ncart k * ncart l := by
  show lenCart i * lenCart k * lenCart l * lenCart j = _
  simp only [lenCart_eq]
  ring

/-- one table -/
theorem ix_step {maxl la : Nat} {ng : Inc} {sr : Bool} {ixa ixbuf loc : Ptr} {N : Nat} {h0 h : Heap α}
    {V : Nat → Nat → Nat → Nat → Prop} {c i j k l : Nat} (hla : la ≤ 15) (hlm : la ≤ maxl)
    (hD : [ixa.buf, ixbuf.buf, loc.buf].Nodup)
    (hixa : ∀ q, q < (maxl+1)*16*16*16 → h0.I (ixa + q) ≠ .oob) (hixb : ∀ q, q < N → h0.I (ixbuf + q) ≠ .oob)
    (hloc : ∀ q, q < 12*136 → h0.I (loc + q) ≠ .oob)
    (H : IxInv maxl la ng sr ixa ixbuf loc N h0 V c h) (hi : i ≤ la) (hj : j ≤ la) (hk : k ≤ la) (hl : l ≤ la)
    (hnew : ¬ V i j k l) (hroom : c + 3 * (ncart i * ncart j * ncart k * ncart l) ≤ N) :
    wp (do
      stI (ixa + ixPos i j k l) (c : Int)
      g2eIndex (ixbuf + c) loc (initInt2e i j k l ng sr)
      pure (c + (initInt2e i j k l ng sr).nf * 3))
      (fun c' h' => c' = c + 3 * (ncart i * ncart j * ncart k * ncart l) ∧
        IxInv maxl la ng sr ixa ixbuf loc N h0 (fun i' j' k' l' => V i' j' k' l' ∨ (i' = i ∧ j' = j ∧ k' = k ∧ l' = l)) c' h') h := by
  simp only [List.nodup_cons, List.mem_cons, List.not_mem_nil, or_false, not_or, List.nodup_nil, and_true] at hD
  obtain ⟨⟨n1, n2⟩, n3, -⟩ := hD
  let e := initInt2e i j k l ng sr
  have enf : e.nf = ncart i * ncart j * ncart k * ncart l := nf_init i j k l ng sr
  have eN : 3*(e.nfj*e.nfl*e.nfk*e.nfi) = 3 * e.nf := by
    show 3*(e.nfj*e.nfl*e.nfk*e.nfi) = 3*(e.nfi*e.nfk*e.nfl*e.nfj)
    ring
  have hp : ixPos i j k l < (maxl+1)*16*16*16 := ixPos_lt (by omega) (by omega) (by omega) (by omega)
  rw [wp_mbind]
  refine (wp_stI _ _ _ _).2 ⟨H.mono.I _ (hixa _ hp), ?_⟩
  let h1 := h.setI (ixa + ixPos i j k l) (c : Int)
  have m1 : AllocMono h h1 := by
    refine ⟨fun q hq => hq, fun q hq => ?_⟩
    by_cases e : q = ixa + ixPos i j k l
    · subst e; rw [show h1.I _ = .val (c : Int) from Heap.setI_I_self _ _ _]; intro x; cases x
    · rw [show h1.I q = h.I q from Heap.setI_I_ne _ _ e]; exact hq
  have hm1 := H.mono.trans m1
  rw [wp_mbind]
  have M : IdxMem h1 (ixbuf + c) loc (3*(e.nfj*e.nfl*e.nfk*e.nfi)) := by
    rw [eN, enf]
    refine ⟨?_, fun q hq => hm1.I _ (hloc q hq), ?_⟩
    · intro q hq
      rw [Ptr.add_assoc]
      exact hm1.I _ (hixb _ (by omega))
    · intro a b _ _ e
      exact n3 (congrArg Ptr.buf e).symm
  refine wp_mono (wp_allocMono (g2eIndex_wp (e := e) (show i ≤ 15 by omega) (show j ≤ 15 by omega) (show k ≤ 15 by omega)
    (show l ≤ 15 by omega) rfl rfl rfl rfl M)) ?_
  rintro _ h2 ⟨Dn, m2⟩
  rw [wp_pure]
  rw [eN] at Dn
  have e3 : c + e.nf * 3 = c + 3 * (ncart i * ncart j * ncart k * ncart l) := by rw [enf]; ring
  have f1 : ∀ q, q ≠ ixa + ixPos i j k l → h1.I q = h.I q := fun q hq => Heap.setI_I_ne _ _ hq
  have fa : ∀ q : Ptr, q.buf = ixa.buf → h2.I q = h1.I q := by
    intro q hq
    refine Dn.agree q ?_
    rintro (⟨x, _, rfl⟩ | ⟨x, _, rfl⟩)
    · exact n1 hq.symm
    · exact n2 hq.symm
  have fb : ∀ x, x < c → h2.I (ixbuf + x) = h.I (ixbuf + x) := by
    intro x hx
    rw [Dn.agree (ixbuf + x) ?_]
    · exact f1 _ (ne_of_buf (Ne.symm n1) _ _)
    rintro (⟨y, _, e⟩ | ⟨y, _, e⟩)
    · rw [Ptr.add_assoc] at e
      have := (Ptr.add_right_inj _ _ _).1 e
      omega
    · exact ne_of_buf n3 _ _ e
  refine ⟨e3, ?_, ?_, ?_, ?_, hm1.trans m2⟩
  · intro i' j' k' l' hv b1 b2 b3 b4
    by_cases hs : i' = i ∧ j' = j ∧ k' = k ∧ l' = l
    · obtain ⟨rfl, rfl, rfl, rfl⟩ := hs
      refine ⟨c, ?_, ?_, Dn.val⟩
      · rw [fa (ixa + _) rfl]; exact Heap.setI_I_self _ _ _
      · show c + 3 * e.nf ≤ c + e.nf * 3
        omega
    · obtain ⟨b, d1, d2, d3⟩ := H.done i' j' k' l' (hv.resolve_right hs) b1 b2 b3 b4
      refine ⟨b, ?_, le_trans d2 (Nat.le_add_right _ _), ?_⟩
      · rw [fa (ixa + _) rfl, f1 (ixa + _), d1]
        intro e
        have := ixPos_inj (by omega) (by omega) (by omega) (by omega) (by omega) (by omega) ((Ptr.add_right_inj _ _ _).1 e)
        exact hs this
      · intro m hm
        rw [Ptr.add_assoc, fb _ (by omega), ← Ptr.add_assoc]
        exact d3 m hm
  · intro i' j' k' l' b1 b2 b3 b4 hn
    rw [fa (ixa + _) rfl, f1 (ixa + _), H.null i' j' k' l' b1 b2 b3 b4 hn]
    intro e
    obtain ⟨rfl, rfl, rfl, rfl⟩ := ixPos_inj b2 b3 b4 (by omega) (by omega) (by omega) ((Ptr.add_right_inj _ _ _).1 e)
    exact hn ⟨hi, hj, hk, hl⟩
  · rw [Dn.dbl]; exact H.dbl
  · intro q hq
    simp only [not_or] at hq
    rw [Dn.agree q, f1 q, H.frame q (by simp only [not_or]; exact hq)]
    · rintro rfl
      exact hq.1 ⟨_, hp, rfl⟩
    · rintro (⟨x, hx, rfl⟩ | hx)
      · exact hq.2.1 ⟨c + x, by omega, by rw [Ptr.add_assoc]⟩
      · exact hq.2.2 hx

theorem genIdx4_wp {maxl allow : Nat} {ng : Inc} {sr : Bool} {ixa ixbuf loc : Ptr} {h : Heap α} (hm : maxl ≤ 15)
    (hD : [ixa.buf, ixbuf.buf, loc.buf].Nodup)
    (hixa : ∀ q, q < (maxl+1)*16*16*16 → h.I (ixa + q) ≠ .oob)
    (hixb : ∀ q, q < 3 * (cumCart (min maxl allow + 1))^4 → h.I (ixbuf + q) ≠ .oob)
    (hloc : ∀ q, q < 12*136 → h.I (loc + q) ≠ .oob) :
    wp (genIdx4 maxl allow ng sr ixa ixbuf loc) (fun _ h' => ∃ c,
      IxInv maxl (min maxl allow) ng sr ixa ixbuf loc (3 * (cumCart (min maxl allow + 1))^4) h (fun _ _ _ _ => True) c h') h := by
  let la := min maxl allow
  let T := cumCart (la + 1)
  let N := 3 * T^4
  have hla : la ≤ maxl := Nat.min_le_left _ _
  unfold genIdx4
  dsimp only
  rw [wp_mbind]
  refine (wp_stI _ _ _ _).2 ⟨hixa 0 (by omega), ?_⟩
  let h1 := h.setI (ixa + 0) 0
  have m1 : AllocMono h h1 := by
    refine ⟨fun q hq => hq, fun q hq => ?_⟩
    by_cases e : q = ixa + 0
    · subst e; rw [show h1.I _ = .val 0 from Heap.setI_I_self _ _ _]; intro x; cases x
    · rw [show h1.I q = h.I q from Heap.setI_I_ne _ _ e]; exact hq
  rw [wp_mbind]
  refine wp_mono (Q := fun _ g => AssignedI h1 g (fun m => m < (maxl+1)*16*16*16 - 1) (fun m => ixa + (m+1)) (fun _ => -1) ∧ AllocMono h1 g) (wp_allocMono ?_) ?_
  · refine wp_forN (fun n g => AssignedI h1 g (fun m => m < n) (fun m => ixa + (m+1)) (fun _ => -1)) ?_ ?_ ?_
    · exact AssignedI.init _ _ _ (by simp)
    · intro n hn g Hg
      refine (wp_stI _ _ _ _).2 ⟨?_, ?_⟩
      · rw [Hg.frame]
        · exact m1.I _ (hixa _ (by omega))
        · intro k hk e
          have := (Ptr.add_right_inj _ _ _).1 e
          omega
      · refine ⟨?_, ?_, Hg.dbl⟩
        · intro k hk
          by_cases e : k = n
          · subst e; exact Heap.setI_I_self _ _ _
          · rw [Heap.setI_I_ne _ _ (fun h => e (by have := (Ptr.add_right_inj _ _ _).1 h; omega))]
            exact Hg.val k (by omega)
        · intro q hq
          rw [Heap.setI_I_ne _ _ (hq n (by omega))]
          exact Hg.frame q (fun k hk => hq k (by omega))
    · exact fun g Hg => Hg
  rintro _ g ⟨Hg, mg⟩
  rw [wp_mbind]
  have I0 : IxInv maxl la ng sr ixa ixbuf loc N h (fun _ _ _ _ => False) 0 g := by
    refine ⟨fun _ _ _ _ hv => hv.elim, ?_, ?_, ?_, m1.trans mg⟩
    · intro i j k l a b c d hn
      have hp := ixPos_lt a b c d
      have h0 : 0 < ixPos i j k l := by
        rcases Nat.eq_zero_or_pos (ixPos i j k l) with e | e
        · exfalso; unfold ixPos at e; exact hn (by omega)
        · exact e
      have := Hg.val (ixPos i j k l - 1) (by omega)
      rw [show ixPos i j k l - 1 + 1 = ixPos i j k l by omega] at this
      exact this
    · rw [Hg.dbl]; rfl
    · intro q hq
      simp only [not_or] at hq
      rw [Hg.frame q, show h1.I q = h.I q from Heap.setI_I_ne _ _ ?_]
      · rintro rfl; exact hq.1 ⟨0, by omega, rfl⟩
      · rintro k hk rfl
        exact hq.1 ⟨k+1, by omega, rfl⟩
  have hC : ∀ n, cumCart (n+1) = cumCart n + ncart n := fun n => rfl
  have hCm : ∀ {m n : Nat}, m ≤ n → cumCart m ≤ cumCart n := by
    intro m n h
    induction h with
    | refl => exact Nat.le_refl _
    | step _ ih => exact Nat.le_trans ih (Nat.le_add_right _ _)
  refine wp_forS (fun i c g => c = 3 * (cumCart i * T^3) ∧
    IxInv maxl la ng sr ixa ixbuf loc N h (fun a _ _ _ => a < i) c g)
    ⟨by simp [cumCart], I0.weaken (fun _ _ _ _ _ _ _ _ hv => absurd hv (by omega))⟩ ?_ ?_
  · rintro i hi c g ⟨hc, I⟩
    refine wp_forS (fun j c g => c = 3 * (cumCart i * T^3 + ncart i * (cumCart j * T^2)) ∧
      IxInv maxl la ng sr ixa ixbuf loc N h (fun a b _ _ => a < i ∨ (a = i ∧ b < j)) c g)
      ⟨by rw [hc]; simp [cumCart], I.weaken (fun _ _ _ _ _ _ _ _ hv => by omega)⟩ ?_ ?_
    · rintro j hj c g ⟨hc, I⟩
      refine wp_forS (fun k c g => c = 3 * (cumCart i * T^3 + ncart i * (cumCart j * T^2 + ncart j * (cumCart k * T))) ∧
        IxInv maxl la ng sr ixa ixbuf loc N h (fun a b c _ => a < i ∨ (a = i ∧ (b < j ∨ (b = j ∧ c < k)))) c g)
        ⟨by rw [hc]; simp [cumCart], I.weaken (fun _ _ _ _ _ _ _ _ hv => by omega)⟩ ?_ ?_
      · rintro k hk c g ⟨hc, I⟩
        refine wp_forS (fun l c g => c = 3 * (cumCart i * T^3 + ncart i * (cumCart j * T^2 + ncart j * (cumCart k * T + ncart k * cumCart l))) ∧
          IxInv maxl la ng sr ixa ixbuf loc N h (fun a b c d => a < i ∨ (a = i ∧ (b < j ∨ (b = j ∧ (c < k ∨ (c = k ∧ d < l)))))) c g)
          ⟨by rw [hc]; simp [cumCart], I.weaken (fun _ _ _ _ _ _ _ _ hv => by omega)⟩ ?_ ?_
        · rintro l hl c g ⟨hc, I⟩
          have hnext : c + 3 * (ncart i * ncart j * ncart k * ncart l) =
              3 * (cumCart i * T^3 + ncart i * (cumCart j * T^2 + ncart j * (cumCart k * T + ncart k * cumCart (l+1)))) := by
            rw [hc, hC l]; ring
          refine wp_mono (ix_step (by omega) hla hD hixa hixb hloc I (by omega) (by omega) (by omega) (by omega) (by omega) ?_) ?_
          · rw [hnext]
            have q1 : cumCart (l+1) ≤ T := hCm (by omega)
            have q2 : cumCart k + ncart k ≤ T := hCm (show k+1 ≤ la+1 by omega)
            have q3 : cumCart j + ncart j ≤ T := hCm (show j+1 ≤ la+1 by omega)
            have q4 : cumCart i + ncart i ≤ T := hCm (show i+1 ≤ la+1 by omega)
            show _ ≤ 3 * T^4
            refine Nat.mul_le_mul_left _ ?_
            have s1 : cumCart k * T + ncart k * cumCart (l+1) ≤ T * T :=
              le_trans (Nat.add_le_add_left (Nat.mul_le_mul_left _ q1) _) (by rw [← Nat.add_mul]; exact Nat.mul_le_mul_right _ q2)
            have s2 : cumCart j * T^2 + ncart j * (cumCart k * T + ncart k * cumCart (l+1)) ≤ T * T^2 := by
              refine le_trans (Nat.add_le_add_left (Nat.mul_le_mul_left _ s1) _) ?_
              rw [← pow_two, ← Nat.add_mul]; exact Nat.mul_le_mul_right _ q3
            have s3 : cumCart i * T^3 + ncart i * (cumCart j * T^2 + ncart j * (cumCart k * T + ncart k * cumCart (l+1))) ≤ T * T^3 := by
              refine le_trans (Nat.add_le_add_left (Nat.mul_le_mul_left _ s2) _) ?_
              rw [show T * T^2 = T^3 by ring, ← Nat.add_mul]; exact Nat.mul_le_mul_right _ q4
            rw [show T^4 = T * T^3 by ring]
            exact s3
          · rintro c' g' ⟨hc', I'⟩
            exact ⟨by rw [hc', hnext], I'.weaken (fun _ _ _ _ _ _ _ _ hv => by omega)⟩
        · rintro c g ⟨hc, I⟩
          refine ⟨?_, I.weaken (fun _ _ _ _ _ _ _ _ hv => by omega)⟩
          rw [hc, hC k]
          show 3 * (cumCart i * T^3 + ncart i * (cumCart j * T^2 + ncart j * (cumCart k * T + ncart k * T))) = _
          ring
      · rintro c g ⟨hc, I⟩
        refine ⟨?_, I.weaken (fun _ _ _ _ _ _ _ _ hv => by omega)⟩
        rw [hc, hC j]
        show 3 * (cumCart i * T^3 + ncart i * (cumCart j * T^2 + ncart j * (T * T))) = _
        ring
    · rintro c g ⟨hc, I⟩
      refine ⟨?_, I.weaken (fun _ _ _ _ _ _ _ _ hv => by omega)⟩
      rw [hc, hC i]
      show 3 * (cumCart i * T^3 + ncart i * (T * T^2)) = _
      ring
  · rintro c g ⟨hc, I⟩
    rw [wp_pure]
    exact ⟨c, I.weaken (fun _ _ _ _ _ _ _ _ hv => by omega)⟩

/-! ### the whole optimizer -/

section
variable [Field α] [LinearOrder α]

/-- The optimizer serves every combination of shells of the basis. -/
structure OptOK (L : MathLib α) (X : Int2e α) (B : Nat → PShell α) (nbas : Nat) (envCut omega : α) (O : Opt2)
    (h : Heap α) : Prop where
  n : O.nbas = nbas
  pairs : ∀ t p, O.pair = some (t, p) → ∀ a b, a < nbas → b < nbas →
    PairCell h t p nbas a b (B a).nprim (B b).nprim
      (pairTblVal L B (ijklInc X.ng.i X.ng.j X.ng.k X.ng.l) (setijCutoff envCut) omega a b)
      (pairTblEmpty L B (ijklInc X.ng.i X.ng.j X.ng.k X.ng.l) (setijCutoff envCut) omega a b)
  none : O.pair = none ↔ 2048 < totPrim B nbas
  tab : ∀ x, x < nbas → TabAt O h x (B x)
  ix : ∀ i j k l, i < nbas → j < nbas → k < nbas → l < nbas → IxAt O h (B i).l (B j).l (B k).l (B l).l
    (initInt2e (B i).l (B j).l (B k).l (B l).l X.ng (decide (omega < 0)))

theorem OptOK.agree {L : MathLib α} {X : Int2e α} {B : Nat → PShell α} {nbas : Nat} {envCut omega : α} {O : Opt2}
    {h h' : Heap α} (A : OptOK L X B nbas envCut omega O h) {W W' : Ptr → Prop} (hD : AgreeD h h' W) (hI : AgreeI h h' W')
    (h1 : ∀ q, W q → OptSep O q.buf) (h2 : ∀ q, W' q → OptSep O q.buf) : OptOK L X B nbas envCut omega O h' := by
  have hA : ∀ q, W' q → Avoids O q.buf := fun q hq => (h2 q hq).1
  refine ⟨A.n, ?_, A.none, fun x hx => (A.tab x hx).agree hI hA, fun i j k l a b c d => (A.ix i j k l a b c d).agree hI hA⟩
  intro t p hO a b ha hb
  exact (A.pairs t p hO a b ha hb).agree hD hI (fun q hq hw => ((h2 q hw).2 t p hO).1 hq.symm)
    (fun q hq hw => ((h1 q hw).2 t p hO).2 hq.symm)

/-- the memory handed out by malloc in the constructor -/
structure OptMem (B : Nat → PShell α) (nbas : Nat) (P : OptPtrs) (loc : Ptr) (h : Heap α) : Prop where
  ptab : ∀ q, q < nbas*nbas → h.I (P.ptab + q) ≠ .oob
  ppool : AllocD h P.ppool (5*(totPrim B nbas*totPrim B nbas))
  ctab : ∀ q, q < nbas → h.I (P.ctab + q) ≠ .oob
  stab : ∀ q, q < nbas → h.I (P.stab + q) ≠ .oob
  cpool : ∀ q, q < totPrim B nbas → h.I (P.cpool + q) ≠ .oob
  spool : ∀ q, q < totCoef B nbas → h.I (P.spool + q) ≠ .oob
  ixa : ∀ q, q < (maxAng B nbas + 1)*16*16*16 → h.I (P.ixa + q) ≠ .oob
  ixbuf : ∀ q, q < 3 * (cumCart (min (maxAng B nbas) 6 + 1))^4 → h.I (P.ixbuf + q) ≠ .oob
  locw : ∀ q, q < 12*136 → h.I (loc + q) ≠ .oob
  distinct : [P.ptab.buf, P.ctab.buf, P.stab.buf, P.cpool.buf, P.spool.buf, P.ixa.buf, P.ixbuf.buf, loc.buf].Nodup

/-- the integer arrays of the optimizer and the local arrays of its constructor -/
def OptBufI (P : OptPtrs) (loc q : Ptr) : Prop :=
  q.buf ∈ [P.ptab.buf, P.ctab.buf, P.stab.buf, P.cpool.buf, P.spool.buf, P.ixa.buf, P.ixbuf.buf, loc.buf]

theorem le_maxAng (B : Nat → PShell α) {n i : Nat} (h : i < n) : (B i).l ≤ maxAng B n := by
  induction n with
  | zero => omega
  | succ n ih =>
    by_cases e : i = n
    · subst e; exact Nat.le_max_right _ _
    · exact le_trans (ih (by omega)) (Nat.le_max_left _ _)

theorem maxAng_le (B : Nat → PShell α) {n m : Nat} (h : ∀ i, i < n → (B i).l ≤ m) : maxAng B n ≤ m := by
  induction n with
  | zero => exact Nat.zero_le _
  | succ n ih => exact Nat.max_le.2 ⟨ih (fun i hi => h i (by omega)), h n (by omega)⟩

variable {L : MathLib α} {X : Int2e α} {B : Nat → PShell α} {nbas : Nat} {envCut omega : α} {P : OptPtrs} {loc : Ptr}

theorem optimizer2e_wp {h : Heap α} (M : OptMem B nbas P loc h) (ht : 0 < totPrim B nbas)
    (hl : ∀ i, i < nbas → (B i).l ≤ 15) :
    wp (optimizer2e X L B nbas envCut omega P loc) (fun O h' => OptOK L X B nbas envCut omega O h' ∧
      AgreeD h h' (fun q => q.buf = P.ppool.buf) ∧ AgreeI h h' (OptBufI P loc) ∧
      O = ⟨nbas, O.pair, P.ctab, P.cpool, P.stab, P.spool, P.ixa, P.ixbuf⟩ ∧
      (O.pair = none ∨ O.pair = some (P.ptab, P.ppool))) h := by
  have hN := M.distinct
  have hn : 0 < nbas := by
    rcases Nat.eq_zero_or_pos nbas with e | e
    · subst e; exact absurd ht (by simp [totPrim])
    · exact e
  let inc := ijklInc X.ng.i X.ng.j X.ng.k X.ng.l
  unfold optimizer2e
  rw [wp_mbind]
  have S1 : wp (setij L B nbas inc (setijCutoff envCut) omega P.ptab P.ppool) (fun has h' =>
      (has = true → ∃ c, SetijInv L B nbas inc (setijCutoff envCut) omega P.ptab P.ppool (totPrim B nbas) h h' c (fun _ _ => True)) ∧
      (has = false ↔ 2048 < totPrim B nbas) ∧ AgreeD h h' (fun q => q.buf = P.ppool.buf) ∧
      AgreeI h h' (fun q => q.buf = P.ptab.buf) ∧ AllocMono h h') h := by
    unfold setij
    by_cases hb : totPrim B nbas = 0 ∨ totPrim B nbas > 2048
    · rw [if_pos hb, wp_pure]
      exact ⟨fun e => (nomatch e), ⟨fun _ => by omega, fun _ => rfl⟩, AgreeD.refl _ _, AgreeI.refl _ _, ⟨fun _ => id, fun _ => id⟩⟩
    · rw [if_neg hb, wp_mbind]
      refine wp_mono (setijLoop_wp hn M.ppool M.ptab) ?_
      rintro _ h' ⟨c, hc, H⟩
      rw [wp_pure]
      refine ⟨fun _ => ⟨c, H⟩, ⟨fun e => (nomatch e), fun e => absurd e (by omega)⟩, H.frameD.mono ?_, H.frameI.mono ?_, H.mono⟩
      · intro q hq; exact blk_buf hq
      · intro q hq; exact blk_buf hq
  simp only [List.nodup_cons, List.mem_cons, List.not_mem_nil, or_false, not_or, List.nodup_nil, and_true] at hN
  obtain ⟨⟨p1, p2, p3, p4, p5, p6, p7⟩, ⟨c1, c2, c3, c4, c5, c6⟩, ⟨s1, s2, s3, s4, s5⟩, ⟨k1, k2, k3, k4⟩, ⟨o1, o2, o3⟩,
    ⟨x1, x2⟩, y1, -⟩ := hN
  refine wp_mono S1 ?_
  rintro has h1 ⟨hs, hnone, aD1, aI1, m1⟩
  rw [wp_mbind]
  refine wp_mono (wp_allocMono (setNon0coeff_wp ht ?_ (fun q hq => m1.I _ (M.ctab q hq)) (fun q hq => m1.I _ (M.stab q hq))
    (fun q hq => m1.I _ (M.cpool q hq)) (fun q hq => m1.I _ (M.spool q hq)))) ?_
  · simp only [List.nodup_cons, List.mem_cons, List.not_mem_nil, or_false, not_or, List.nodup_nil, and_true]
    exact ⟨⟨c1, c2, c3⟩, ⟨s1, s2⟩, k1, not_false⟩
  rintro _ h2 ⟨⟨T, dD2, aI2⟩, m2⟩
  have m12 := m1.trans m2
  rw [wp_mbind]
  refine wp_mono (genIdx4_wp (maxAng_le B hl) ?_ (fun q hq => m12.I _ (M.ixa q hq)) (fun q hq => m12.I _ (M.ixbuf q hq))
    (fun q hq => m12.I _ (M.locw q hq))) ?_
  · simp only [List.nodup_cons, List.mem_cons, List.not_mem_nil, or_false, not_or, List.nodup_nil, and_true]
    exact ⟨⟨x1, x2⟩, y1, not_false⟩
  rintro _ h3 ⟨c, I⟩
  rw [wp_pure]
  have aI2' : AgreeI h1 h2 (fun q => q.buf = P.ctab.buf ∨ q.buf = P.stab.buf ∨ q.buf = P.cpool.buf ∨ q.buf = P.spool.buf) := by
    refine aI2.mono ?_
    rintro q (e | e | e | e)
    · exact Or.inl (blk_buf e)
    · exact Or.inr (Or.inl (blk_buf e))
    · exact Or.inr (Or.inr (Or.inl (blk_buf e)))
    · exact Or.inr (Or.inr (Or.inr (blk_buf e)))
  have aI3 : AgreeI h2 h3 (fun q => q.buf = P.ixa.buf ∨ q.buf = P.ixbuf.buf ∨ q.buf = loc.buf) := by
    refine I.frame.mono ?_
    rintro q (e | e | e)
    · exact Or.inl (blk_buf e)
    · exact Or.inr (Or.inl (blk_buf e))
    · exact Or.inr (Or.inr (blk_buf e))
  have aD3 : h3.D = h1.D := by rw [I.dbl, dD2]
  refine ⟨⟨rfl, ?_, ?_, ?_, ?_⟩, ?_, ?_, rfl, ?_⟩
  · intro t p hO a b ha hb
    dsimp only at hO
    cases has with
    | false => cases hO
    | true =>
      obtain ⟨rfl, rfl⟩ : P.ptab = t ∧ P.ppool = p := by
        have := Option.some.inj (show some (P.ptab, P.ppool) = some (t, p) from hO)
        exact ⟨congrArg Prod.fst this, congrArg Prod.snd this⟩
      obtain ⟨cc, H⟩ := hs rfl
      have E : PairCell h1 P.ptab P.ppool nbas a b (B a).nprim (B b).nprim
          (pairTblVal L B inc (setijCutoff envCut) omega a b) (pairTblEmpty L B inc (setijCutoff envCut) omega a b) := by
        rcases H.ent a b ha hb True.intro with ⟨e1, e2, _⟩ | ⟨o, e1, _, e3, e4⟩
        · exact Or.inl ⟨e1, e2⟩
        · exact Or.inr ⟨o, e1, e3, fun hE => e4.resolve_left (fun hn => hn hE)⟩
      refine E.agree (W := fun _ => False) (W' := fun q => q.buf ≠ P.ptab.buf) ?_ ?_ (fun q hq hw => hw hq) (fun q _ hw => hw)
      · intro q _; rw [aD3]
      · intro q hq
        have hq' : q.buf = P.ptab.buf := by by_contra hne; exact hq hne
        rw [aI3 q (by simp only [hq', not_or]; exact ⟨p5, p6, p7⟩), aI2' q (by simp only [hq', not_or]; exact ⟨p1, p2, p3, p4⟩)]
  · show (if has = true then some (P.ptab, P.ppool) else none) = none ↔ _
    rw [← hnone]
    cases has <;> simp
  · intro x hx
    refine ⟨totPrim B x, totCoef B x, ?_, ?_, (T.tbl x hx).agree aI3 ?_ ?_⟩
    · show h3.I (P.ctab + x) = _
      rw [aI3 (P.ctab + x) (by simp only [not_or]; exact ⟨c4, c5, c6⟩)]; exact T.c x hx
    · show h3.I (P.stab + x) = _
      rw [aI3 (P.stab + x) (by simp only [not_or]; exact ⟨s3, s4, s5⟩)]; exact T.s x hx
    · intro q _
      simp only [not_or]; exact ⟨o1, o2, o3⟩
    · intro q _
      simp only [not_or]; exact ⟨k2, k3, k4⟩
  · intro i j k l hi hj hk hll
    have hh : ∀ {y}, y < nbas → (B y).l ≤ maxAng B nbas := fun hy => le_maxAng B hy
    by_cases hla : (B i).l ≤ min (maxAng B nbas) 6 ∧ (B j).l ≤ min (maxAng B nbas) 6 ∧ (B k).l ≤ min (maxAng B nbas) 6 ∧
        (B l).l ≤ min (maxAng B nbas) 6
    · obtain ⟨b, d1, _, d3⟩ := I.done _ _ _ _ True.intro hla.1 hla.2.1 hla.2.2.1 hla.2.2.2
      exact Or.inr ⟨b, d1, d3⟩
    · exact Or.inl (I.null _ _ _ _ (hh hi) (hl j hj) (hl k hk) (hl l hll) hla)
  · intro q hq; rw [aD3]; exact aD1 q hq
  · intro q hq
    unfold OptBufI at hq
    simp only [List.mem_cons, List.not_mem_nil, or_false, not_or] at hq
    rw [aI3 q (by simp only [not_or]; tauto), aI2' q (by simp only [not_or]; tauto), aI1 q hq.1]
  · show (if has = true then some (P.ptab, P.ppool) else none) = none ∨ (if has = true then some (P.ptab, P.ppool) else none) = _
    cases has <;> simp

end
end Verif.Lemmas
