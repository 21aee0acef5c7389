import Verif.Model.PairData
import Verif.Core.Frame
import Mathlib.Tactic.Ring
import Mathlib.Tactic.FieldSimp

namespace Verif.Model
open Verif Prog

variable {α : Type} [Field α] [LinearOrder α]

/-- all primitive pairs are negligible -/
def PairEmpty (L : MathLib α) (p : PairArgs α) : Prop :=
  ∀ ip jp, ip < p.si.nprim → jp < p.sj.nprim → ¬ pairCC L p ip jp < p.cutoff

/-- the block at `pd` holds the data of the pair, first shell fastest -/
def PairBlk (h : Heap α) (pd : Ptr) (I J : Nat) (V : Nat → Nat → Nat → α) : Prop :=
  ∀ ip jp k, ip < I → jp < J → k < 5 → h.D (pd + (5*(jp*I+ip)+k)) = .val (V ip jp k)

def pairF (I : Nat) (V : Nat → Nat → Nat → α) (q : Nat) : α := V (q/5%I) (q/5/I) (q%5)

theorem pairF_eq {I : Nat} {V : Nat → Nat → Nat → α} {ip jp k : Nat} (hi : ip < I) (hk : k < 5) :
    pairF I V (5*(jp*I+ip)+k) = V ip jp k := by
  have e1 : (5*(jp*I+ip)+k)/5 = jp*I+ip := by omega
  have e2 : (5*(jp*I+ip)+k)%5 = k := by omega
  unfold pairF
  rw [e1, e2, Nat.mul_comm jp, Nat.mul_add_div (by omega), Nat.mul_add_mod, Nat.div_eq_of_lt hi,
    Nat.mod_eq_of_lt hi, Nat.add_zero]

/-- five stores in the order 4, 0, 1, 2, 3 complete an entry -/
theorem entry_step {h h1 : Heap α} {pd : Ptr} {F : Nat → α} {n : Nat} {v : Nat → α}
    (H : AssignedD h h1 (fun q => q < 5*n) (fun q => pd + q) F)
    (hv : ∀ k, k < 5 → F (5*n+k) = v k) :
    AssignedD h (((((h1.setD (pd + (5*n+4)) (v 4)).setD (pd + (5*n+0)) (v 0)).setD (pd + (5*n+1)) (v 1)).setD
      (pd + (5*n+2)) (v 2)).setD (pd + (5*n+3)) (v 3)) (fun q => q < 5*(n+1)) (fun q => pd + q) F := by
  have inj : ∀ (P : Nat → Prop) k k', P k' → pd + k' = pd + k → F k' = F k := by
    intro P k k' _ e
    rw [Ptr.add_right_inj] at e; rw [e]
  have H1 := H.set (P' := fun q => q < 5*n ∨ q = 5*n+4) (5*n+4) (inj _ _) (fun _ => Iff.rfl)
  have H2 := H1.set (P' := fun q => (q < 5*n ∨ q = 5*n+4) ∨ q = 5*n+0) (5*n+0) (inj _ _) (fun _ => Iff.rfl)
  have H3 := H2.set (P' := fun q => ((q < 5*n ∨ q = 5*n+4) ∨ q = 5*n+0) ∨ q = 5*n+1) (5*n+1) (inj _ _)
    (fun _ => Iff.rfl)
  have H4 := H3.set (P' := fun q => (((q < 5*n ∨ q = 5*n+4) ∨ q = 5*n+0) ∨ q = 5*n+1) ∨ q = 5*n+2) (5*n+2)
    (inj _ _) (fun _ => Iff.rfl)
  have H5 := H4.set (P' := fun q => ((((q < 5*n ∨ q = 5*n+4) ∨ q = 5*n+0) ∨ q = 5*n+1) ∨ q = 5*n+2) ∨
    q = 5*n+3) (5*n+3) (inj _ _) (fun _ => Iff.rfl)
  rw [hv 4 (by omega)] at H1 H2 H3 H4 H5
  rw [hv 0 (by omega)] at H2 H3 H4 H5
  rw [hv 1 (by omega)] at H3 H4 H5
  rw [hv 2 (by omega)] at H4 H5
  rw [hv 3 (by omega)] at H5
  refine H5.congr (fun q => ?_) (fun _ _ => rfl)
  omega

theorem wp_entry {A : Type} {h h1 : Heap α} {pd : Ptr} {F : Nat → α} {n N : Nat} {v : Nat → α}
    (H : AssignedD h h1 (fun q => q < 5*n) (fun q => pd + q) F)
    (ha : AllocD h pd (5*N)) (hn : n < N)
    (hv : ∀ k, k < 5 → F (5*n+k) = v k) {Q : A → Heap α → Prop} {a : A}
    (hQ : ∀ h2, AssignedD h h2 (fun q => q < 5*(n+1)) (fun q => pd + q) F → Q a h2) :
    wp (do
      st (pd + 5*n + 4) (v 4)
      st (pd + 5*n + 0) (v 0)
      st (pd + 5*n + 1) (v 1)
      st (pd + 5*n + 2) (v 2)
      st (pd + 5*n + 3) (v 3)
      pure a : Prog α A) Q h1 := by
  simp only [wp_mbind, wp_st, wp_pure, Ptr.add_assoc]
  have al : ∀ k, k < 5 → h1.D (pd + (5*n+k)) ≠ .oob := fun k hk => H.ne_oob (ha _ (by omega))
  have st : ∀ (g : Heap α) (q q' : Ptr) (x : α), g.D q ≠ .oob → (g.setD q' x).D q ≠ .oob := by
    intro g q q' x hq
    rw [Heap.setD_D]; split
    · simp
    · exact hq
  refine ⟨al 4 (by omega), st _ _ _ _ (al 0 (by omega)), st _ _ _ _ (st _ _ _ _ (al 1 (by omega))),
    st _ _ _ _ (st _ _ _ _ (st _ _ _ _ (al 2 (by omega)))),
    st _ _ _ _ (st _ _ _ _ (st _ _ _ _ (st _ _ _ _ (al 3 (by omega))))), ?_⟩
  exact hQ _ (entry_step H hv)

theorem setPairdata_wp {L : MathLib α} {pd : Ptr} {p : PairArgs α} {h : Heap α}
    (ha : AllocD h pd (5*(p.sj.nprim*p.si.nprim))) :
    wp (setPairdata L pd p) (fun e h' => (e = true ↔ PairEmpty L p) ∧
      PairBlk h' pd p.si.nprim p.sj.nprim (pairVal L p) ∧
      AgreeD h h' (Blk pd (5*(p.sj.nprim*p.si.nprim))) ∧ h'.I = h.I) h := by
  let I := p.si.nprim
  let N := p.sj.nprim*p.si.nprim
  let F := pairF I (pairVal L p)
  let bad : Nat → Prop := fun n => ∀ ip jp, ip < I → jp*I+ip < n → ¬ pairCC L p ip jp < p.cutoff
  unfold setPairdata
  rw [wp_mbind]
  refine wp_forS (fun jp s h' => s.1 = jp*I ∧ (s.2 = true ↔ bad (jp*I)) ∧
    AssignedD h h' (fun q => q < 5*(jp*I)) (fun q => pd + q) F) ?_ ?_ ?_
  · refine ⟨by simp, ?_, AssignedD.init _ _ _ (by simp)⟩
    simp [bad]
  · rintro jp hjp s h1 ⟨e1, b1, H1⟩
    refine wp_forS (fun ip s h' => s.1 = jp*I+ip ∧ (s.2 = true ↔ bad (jp*I+ip)) ∧
      AssignedD h h' (fun q => q < 5*(jp*I+ip)) (fun q => pd + q) F) ⟨e1, b1, H1⟩ ?_ ?_
    · rintro ip hip ⟨n, b⟩ h2 ⟨e2, b2, H2⟩
      dsimp only at e2 b2
      subst e2
      have hlt : jp*I+ip < N := radix_lt hjp hip
      have badS : ∀ c : Prop, (pairCC L p ip jp < p.cutoff ↔ c) →
          (bad (jp*I+ip+1) ↔ bad (jp*I+ip) ∧ ¬ c) := by
        intro c hc
        constructor
        · intro hb
          exact ⟨fun ip' jp' hi' hlt' => hb ip' jp' hi' (by omega), by
            rw [← hc]; exact hb ip jp hip (by omega)⟩
        · rintro ⟨hb, hnc⟩ ip' jp' hi' hlt'
          by_cases e : jp'*I+ip' = jp*I+ip
          · obtain ⟨rfl, rfl⟩ := radix_inj hi' hip e
            rw [hc]; exact hnc
          · exact hb ip' jp' hi' (by omega)
      dsimp only
      by_cases hc : pairCC L p ip jp < p.cutoff
      · have hc' := hc
        unfold pairCC at hc'
        simp only [hc', if_true]
        have w := wp_entry (v := fun k => pairVal L p ip jp k) H2 ha hlt
          (fun k hk => pairF_eq hip hk) (a := ((jp*I+ip+1, false) : Nat × Bool))
          (Q := fun a h3 => a.1 = jp*I+(ip+1) ∧ (a.2 = true ↔ bad (jp*I+(ip+1))) ∧
            AssignedD h h3 (fun q => q < 5*(jp*I+(ip+1))) (fun q => pd + q) F) (by
            intro h3 H3
            refine ⟨rfl, ?_, H3⟩
            rw [← Nat.add_assoc, badS True (iff_true_intro hc)]
            simp)
        · have e4 : pairVal L p ip jp 4 = pairCC L p ip jp := rfl
          have e3 : pairVal L p ip jp 3 = L.exp (-(p.rr * p.si.a ip * p.sj.a jp * (1/(p.si.a ip + p.sj.a jp)))) := by
            simp [pairVal, hc]
          have ek : ∀ k, k < 3 → pairVal L p ip jp k = p.si.r k +
              p.sj.a jp * (1/(p.si.a ip + p.sj.a jp)) * (p.sj.r k - p.si.r k) := by
            intro k hk
            unfold pairVal
            simp only [hc, if_true]
            rw [if_neg (by omega), if_neg (by omega)]
          rw [e4, e3, ek 0 (by omega), ek 1 (by omega), ek 2 (by omega)] at w
          exact w
      · have hc' := hc
        unfold pairCC at hc'
        simp only [hc', if_false]
        have w := wp_entry (v := fun k => pairVal L p ip jp k) H2 ha hlt
          (fun k hk => pairF_eq hip hk) (a := ((jp*I+ip+1, b) : Nat × Bool))
          (Q := fun a h3 => a.1 = jp*I+(ip+1) ∧ (a.2 = true ↔ bad (jp*I+(ip+1))) ∧
            AssignedD h h3 (fun q => q < 5*(jp*I+(ip+1))) (fun q => pd + q) F) (by
            intro h3 H3
            refine ⟨rfl, ?_, H3⟩
            rw [← Nat.add_assoc, badS False (iff_false_intro hc)]
            simpa using b2)
        · have e4 : pairVal L p ip jp 4 = pairCC L p ip jp := rfl
          have e3 : pairVal L p ip jp 3 = 0 := by simp [pairVal, hc]
          have ek : ∀ k, k < 3 → pairVal L p ip jp k = 10^18 := by
            intro k hk
            unfold pairVal
            simp only [hc, if_false]
            rw [if_neg (by omega), if_neg (by omega)]
          rw [e4, e3, ek 0 (by omega), ek 1 (by omega), ek 2 (by omega)] at w
          exact w
    · rintro s' h2 ⟨e2, b2, H2⟩
      have e : jp*I + I = (jp+1)*I := by rw [Nat.add_mul, Nat.one_mul]
      change s'.1 = jp*I+I at e2
      change s'.2 = true ↔ bad (jp*I+I) at b2
      change AssignedD h h2 (fun q => q < 5*(jp*I+I)) _ _ at H2
      rw [e] at e2 b2 H2
      exact ⟨e2, b2, H2⟩
  · rintro s h1 ⟨e1, b1, H1⟩
    simp only [wp_pure]
    refine ⟨?_, ?_, H1.agree (fun k hk => ⟨k, hk, rfl⟩), H1.int⟩
    · rw [b1]
      constructor
      · intro hb ip jp hi hj
        exact hb ip jp hi (radix_lt hj hi)
      · intro hb ip jp hi hlt
        refine hb ip jp hi ?_
        by_contra hc
        have : p.sj.nprim * I ≤ jp * I := Nat.mul_le_mul_right _ (Nat.not_lt.1 hc)
        omega
    · intro ip jp k hi hj hk
      have := radix_lt hj hi
      rw [H1.val (5*(jp*I+ip)+k) (by show _ < 5*(p.sj.nprim*p.si.nprim); change 5*(jp*p.si.nprim+ip)+k < _; omega)]
      exact congrArg _ (pairF_eq hi hk)

theorem setijTranspose_wp {pool : Ptr} {I J c0 c1 : Nat} {h : Heap α} {V : Nat → Nat → Nat → α}
    (hb : PairBlk h (pool + 5*c0) I J V) (hlt : c0 + I*J ≤ c1)
    (ha : AllocD h (pool + 5*c1) (5*(I*J))) :
    wp (setijTranspose pool I J c0 c1) (fun c h' => c = c1 + I*J ∧
      PairBlk h' (pool + 5*c1) J I (fun jp ip k => V ip jp k) ∧
      AgreeD h h' (Blk (pool + 5*c1) (5*(I*J))) ∧ h'.I = h.I) h := by
  let F := pairF J (fun jp ip k => V ip jp k)
  let adr : Nat → Ptr := fun q => pool + 5*c1 + q
  have inj : ∀ (P : Nat → Prop) k k', P k' → adr k' = adr k → F k' = F k := by
    intro P k k' _ e
    rw [Ptr.add_right_inj] at e; rw [e]
  unfold setijTranspose
  refine wp_forS (fun ip c h' => c = c1 + ip*J ∧
    AssignedD h h' (fun q => q < 5*(ip*J)) adr F) ?_ ?_ ?_
  · exact ⟨by simp, AssignedD.init _ _ _ (by simp)⟩
  · rintro ip hip c h1 ⟨e1, H1⟩
    refine wp_forS (fun jp c h' => c = c1 + (ip*J+jp) ∧
      AssignedD h h' (fun q => q < 5*(ip*J+jp)) adr F) ⟨e1, H1⟩ ?_ ?_
    · rintro jp hjp c h2 ⟨e2, H2⟩
      subst e2
      rw [wp_mbind]
      have hlt' : ip*J+jp < I*J := radix_lt hip hjp
      have hsl : jp*I+ip < J*I := radix_lt hjp hip
      rw [Nat.mul_comm J I] at hsl
      refine wp_forN (fun k h' => AssignedD h h' (fun q => q < 5*(ip*J+jp)+k) adr F) H2 ?_ ?_
      · intro k hk h3 H3
        refine H3.cpy_step (5*(ip*J+jp)+k) ?_ ?_ ?_ (ha _ (by omega)) (inj _ _) ?_
        · show pool + _ = pool + 5*c1 + _
          rw [Ptr.add_assoc]; congr 1; omega
        · have := hb ip jp k hip hjp hk
          rw [Ptr.add_assoc] at this
          rw [show 5*(c0+(jp*I+ip))+k = 5*c0 + (5*(jp*I+ip)+k) by omega, this]
          exact congrArg _ (pairF_eq (V := fun jp ip k => V ip jp k) hjp hk).symm
        · intro q hq e
          change pool + _ = pool + 5*c1 + q at e
          rw [Ptr.add_assoc, Ptr.add_right_inj] at e
          omega
        · intro h4 H4
          exact H4.congr (fun q => by omega) (fun _ _ => rfl)
      · intro h3 H3
        rw [wp_pure]
        exact ⟨by omega, H3.congr (fun q => by omega) (fun _ _ => rfl)⟩
    · rintro c h2 ⟨e2, H2⟩
      have e : ip*J + J = (ip+1)*J := by rw [Nat.add_mul, Nat.one_mul]
      rw [e] at e2 H2
      exact ⟨e2, H2⟩
  · rintro c h1 ⟨e1, H1⟩
    refine ⟨e1, ?_, H1.agree (fun k hk => ⟨k, hk, rfl⟩), H1.int⟩
    intro jp ip k hj hi hk
    have := radix_lt hi hj
    have h2 := H1.val (5*(ip*J+jp)+k) (by omega)
    rw [h2]
    exact congrArg _ (pairF_eq (V := fun jp ip k => V ip jp k) hj hk)

/-- the data the table is expected to hold for the ordered pair (a, b): computed for the larger
shell index first -/
def pairTblVal (L : MathLib α) (B : Nat → PShell α) (inc : Nat) (cutoff omega : α) (a b ip jp k : Nat) : α :=
  if b ≤ a then pairVal L (setijArgs B inc cutoff omega a b) ip jp k
  else pairVal L (setijArgs B inc cutoff omega b a) jp ip k

def pairTblEmpty (L : MathLib α) (B : Nat → PShell α) (inc : Nat) (cutoff omega : α) (a b : Nat) : Prop :=
  if b ≤ a then PairEmpty L (setijArgs B inc cutoff omega a b)
  else PairEmpty L (setijArgs B inc cutoff omega b a)

/-- The entry of the ordered pair (a, b) is filled: `I`, `J` primitive counts -/
def EntryOK (h : Heap α) (tbl pool : Ptr) (nbas c a b I J : Nat) (V : Nat → Nat → Nat → α)
    (E : Prop) : Prop :=
  (h.I (tbl + (a*nbas+b)) = .val (-1) ∧ E ∧ ¬ (a = 0 ∧ b = 0)) ∨
  ∃ o : Nat, h.I (tbl + (a*nbas+b)) = .val (o : Int) ∧ o + I*J ≤ c ∧ PairBlk h (pool + 5*o) I J V ∧
    (¬ E ∨ (a = 0 ∧ b = 0))

theorem EntryOK.mono {h h' : Heap α} {tbl pool : Ptr} {n c c' a b I J : Nat}
    {V : Nat → Nat → Nat → α} {E : Prop} (H : EntryOK h tbl pool n c a b I J V E) (hc : c ≤ c')
    (hi : h'.I (tbl + (a*n+b)) = h.I (tbl + (a*n+b)))
    (hd : ∀ q, q < 5*c → h'.D (pool + q) = h.D (pool + q)) :
    EntryOK h' tbl pool n c' a b I J V E := by
  rcases H with ⟨h1, h2, h3⟩ | ⟨o, h1, h2, h3, h4⟩
  · exact Or.inl ⟨by rw [hi, h1], h2, h3⟩
  · refine Or.inr ⟨o, by rw [hi, h1], by omega, ?_, h4⟩
    intro ip jp k hip hjp hk
    have hlt := radix_lt hjp hip
    rw [Nat.mul_comm J I] at hlt
    have := h3 ip jp k hip hjp hk
    rw [Ptr.add_assoc] at this ⊢
    rw [hd _ (by omega), this]

structure SetijInv (L : MathLib α) (B : Nat → PShell α) (nbas inc : Nat) (cutoff omega : α)
    (tbl pool : Ptr) (T : Nat) (h0 h : Heap α) (c : Nat) (P : Nat → Nat → Prop) : Prop where
  frameD : AgreeD h0 h (Blk pool (5*(T*T)))
  frameI : AgreeI h0 h (Blk tbl (nbas*nbas))
  mono : AllocMono h0 h
  ent : ∀ a b, a < nbas → b < nbas → P a b → EntryOK h tbl pool nbas c a b (B a).nprim (B b).nprim
    (pairTblVal L B inc cutoff omega a b) (pairTblEmpty L B inc cutoff omega a b)

theorem setijPair_wp {L : MathLib α} {B : Nat → PShell α} {nbas inc : Nat} {cutoff omega : α}
    {tbl pool : Ptr} {T : Nat} {h0 h : Heap α} {c i j : Nat} {P P' : Nat → Nat → Prop}
    (hij : j ≤ i) (hi : i < nbas)
    (H : SetijInv L B nbas inc cutoff omega tbl pool T h0 h c P)
    (haD : AllocD h0 pool (5*(T*T)))
    (haI : ∀ q, q < nbas*nbas → h0.I (tbl + q) ≠ .oob)
    (hc : c + (if i = j then (B i).nprim*(B j).nprim else 2*((B i).nprim*(B j).nprim)) ≤ T*T)
    (hP' : ∀ a b, P' a b → P a b ∨ (a = i ∧ b = j) ∨ (a = j ∧ b = i)) :
    wp (setijPair L B nbas inc cutoff omega tbl pool i j c) (fun c' h' =>
      c' ≤ c + (if i = j then (B i).nprim*(B j).nprim else 2*((B i).nprim*(B j).nprim)) ∧
      SetijInv L B nbas inc cutoff omega tbl pool T h0 h' c' P') h := by
  have hj : j < nbas := by omega
  let I := (B i).nprim
  let J := (B j).nprim
  let p := setijArgs B inc cutoff omega i j
  have hcI : c + I*J ≤ T*T := by
    split at hc
    · exact hc
    · have : I*J ≤ 2*(I*J) := by omega
      exact Nat.le_trans (Nat.add_le_add_left this c) hc
  have hal : ∀ q, q < 5*(T*T) → h.D (pool + q) ≠ .oob := fun q hq => H.mono.D _ (haD q hq)
  have hmulc : J*I = I*J := Nat.mul_comm _ _
  unfold setijPair
  dsimp only
  rw [wp_mbind]
  refine wp_mono (wp_allocMono (setPairdata_wp (L := L) (p := p) (h := h) (pd := pool + 5*c) ?_)) ?_
  · intro q hq
    change q < 5*(J*I) at hq
    rw [Ptr.add_assoc]
    exact hal _ (by omega)
  rintro e h1 ⟨⟨he, hb, hfD, hfI⟩, hm1⟩
  change PairBlk h1 (pool + 5*c) I J (pairVal L p) at hb
  change AgreeD h h1 (Blk (pool + 5*c) (5*(J*I))) at hfD
  have hlow : ∀ q, q < 5*c → h1.D (pool + q) = h.D (pool + q) := by
    intro q hq
    refine hfD _ ?_
    rintro ⟨t, ht, e⟩
    rw [Ptr.add_assoc, Ptr.add_right_inj] at e
    omega
  have hinj : ∀ a b a' b', b < nbas → b' < nbas → tbl + (a*nbas+b) = tbl + (a'*nbas+b') → a = a' ∧ b = b' := by
    intro a b a' b' hb hb' e
    rw [Ptr.add_right_inj] at e
    exact radix_inj hb hb' e
  have hfr1 : AgreeD h0 h1 (Blk pool (5*(T*T))) := by
    refine H.frameD.trans hfD (fun _ x => x) ?_
    rintro q ⟨t, ht, e⟩
    exact ⟨5*c+t, by omega, by rw [e, Ptr.add_assoc]⟩
  have hm01 : AllocMono h0 h1 := H.mono.trans hm1
  have hij' : i*nbas+j < nbas*nbas := radix_lt hi hj
  have hji' : j*nbas+i < nbas*nbas := radix_lt hj hi
  have setI_oob : ∀ (g : Heap α) (q q' : Ptr) (x : Int), g.I q ≠ .oob → (g.setI q' x).I q ≠ .oob := by
    intro g q q' x hq
    rw [Heap.setI_I]; split
    · simp
    · exact hq
  have monoI : ∀ (g : Heap α) (q : Ptr) (x : Int), AllocMono h0 g → AllocMono h0 (g.setI q x) := by
    intro g q x hg
    exact ⟨fun q' hq' => hg.D q' hq', fun q' hq' => setI_oob _ _ _ _ (hg.I q' hq')⟩
  have hV : pairTblVal L B inc cutoff omega i j = pairVal L p := by
    funext ip jp k; unfold pairTblVal; rw [if_pos hij]
  have hE : pairTblEmpty L B inc cutoff omega i j = PairEmpty L p := by
    unfold pairTblEmpty; rw [if_pos hij]
  have hV' : i ≠ j → pairTblVal L B inc cutoff omega j i = fun jp ip k => pairVal L p ip jp k := by
    intro hne
    funext jp ip k; unfold pairTblVal; rw [if_neg (by omega)]
  have hE' : pairTblEmpty L B inc cutoff omega j i = PairEmpty L p := by
    unfold pairTblEmpty
    split
    · have : i = j := by omega
      subst this; rfl
    · rfl
  by_cases h00 : i = 0 ∧ j = 0
  · rw [if_pos h00]
    obtain ⟨rfl, rfl⟩ := h00
    simp only [wp_mbind, wp_stI, wp_pure]
    refine ⟨?_, by simp, ?_⟩
    · have := hm01.I _ (haI 0 (by omega))
      simpa using this
    · refine ⟨hfr1, ?_, monoI _ _ _ hm01, ?_⟩
      · intro q hq
        rw [Heap.setI_I_ne _ _ (fun e => hq ⟨0, by omega, by rw [e]; rfl⟩), hfI]
        exact H.frameI q hq
      · intro a b ha hb' hP
        by_cases hab : a = 0 ∧ b = 0
        · obtain ⟨rfl, rfl⟩ := hab
          refine Or.inr ⟨c, by simp, Nat.le_refl _, ?_, Or.inr ⟨rfl, rfl⟩⟩
          rw [hV]; exact hb
        · rcases hP' a b hP with h3 | h3 | h3
          · refine (H.ent a b ha hb' h3).mono (by omega) ?_ hlow
            rw [Heap.setI_I_ne, hfI]
            intro e
            exact hab (hinj a b 0 0 hb' (by omega) (by simpa using e))
          · exact absurd h3 hab
          · exact absurd h3 hab
  · rw [if_neg h00]
    by_cases hem : e = false
    · rw [if_pos hem]
      have hnE : ¬ PairEmpty L p := by
        rw [← he, hem]; simp
      simp only [wp_mbind, wp_stI]
      refine ⟨hm01.I _ (haI _ hij'), ?_⟩
      by_cases hne : i = j
      · subst hne
        simp only [ne_eq, not_true_eq_false, if_false, wp_pure, if_true]
        refine ⟨Nat.le_refl _, hfr1, ?_, monoI _ _ _ hm01, ?_⟩
        · intro q hq
          rw [Heap.setI_I_ne _ _ (fun e => hq ⟨_, hij', e⟩), hfI]
          exact H.frameI q hq
        · intro a b ha hb' hP
          by_cases hab : a = i ∧ b = i
          · obtain ⟨rfl, rfl⟩ := hab
            refine Or.inr ⟨c, by simp, Nat.le_refl _, ?_, Or.inl (by rw [hE]; exact hnE)⟩
            rw [hV]; exact hb
          · rcases hP' a b hP with h3 | h3 | h3
            · refine (H.ent a b ha hb' h3).mono (by omega) ?_ hlow
              rw [Heap.setI_I_ne, hfI]
              intro e
              exact hab (hinj a b i i hb' hj e)
            · exact absurd h3 hab
            · exact absurd h3 hab
      · rw [if_neg hne] at hc ⊢
        rw [if_pos hne]
        simp only [wp_mbind, wp_stI]
        refine ⟨setI_oob _ _ _ _ (hm01.I _ (haI _ hji')), ?_⟩
        refine wp_mono (wp_allocMono (setijTranspose_wp (V := pairVal L p) hb (Nat.le_refl _) ?_)) ?_
        · intro q hq
          change h1.D _ ≠ _
          rw [Ptr.add_assoc]
          exact hm1.D _ (hal _ (by change c + 2*(I*J) ≤ _ at hc; change q < 5*(I*J) at hq; change 5*(c+I*J)+q < _; omega))
        · rintro c' h3 ⟨⟨rfl, hbt, hfD3, hfI3⟩, hm3⟩
          change c + 2*(I*J) ≤ T*T at hc
          have hlow3 : ∀ q, q < 5*(c+I*J) → h3.D (pool + q) = h1.D (pool + q) := by
            intro q hq
            refine hfD3 _ ?_
            rintro ⟨t, ht, e⟩
            rw [Ptr.add_assoc, Ptr.add_right_inj] at e
            change q = 5*(c+I*J)+t at e
            omega
          refine ⟨by show c + I*J + I*J ≤ c + 2*(I*J); omega, ?_, ?_, ?_, ?_⟩
          · refine hfr1.trans hfD3 (fun _ x => x) ?_
            rintro q ⟨t, ht, e⟩
            change t < 5*(I*J) at ht
            exact ⟨5*(c+I*J)+t, by omega, by rw [e, Ptr.add_assoc]⟩
          · intro q hq
            rw [hfI3, Heap.setI_I_ne _ _ (fun e => hq ⟨_, hji', e⟩),
              Heap.setI_I_ne _ _ (fun e => hq ⟨_, hij', e⟩), hfI]
            exact H.frameI q hq
          · exact (monoI _ _ _ (monoI _ _ _ hm01)).trans hm3
          · intro a b ha hb' hP
            by_cases hab : a = j ∧ b = i
            · obtain ⟨rfl, rfl⟩ := hab
              refine Or.inr ⟨c + I*J, ?_, ?_, ?_, Or.inl (by rw [hE']; exact hnE)⟩
              · rw [hfI3]; simp; rfl
              · show c + I*J + J*I ≤ c + I*J + I*J; omega
              · rw [hV' hne]; exact hbt
            · by_cases hab2 : a = i ∧ b = j
              · obtain ⟨rfl, rfl⟩ := hab2
                refine Or.inr ⟨c, ?_, ?_, ?_, Or.inl (by rw [hE]; exact hnE)⟩
                · rw [hfI3, Heap.setI_I_ne _ _ (fun e => hab (hinj _ _ _ _ hj hi e))]; simp
                · show c + I*J ≤ c + I*J + I*J; omega
                · rw [hV]
                  intro ip jp k hip hjp hk
                  have hlt := radix_lt hjp hip
                  change _ < J*I at hlt
                  have := hb ip jp k hip hjp hk
                  rw [Ptr.add_assoc] at this ⊢
                  rw [hlow3 _ (by show 5*c + (5*(jp*I+ip)+k) < _; change jp*I+ip < _ at hlt; omega)]
                  exact this
              · rcases hP' a b hP with h4 | h4 | h4
                · refine (H.ent a b ha hb' h4).mono (by omega) ?_ ?_
                  · rw [hfI3, Heap.setI_I_ne _ _ (fun e => hab (hinj _ _ _ _ hb' hi e)),
                      Heap.setI_I_ne _ _ (fun e => hab2 (hinj _ _ _ _ hb' hj e)), hfI]
                  · intro q hq
                    rw [hlow3 q (by omega), hlow q hq]
                · exact absurd h4 hab2
                · exact absurd h4 hab
    · rw [if_neg hem]
      have hEm : PairEmpty L p := by
        rw [← he]; simpa using hem
      simp only [wp_mbind, wp_stI, wp_pure]
      refine ⟨hm01.I _ (haI _ hij'), setI_oob _ _ _ _ (hm01.I _ (haI _ hji')), by omega, hfr1, ?_,
        monoI _ _ _ (monoI _ _ _ hm01), ?_⟩
      · intro q hq
        rw [Heap.setI_I_ne _ _ (fun e => hq ⟨_, hji', e⟩),
          Heap.setI_I_ne _ _ (fun e => hq ⟨_, hij', e⟩), hfI]
        exact H.frameI q hq
      · intro a b ha hb' hP
        by_cases hab : a = j ∧ b = i
        · obtain ⟨rfl, rfl⟩ := hab
          exact Or.inl ⟨by simp, by rw [hE']; exact hEm, fun x => h00 ⟨x.2, x.1⟩⟩
        · by_cases hab2 : a = i ∧ b = j
          · obtain ⟨rfl, rfl⟩ := hab2
            refine Or.inl ⟨?_, by rw [hE]; exact hEm, h00⟩
            rw [Heap.setI_I_ne _ _ (fun e => hab (hinj _ _ _ _ hj hi e))]; simp
          · rcases hP' a b hP with h4 | h4 | h4
            · refine (H.ent a b ha hb' h4).mono (by omega) ?_ hlow
              rw [Heap.setI_I_ne _ _ (fun e => hab (hinj _ _ _ _ hb' hi e)),
                Heap.setI_I_ne _ _ (fun e => hab2 (hinj _ _ _ _ hb' hj e)), hfI]
            · exact absurd h4 hab2
            · exact absurd h4 hab

theorem totPrim_mono (B : Nat → PShell α) {m n : Nat} (h : m ≤ n) : totPrim B m ≤ totPrim B n := by
  induction h with
  | refl => exact Nat.le_refl _
  | step _ ih => exact Nat.le_trans ih (Nat.le_add_right _ _)

theorem setijLoop_wp {L : MathLib α} {B : Nat → PShell α} {nbas inc : Nat} {cutoff omega : α}
    {tbl pool : Ptr} {h : Heap α} (hn : 0 < nbas)
    (haD : AllocD h pool (5*(totPrim B nbas*totPrim B nbas)))
    (haI : ∀ q, q < nbas*nbas → h.I (tbl + q) ≠ .oob) :
    wp (setijLoop L B nbas inc cutoff omega tbl pool) (fun _ h' => ∃ c, c ≤ totPrim B nbas*totPrim B nbas ∧
      SetijInv L B nbas inc cutoff omega tbl pool (totPrim B nbas) h h' c (fun _ _ => True)) h := by
  let T := totPrim B nbas
  let S := totPrim B
  have hS : ∀ i, S (i+1) = S i + (B i).nprim := fun i => rfl
  have hST : ∀ i, i < nbas → S (i+1) ≤ T := fun i hi => totPrim_mono B hi
  let P : Nat → Nat → Nat → Nat → Prop := fun i j a b => (a < i ∧ b < i) ∨ (a = i ∧ b < j) ∨ (b = i ∧ a < j)
  have h00 : 0 < nbas*nbas := Nat.mul_pos hn hn
  unfold setijLoop
  simp only [wp_mbind, wp_stI]
  refine ⟨by simpa using haI 0 h00, ?_⟩
  refine wp_forS (fun i c h' => c ≤ S i * S i ∧
    SetijInv L B nbas inc cutoff omega tbl pool T h h' c (P i 0)) ?_ ?_ ?_
  · refine ⟨by simp, AgreeD.refl _ _, ?_, ⟨fun _ x => x, ?_⟩, ?_⟩
    · intro q hq
      exact Heap.setI_I_ne _ _ (fun e => hq ⟨0, h00, by rw [e]; rfl⟩)
    · intro q hq
      rw [Heap.setI_I]; split
      · simp
      · exact hq
    · intro a b _ _ hP
      rcases hP with h1 | h1 | h1 <;> omega
  · rintro i hi c h1 ⟨hc, H1⟩
    have hsq : S (i+1) * S (i+1) = S i * S i + 2*((B i).nprim * S i) + (B i).nprim*(B i).nprim := by
      rw [hS]; ring
    have hTT : S (i+1) * S (i+1) ≤ T*T := Nat.mul_le_mul (hST i hi) (hST i hi)
    refine wp_forS (fun j c h' => c ≤ S i * S i + 2*((B i).nprim * S (min j i)) +
        (if j = i+1 then (B i).nprim*(B i).nprim else 0) ∧
      SetijInv L B nbas inc cutoff omega tbl pool T h h' c (P i j)) ?_ ?_ ?_
    · refine ⟨by omega, H1⟩
    · rintro j hj c h2 ⟨hc2, H2⟩
      rw [if_neg (by omega), Nat.add_zero, Nat.min_eq_left (by omega)] at hc2
      by_cases hji : j = i
      · subst hji
        have := setijPair_wp (c := c) (P' := P j (j+1)) (Nat.le_refl j) hi H2 haD haI
          (by rw [if_pos rfl]; omega)
          (by
            intro a b hP
            show (_ ∨ _ ∨ _) ∨ _
            rcases hP with h1 | h1 | h1 <;> omega)
        refine wp_mono this ?_
        rintro c' h3 ⟨hc3, H3⟩
        rw [if_pos rfl] at hc3
        refine ⟨?_, H3⟩
        rw [if_pos rfl, Nat.min_eq_right (by omega)]
        omega
      · have hlt : j < i := by omega
        have hle : S (j+1) ≤ S i := totPrim_mono B hlt
        have hmul : (B i).nprim * S (j+1) ≤ (B i).nprim * S i := Nat.mul_le_mul_left _ hle
        have hexp : (B i).nprim * S (j+1) = (B i).nprim * S j + (B i).nprim*(B j).nprim := by
          rw [hS]; ring
        have := setijPair_wp (c := c) (P' := P i (j+1)) (Nat.le_of_lt hlt) hi H2 haD haI
          (by rw [if_neg (by omega)]; omega)
          (by
            intro a b hP
            show (_ ∨ _ ∨ _) ∨ _
            rcases hP with h1 | h1 | h1 <;> omega)
        refine wp_mono this ?_
        rintro c' h3 ⟨hc3, H3⟩
        rw [if_neg (by omega)] at hc3
        refine ⟨?_, H3⟩
        rw [if_neg (by omega), Nat.min_eq_left (by omega)]
        omega
    · rintro c h2 ⟨hc2, H2⟩
      rw [if_pos rfl, Nat.min_eq_right (by omega)] at hc2
      refine ⟨by omega, H2.frameD, H2.frameI, H2.mono, ?_⟩
      intro a b ha hb hP
      refine H2.ent a b ha hb ?_
      show _ ∨ _ ∨ _
      rcases hP with h1 | h1 | h1 <;> omega
  · rintro c h1 ⟨hc, H1⟩
    rw [wp_pure]
    refine ⟨c, hc, H1.frameD, H1.frameI, H1.mono, ?_⟩
    intro a b ha hb _
    exact H1.ent a b ha hb (Or.inl ⟨ha, hb⟩)

end Verif.Model
