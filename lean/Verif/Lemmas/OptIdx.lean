import Verif.Model.OptIdx
import Verif.Lemmas.OptBuild

/-! The index tables of the optimizers for two and three shells. -/
namespace Verif.Lemmas
open Verif Verif.Model Verif.Prog Verif.Spec

variable {α κ : Type}

/-- What is known of the tables: keys `κ` with places `pos` in the array of `n` pointers, sizes `3*nf`, contents `F`. -/
structure Keys (κ : Type) where
  n : Nat
  pos : κ → Nat
  nf : κ → Nat
  F : κ → Nat → Int
  /-- the keys for which a table is made -/
  ok : κ → Prop
  inj : ∀ k k', ok k → ok k' → pos k = pos k' → k = k'
  lt : ∀ k, ok k → pos k < n

/-- the tables visited so far (`V`), the cursor `c`, and the entries that stay NULL -/
structure IxInvG (E : Keys κ) (ixa ixbuf loc : Ptr) (N : Nat) (h0 : Heap α) (V : κ → Prop) (c : Nat) (h : Heap α) : Prop where
  done : ∀ k, V k → E.ok k → ∃ b : Nat, h.I (ixa + E.pos k) = .val (b : Int) ∧ b + 3 * E.nf k ≤ c ∧
    ∀ m, m < 3 * E.nf k → h.I (ixbuf + b + m) = .val (E.F k m)
  null : ∀ p, 0 < p → p < E.n → (∀ k, E.ok k → E.pos k ≠ p) → h.I (ixa + p) = .val (-1)
  dbl : h.D = h0.D
  frame : AgreeI h0 h (fun q => Blk ixa E.n q ∨ Blk ixbuf N q ∨ Blk loc (12*136) q)
  mono : AllocMono h0 h

variable {E : Keys κ} {ixa ixbuf loc : Ptr} {N : Nat} {h0 h : Heap α}

theorem IxInvG.weaken {V V' : κ → Prop} {c : Nat} (H : IxInvG E ixa ixbuf loc N h0 V c h)
    (hV : ∀ k, E.ok k → V' k → V k) : IxInvG E ixa ixbuf loc N h0 V' c h :=
  ⟨fun k hv a => H.done k (hV k a hv) a, H.null, H.dbl, H.frame, H.mono⟩

/-- a program that fills the tables -/
def Fills (E : Keys κ) (loc : Ptr) (tbl : κ → Ptr → Prog α Unit) : Prop :=
  ∀ k p h, E.ok k → IdxMem h p loc (3 * E.nf k) → wp (tbl k p) (fun _ h' => IdxDone h h' p loc (3 * E.nf k) (E.F k)) h

/-- one table -/
theorem ixG_step {tbl : κ → Ptr → Prog α Unit} (hT : Fills E loc tbl) {V : κ → Prop} {c : Nat} {k : κ}
    (hD : [ixa.buf, ixbuf.buf, loc.buf].Nodup)
    (hixa : ∀ q, q < E.n → h0.I (ixa + q) ≠ .oob) (hixb : ∀ q, q < N → h0.I (ixbuf + q) ≠ .oob)
    (hloc : ∀ q, q < 12*136 → h0.I (loc + q) ≠ .oob)
    (H : IxInvG E ixa ixbuf loc N h0 V c h) (hk : E.ok k) (hnew : ¬ V k) (hroom : c + 3 * E.nf k ≤ N) :
    wp (do
      stI (ixa + E.pos k) (c : Int)
      tbl k (ixbuf + c)
      pure (c + E.nf k * 3))
      (fun c' h' => c' = c + 3 * E.nf k ∧ IxInvG E ixa ixbuf loc N h0 (fun k' => V k' ∨ k' = k) c' h') h := by
  simp only [List.nodup_cons, List.mem_cons, List.not_mem_nil, or_false, not_or, List.nodup_nil, and_true] at hD
  obtain ⟨⟨n1, n2⟩, n3, -⟩ := hD
  have hp := E.lt k hk
  rw [wp_mbind]
  refine (wp_stI _ _ _ _).2 ⟨H.mono.I _ (hixa _ hp), ?_⟩
  let h1 := h.setI (ixa + E.pos k) (c : Int)
  have m1 : AllocMono h h1 := by
    refine ⟨fun q hq => hq, fun q hq => ?_⟩
    by_cases e : q = ixa + E.pos k
    · subst e; rw [show h1.I _ = .val (c : Int) from Heap.setI_I_self _ _ _]; intro x; cases x
    · rw [show h1.I q = h.I q from Heap.setI_I_ne _ _ e]; exact hq
  have hm1 := H.mono.trans m1
  rw [wp_mbind]
  have M : IdxMem h1 (ixbuf + c) loc (3*E.nf k) := by
    refine ⟨?_, fun q hq => hm1.I _ (hloc q hq), ?_⟩
    · intro q hq
      rw [Ptr.add_assoc]
      exact hm1.I _ (hixb _ (by omega))
    · intro a b _ _ e
      exact n3 (congrArg Ptr.buf e).symm
  refine wp_mono (wp_allocMono (hT k _ _ hk M)) ?_
  rintro _ h2 ⟨Dn, m2⟩
  rw [wp_pure]
  have e3 : c + E.nf k * 3 = c + 3 * E.nf k := by ring
  have f1 : ∀ q, q ≠ ixa + E.pos k → h1.I q = h.I q := fun q hq => Heap.setI_I_ne _ _ hq
  have fa : ∀ q : Ptr, q.buf = ixa.buf → h2.I q = h1.I q := by
    intro q hq
    refine Dn.agree q ?_
    rintro (⟨x, _, rfl⟩ | ⟨x, _, rfl⟩)
    · exact n1 hq.symm
    · exact n2 hq.symm
  have fb : ∀ x, x < c → h2.I (ixbuf + x) = h.I (ixbuf + x) := by
    intro x hx
    rw [Dn.agree (ixbuf + x) ?_]
    · exact f1 _ (ne_of_buf (Ne.symm n1) _ _)
    rintro (⟨y, _, e⟩ | ⟨y, _, e⟩)
    · rw [Ptr.add_assoc] at e
      have := (Ptr.add_right_inj _ _ _).1 e
      omega
    · exact ne_of_buf n3 _ _ e
  refine ⟨e3, ?_, ?_, ?_, ?_, hm1.trans m2⟩
  · intro k' hv hk'
    by_cases hs : k' = k
    · subst hs
      refine ⟨c, ?_, ?_, Dn.val⟩
      · rw [fa (ixa + _) rfl]; exact Heap.setI_I_self _ _ _
      · omega
    · obtain ⟨b, d1, d2, d3⟩ := H.done k' (hv.resolve_right hs) hk'
      refine ⟨b, ?_, le_trans d2 (Nat.le_add_right _ _), ?_⟩
      · rw [fa (ixa + _) rfl, f1 (ixa + _), d1]
        intro e
        exact hs (E.inj _ _ hk' hk ((Ptr.add_right_inj _ _ _).1 e))
      · intro m hm
        rw [Ptr.add_assoc, fb _ (by omega), ← Ptr.add_assoc]
        exact d3 m hm
  · intro p p0 p1 hn
    rw [fa (ixa + _) rfl, f1 (ixa + _), H.null p p0 p1 hn]
    intro e
    exact hn k hk ((Ptr.add_right_inj _ _ _).1 e).symm
  · rw [Dn.dbl]; exact H.dbl
  · intro q hq
    simp only [not_or] at hq
    rw [Dn.agree q, f1 q, H.frame q (by simp only [not_or]; exact hq)]
    · rintro rfl
      exact hq.1 ⟨_, hp, rfl⟩
    · rintro (⟨x, hx, rfl⟩ | hx)
      · exact hq.2.1 ⟨c + x, by omega, by rw [Ptr.add_assoc]⟩
      · exact hq.2.2 hx

theorem ixInit_wp {n : Nat} (hn : 0 < n) (hE : E.n = n) (hixa : ∀ q, q < n → h.I (ixa + q) ≠ .oob) :
    wp (ixInit ixa n) (fun _ h' => IxInvG E ixa ixbuf loc N h (fun _ => False) 0 h') h := by
  unfold ixInit
  rw [wp_mbind]
  refine (wp_stI _ _ _ _).2 ⟨hixa 0 hn, ?_⟩
  let h1 := h.setI (ixa + 0) 0
  have m1 : AllocMono h h1 := by
    refine ⟨fun q hq => hq, fun q hq => ?_⟩
    by_cases e : q = ixa + 0
    · subst e; rw [show h1.I _ = .val 0 from Heap.setI_I_self _ _ _]; intro x; cases x
    · rw [show h1.I q = h.I q from Heap.setI_I_ne _ _ e]; exact hq
  refine wp_mono (Q := fun _ g => AssignedI h1 g (fun m => m < n - 1) (fun m => ixa + (m+1)) (fun _ => -1) ∧ AllocMono h1 g) (wp_allocMono ?_) ?_
  · refine wp_forN (fun n g => AssignedI h1 g (fun m => m < n) (fun m => ixa + (m+1)) (fun _ => -1)) ?_ ?_ ?_
    · exact AssignedI.init _ _ _ (by simp)
    · intro n hn g Hg
      refine (wp_stI _ _ _ _).2 ⟨?_, ?_⟩
      · rw [Hg.frame]
        · exact m1.I _ (hixa _ (by omega))
        · intro k hk e
          have := (Ptr.add_right_inj _ _ _).1 e
          omega
      · refine ⟨?_, ?_, Hg.dbl⟩
        · intro k hk
          by_cases e : k = n
          · subst e; exact Heap.setI_I_self _ _ _
          · rw [Heap.setI_I_ne _ _ (fun h => e (by have := (Ptr.add_right_inj _ _ _).1 h; omega))]
            exact Hg.val k (by omega)
        · intro q hq
          rw [Heap.setI_I_ne _ _ (hq n (by omega))]
          exact Hg.frame q (fun k hk => hq k (by omega))
    · exact fun g Hg => Hg
  rintro _ g ⟨Hg, mg⟩
  refine ⟨fun _ hv => hv.elim, ?_, ?_, ?_, m1.trans mg⟩
  · intro p p0 p1 _
    have := Hg.val (p - 1) (by omega)
    rw [show p - 1 + 1 = p by omega] at this
    exact this
  · rw [Hg.dbl]; rfl
  · intro q hq
    simp only [not_or] at hq
    rw [Hg.frame q, show h1.I q = h.I q from Heap.setI_I_ne _ _ ?_]
    · rintro rfl; exact hq.1 ⟨0, by omega, rfl⟩
    · rintro k hk rfl
      exact hq.1 ⟨k+1, by omega, rfl⟩

theorem cumCart_succ (n : Nat) : cumCart (n+1) = cumCart n + ncart n := rfl

theorem cumCart_mono {m n : Nat} (h : m ≤ n) : cumCart m ≤ cumCart n := by
  induction h with
  | refl => exact Nat.le_refl _
  | step _ ih => exact Nat.le_trans ih (Nat.le_add_right _ _)

/-- the keys for two shells -/
def keys2 (maxl allow : Nat) (hm : maxl ≤ 15) (F : Nat × Nat → Nat → Int) : Keys (Nat × Nat) where
  n := (maxl+1)*16
  pos k := ixPos2 k.1 k.2
  nf k := ncart k.1 * ncart k.2
  F := F
  ok k := k.1 ≤ min maxl allow ∧ k.2 ≤ min maxl allow
  inj := by
    rintro ⟨i, j⟩ ⟨i', j'⟩ h1 h2 e
    simp only [ixPos2] at *
    have : i = i' ∧ j = j' := by omega
    rw [this.1, this.2]
  lt := by
    rintro ⟨i, j⟩ h
    simp only [ixPos2] at *
    omega

theorem genIdx2_wp {maxl allow : Nat} {nf : Nat → Nat → Nat} {tbl : Nat → Nat → Ptr → Prog α Unit} {F : Nat × Nat → Nat → Int}
    (hm : maxl ≤ 15) (hnf : ∀ i j, nf i j = ncart i * ncart j)
    (hT : Fills (keys2 maxl allow hm F) loc (fun k => tbl k.1 k.2))
    (hD : [ixa.buf, ixbuf.buf, loc.buf].Nodup)
    (hixa : ∀ q, q < (maxl+1)*16 → h.I (ixa + q) ≠ .oob)
    (hixb : ∀ q, q < 3 * (cumCart (min maxl allow + 1))^2 → h.I (ixbuf + q) ≠ .oob)
    (hloc : ∀ q, q < 12*136 → h.I (loc + q) ≠ .oob) :
    wp (genIdx2 maxl allow nf tbl ixa ixbuf) (fun _ h' => ∃ c,
      IxInvG (keys2 maxl allow hm F) ixa ixbuf loc (3 * (cumCart (min maxl allow + 1))^2) h (fun _ => True) c h') h := by
  let la := min maxl allow
  let T := cumCart (la + 1)
  let N := 3 * T^2
  let E := keys2 maxl allow hm F
  unfold genIdx2
  dsimp only
  rw [wp_mbind]
  refine wp_mono (ixInit_wp (E := E) (ixbuf := ixbuf) (loc := loc) (N := N) (by omega) rfl hixa) ?_
  intro _ g I0
  rw [wp_mbind]
  refine wp_forS (fun i c g => c = 3 * (cumCart i * T) ∧ IxInvG E ixa ixbuf loc N h (fun k => k.1 < i) c g)
    ⟨by simp [cumCart], I0.weaken (fun _ _ hv => absurd hv (by omega))⟩ ?_ ?_
  · rintro i hi c g ⟨hc, I⟩
    refine wp_forS (fun j c g => c = 3 * (cumCart i * T + ncart i * cumCart j) ∧
      IxInvG E ixa ixbuf loc N h (fun k => k.1 < i ∨ (k.1 = i ∧ k.2 < j)) c g)
      ⟨by rw [hc]; simp [cumCart], I.weaken (fun _ _ hv => by omega)⟩ ?_ ?_
    · rintro j hj c g ⟨hc, I⟩
      have hnext : c + 3 * (ncart i * ncart j) = 3 * (cumCart i * T + ncart i * cumCart (j+1)) := by
        rw [hc, cumCart_succ j]; ring
      have hok : E.ok (i, j) := ⟨by show i ≤ la; omega, by show j ≤ la; omega⟩
      rw [hnf]
      refine wp_mono (ixG_step (E := E) (k := (i, j)) hT hD hixa hixb hloc I hok (by dsimp only; omega) ?_) ?_
      · show c + 3 * (ncart i * ncart j) ≤ 3 * T^2
        rw [hnext]
        have q1 : cumCart (j+1) ≤ T := cumCart_mono (by omega)
        have q4 : cumCart i + ncart i ≤ T := cumCart_mono (show i+1 ≤ la+1 by omega)
        refine Nat.mul_le_mul_left _ ?_
        rw [pow_two]
        exact le_trans (Nat.add_le_add_left (Nat.mul_le_mul_left _ q1) _) (by rw [← Nat.add_mul]; exact Nat.mul_le_mul_right _ q4)
      · rintro c' g' ⟨hc', I'⟩
        refine ⟨?_, I'.weaken (fun k _ hv => ?_)⟩
        · rw [hc']; exact hnext
        · rcases k with ⟨a, b⟩
          simp only [Prod.mk.injEq] at *
          omega
    · rintro c g ⟨hc, I⟩
      refine ⟨?_, I.weaken (fun k hk hv => ?_)⟩
      · rw [hc, cumCart_succ i]
        show 3 * (cumCart i * T + ncart i * T) = _
        ring
      · have : k.2 ≤ la := hk.2
        omega
  · rintro c g ⟨hc, I⟩
    rw [wp_pure]
    refine ⟨c, I.weaken (fun k hk _ => ?_)⟩
    have : k.1 ≤ la := hk.1
    omega

/-- the keys for three shells -/
def keys3 (maxl allow : Nat) (hm : maxl ≤ 15) (F : Nat × Nat × Nat → Nat → Int) : Keys (Nat × Nat × Nat) where
  n := (maxl+1)*16*16
  pos k := ixPos3 k.1 k.2.1 k.2.2
  nf k := ncart k.1 * ncart k.2.1 * ncart k.2.2
  F := F
  ok k := k.1 ≤ min maxl allow ∧ k.2.1 ≤ min maxl allow ∧ k.2.2 ≤ min maxl allow
  inj := by
    rintro ⟨i, j, k⟩ ⟨i', j', k'⟩ h1 h2 e
    simp only [ixPos3] at *
    have : i = i' ∧ j = j' ∧ k = k' := by omega
    rw [this.1, this.2.1, this.2.2]
  lt := by
    rintro ⟨i, j, k⟩ h
    simp only [ixPos3] at *
    omega

theorem genIdx3_wp {maxl allow : Nat} {nf : Nat → Nat → Nat → Nat} {tbl : Nat → Nat → Nat → Ptr → Prog α Unit}
    {F : Nat × Nat × Nat → Nat → Int}
    (hm : maxl ≤ 15) (hnf : ∀ i j k, nf i j k = ncart i * ncart j * ncart k)
    (hT : Fills (keys3 maxl allow hm F) loc (fun k => tbl k.1 k.2.1 k.2.2))
    (hD : [ixa.buf, ixbuf.buf, loc.buf].Nodup)
    (hixa : ∀ q, q < (maxl+1)*16*16 → h.I (ixa + q) ≠ .oob)
    (hixb : ∀ q, q < 3 * (cumCart (min maxl allow + 1))^3 → h.I (ixbuf + q) ≠ .oob)
    (hloc : ∀ q, q < 12*136 → h.I (loc + q) ≠ .oob) :
    wp (genIdx3 maxl allow nf tbl ixa ixbuf) (fun _ h' => ∃ c,
      IxInvG (keys3 maxl allow hm F) ixa ixbuf loc (3 * (cumCart (min maxl allow + 1))^3) h (fun _ => True) c h') h := by
  let la := min maxl allow
  let T := cumCart (la + 1)
  let N := 3 * T^3
  let E := keys3 maxl allow hm F
  unfold genIdx3
  dsimp only
  rw [wp_mbind]
  refine wp_mono (ixInit_wp (E := E) (ixbuf := ixbuf) (loc := loc) (N := N) (by omega) rfl hixa) ?_
  intro _ g I0
  rw [wp_mbind]
  refine wp_forS (fun i c g => c = 3 * (cumCart i * T^2) ∧ IxInvG E ixa ixbuf loc N h (fun k => k.1 < i) c g)
    ⟨by simp [cumCart], I0.weaken (fun _ _ hv => absurd hv (by omega))⟩ ?_ ?_
  · rintro i hi c g ⟨hc, I⟩
    refine wp_forS (fun j c g => c = 3 * (cumCart i * T^2 + ncart i * (cumCart j * T)) ∧
      IxInvG E ixa ixbuf loc N h (fun k => k.1 < i ∨ (k.1 = i ∧ k.2.1 < j)) c g)
      ⟨by rw [hc]; simp [cumCart], I.weaken (fun _ _ hv => by omega)⟩ ?_ ?_
    · rintro j hj c g ⟨hc, I⟩
      refine wp_forS (fun k c g => c = 3 * (cumCart i * T^2 + ncart i * (cumCart j * T + ncart j * cumCart k)) ∧
        IxInvG E ixa ixbuf loc N h (fun x => x.1 < i ∨ (x.1 = i ∧ (x.2.1 < j ∨ (x.2.1 = j ∧ x.2.2 < k)))) c g)
        ⟨by rw [hc]; simp [cumCart], I.weaken (fun _ _ hv => by omega)⟩ ?_ ?_
      · rintro k hk c g ⟨hc, I⟩
        have hnext : c + 3 * (ncart i * ncart j * ncart k) =
            3 * (cumCart i * T^2 + ncart i * (cumCart j * T + ncart j * cumCart (k+1))) := by
          rw [hc, cumCart_succ k]; ring
        have hok : E.ok (i, j, k) := ⟨by show i ≤ la; omega, by show j ≤ la; omega, by show k ≤ la; omega⟩
        rw [hnf]
        refine wp_mono (ixG_step (E := E) (k := (i, j, k)) hT hD hixa hixb hloc I hok (by dsimp only; omega) ?_) ?_
        · show c + 3 * (ncart i * ncart j * ncart k) ≤ 3 * T^3
          rw [hnext]
          have q1 : cumCart (k+1) ≤ T := cumCart_mono (by omega)
          have q3 : cumCart j + ncart j ≤ T := cumCart_mono (show j+1 ≤ la+1 by omega)
          have q4 : cumCart i + ncart i ≤ T := cumCart_mono (show i+1 ≤ la+1 by omega)
          refine Nat.mul_le_mul_left _ ?_
          have s1 : cumCart j * T + ncart j * cumCart (k+1) ≤ T * T :=
            le_trans (Nat.add_le_add_left (Nat.mul_le_mul_left _ q1) _) (by rw [← Nat.add_mul]; exact Nat.mul_le_mul_right _ q3)
          have s2 : cumCart i * T^2 + ncart i * (cumCart j * T + ncart j * cumCart (k+1)) ≤ T * T^2 := by
            refine le_trans (Nat.add_le_add_left (Nat.mul_le_mul_left _ s1) _) ?_
            rw [← pow_two, ← Nat.add_mul]; exact Nat.mul_le_mul_right _ q4
          rw [show T^3 = T * T^2 by ring]
          exact s2
        · rintro c' g' ⟨hc', I'⟩
          refine ⟨?_, I'.weaken (fun x _ hv => ?_)⟩
          · rw [hc']; exact hnext
          · rcases x with ⟨a, b, d⟩
            simp only [Prod.mk.injEq] at *
            omega
      · rintro c g ⟨hc, I⟩
        refine ⟨?_, I.weaken (fun x hx hv => ?_)⟩
        · rw [hc, cumCart_succ j]
          show 3 * (cumCart i * T^2 + ncart i * (cumCart j * T + ncart j * T)) = _
          ring
        · have : x.2.2 ≤ la := hx.2.2
          omega
    · rintro c g ⟨hc, I⟩
      refine ⟨?_, I.weaken (fun x hx hv => ?_)⟩
      · rw [hc, cumCart_succ i]
        show 3 * (cumCart i * T^2 + ncart i * (T * T)) = _
        ring
      · have : x.2.1 ≤ la := hx.2.1
        omega
  · rintro c g ⟨hc, I⟩
    rw [wp_pure]
    refine ⟨c, I.weaken (fun x hx _ => ?_)⟩
    have : x.1 ≤ la := hx.1
    omega

end Verif.Lemmas
