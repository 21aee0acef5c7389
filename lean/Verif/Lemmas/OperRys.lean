import Verif.Lemmas.OperAdd
import Verif.Lemmas.Nuc

/-! Symbolic execution of the functions of src/autocode that sum over roots. -/
namespace Verif.Lemmas
open Verif Verif.Model Verif.Prog

variable {α : Type} [Field α]

theorem compVal_sum {D : OpData α} {terms : List (Int × List Nat × Nat)} (n : Nat) (s : Nat → Nat → α) :
    compVal D terms (fun m => ∑ r ∈ Finset.range n, s r m) = ∑ r ∈ Finset.range n, compVal D terms (s r) := by
  unfold compVal
  induction terms with
  | nil => simp
  | cons t l ih =>
    simp only [List.map_cons, List.sum_cons] at ih ⊢
    rw [ih, Finset.sum_add_distrib, Finset.mul_sum]

theorem getD_map_flat {lens : List Nat} (l : List (List (Int × List Nat × Nat))) (k : Nat) :
    (l.map (flatTerms lens)).getD k [] = flatTerms lens (l.getD k []) := by
  rw [List.getD_eq_getElem?_getD, List.getD_eq_getElem?_getD, List.getElem?_map]
  cases l[k]? <;> rfl

section
variable {D : OpData α} {v0 : Nat → (Fin 4 → Nat) → Nat → α} {e : EnvG} {L : Fin 4 → Nat} {n leng : Nat}
  {g : Ptr} {h0 h : Heap α}

/-- the functions of src/autocode for integrals evaluated by quadrature, without sums of arrays -/
theorem goutRysPlain_wp (C : StepCtx true e L e.nrys_roots n leng) {P : GoutProg} {ws : List (Nat → List (GOp × Fin 4))} {ng : Fin 4 → Nat}
    (hmore : P.more = []) (hP : symRun ng n P = some ws) (hn : 0 < n) (hL : ∀ t, angOf e t + ng t ≤ L t)
    {idx gout : Ptr} {em : Int} {T : Ptr → Option Int} {ad : Nat → Nat → Nat} {m : Nat → Nat → Fin 4 → Nat} {u : Nat → α}
    (had : ∀ n c, n < e.nf → c < 3 → ad c n = c*e.g_size + slabM e (m n c) 0)
    (hm : ∀ n c t, n < e.nf → c < 3 → m n c t ≤ angOf e t)
    (hR : RO T h) (hT : IdxT T idx e.nf ad) (ha : AllocD h gout (e.nf*P.comps.length))
    (hG : ∀ q, Blk g leng q → h.D q ≠ .oob)
    (hd : ∀ i, i < e.nf*P.comps.length → ¬ Blk g leng (gout + i))
    (hE : em = 0 → HoldsD h gout (e.nf*P.comps.length) u)
    (hv : TabM h g e (fun t => angOf e t + ng t) e.nrys_roots v0) :
    wp (goutRys e D P idx g gout em) (fun _ h' =>
      HoldsD h' gout (e.nf*P.comps.length) (fun i => if em = 0 then
          u i + ∑ r ∈ Finset.range e.nrys_roots, goutVal D v0 P ws (m (i/P.comps.length)) r (i%P.comps.length)
        else ∑ r ∈ Finset.range e.nrys_roots, goutVal D v0 P ws (m (i/P.comps.length)) r (i%P.comps.length)) ∧
      AgreeD h h' (fun q => Blk g leng q ∨ Blk gout (e.nf*P.comps.length) q) ∧ h'.I = h.I) h := by
  unfold symRun at hP
  cases hst : stepsSym n P.steps (initSym ng) with
  | none => rw [hst] at hP; exact absurd hP (by simp)
  | some st =>
  rw [hst] at hP
  have hP' : prodsWords st P.prods = some ws := hP
  have H0 : StepInv D v0 e L e.nrys_roots n leng g h (initSym ng) (fun k => g + k * (3 * e.g_size)) h := by
    refine ⟨rfl, AgreeD.refl _ _, hG, ?_, fun _ _ => rfl, ?_⟩
    · intro k y hk
      unfold initSym at hk
      split at hk
      · rename_i h0; subst h0
        obtain rfl := (Option.some.inj hk).symm
        refine ⟨?_, hn, fun t => by simpa using hL t, ?_⟩
        · dsimp only; rw [slabM_zero]; simp
        · dsimp only
          rw [Nat.zero_mul, Ptr.add_zero]
          exact hv
      · exact absurd hk (by simp)
    · intro k y hk
      unfold initSym at hk
      split at hk
      · obtain rfl := (Option.some.inj hk).symm
        simp [initSym]
      · exact absurd hk (by simp)
  unfold goutRys
  rw [wp_mbind]
  refine wp_mono (execSteps_wp C P.steps hst H0) ?_
  intro p h1 H1
  rw [hmore]
  simp only [execMore, wp_mbind, wp_pure]
  have hout : ∀ i, i < e.nf*P.comps.length → h1.D (gout + i) = h.D (gout + i) := fun i hi => H1.agree _ (hd i hi)
  refine wp_mono (goutLoop_wp (T := T) (ad := ad) (u := u)
    (val := fun n k => ∑ r ∈ Finset.range e.nrys_roots, goutVal D v0 P ws (m n) r k) ?_ hT ?_ ?_ ?_) ?_
  · intro q x hq; rw [H1.int]; exact hR q x hq
  · intro i hi; rw [hout i hi]; exact ha i hi
  · intro he i hi; rw [hout i hi]; exact hE he i hi
  · intro i hi h' hag hI
    rw [wp_mbind]
    let x : Nat → Nat → α := fun r k => (ws.map fun W => symVal D v0 (W 0) 0 (m i 0) r * symVal D v0 (W 1) 1 (m i 1) r *
      symVal D v0 (W 2) 2 (m i 2) r).getD k 0
    have hroot : ∀ r, r < e.nrys_roots → wp (do
        let l ← loadProds p (ad 0 i + r) (ad 1 i + r) (ad 2 i + r) P.prods
        pure fun m => l.getD m 0 : Prog α (Nat → α)) (fun s h'' => h'' = h' ∧ s = x r) h' := by
      intro r hr
      have ea : ∀ c, c < 3 → ad c i + r = c*e.g_size + slabM e (m i c) r := by
        intro c hc
        rw [had i c hi hc]
        unfold slabM
        omega
      rw [ea 0 (by omega), ea 1 (by omega), ea 2 (by omega), wp_mbind]
      refine wp_mono (loadProds_wp C hr H1 (m i) (fun c t hc => hm i c t hi hc) (fun q hq => hag q ?_) _ _ hP') ?_
      · rintro ⟨j, hj, rfl⟩; exact hd j hj hq
      · rintro s h'' ⟨rfl, rfl⟩
        rw [wp_pure]
        exact ⟨rfl, rfl⟩
    have key : wp (accRoots (fun r => do
        let l ← loadProds p (ad 0 i + r) (ad 1 i + r) (ad 2 i + r) P.prods
        pure fun m => l.getD m 0) e.nrys_roots)
        (fun s h'' => h'' = h' ∧ s = fun k => ∑ r ∈ Finset.range e.nrys_roots, x r k) h' := by
      have : ∀ nr, nr ≤ e.nrys_roots → wp (accRoots (fun r => do
        let l ← loadProds p (ad 0 i + r) (ad 1 i + r) (ad 2 i + r) P.prods
        pure fun m => l.getD m 0) nr)
        (fun s h'' => h'' = h' ∧ s = fun k => ∑ r ∈ Finset.range nr, x r k) h' := by
        intro nr
        induction nr with
        | zero => intro _; unfold accRoots; rw [wp_pure]; exact ⟨rfl, by simp⟩
        | succ nr ih =>
          intro hnr
          unfold accRoots
          rw [wp_mbind]
          refine wp_mono (ih (by omega)) ?_
          rintro s h2 ⟨rfl, rfl⟩
          rw [wp_mbind]
          refine wp_mono (hroot nr (by omega)) ?_
          rintro y h3 ⟨rfl, rfl⟩
          rw [wp_pure]
          exact ⟨rfl, by funext k; rw [Finset.sum_range_succ]⟩
      exact this _ (le_refl _)
    refine wp_mono key ?_
    rintro s h2 ⟨rfl, rfl⟩
    rw [wp_pure]
    exact ⟨rfl, fun k _ => compVal_sum _ _⟩
  · rintro _ h2 ⟨A, B, Cc⟩
    exact ⟨A, H1.agree.trans B (fun q hq => Or.inl hq) (fun q hq => Or.inr hq), by rw [Cc, H1.int]⟩

/-- the functions of src/autocode for integrals evaluated by quadrature, with sums of arrays -/
theorem goutRysSum_wp (C : StepCtx true e L e.nrys_roots n leng) {P : GoutProg} {wss : List (List (Nat → Wd))} {ng : Fin 4 → Nat}
    (hP : symRunS ng n P = some wss) (hn : 0 < n) (hL : ∀ t, angOf e t + ng t ≤ L t)
    {idx gout : Ptr} {em : Int} {T : Ptr → Option Int} {ad : Nat → Nat → Nat} {m : Nat → Nat → Fin 4 → Nat} {u : Nat → α}
    (had : ∀ n c, n < e.nf → c < 3 → ad c n = c*e.g_size + slabM e (m n c) 0)
    (hm : ∀ n c t, n < e.nf → c < 3 → m n c t ≤ angOf e t)
    (hR : RO T h) (hT : IdxT T idx e.nf ad) (ha : AllocD h gout (e.nf*P.comps.length))
    (hG : ∀ q, Blk g leng q → h.D q ≠ .oob)
    (hd : ∀ i, i < e.nf*P.comps.length → ¬ Blk g leng (gout + i))
    (hE : em = 0 → HoldsD h gout (e.nf*P.comps.length) u)
    (hv : TabM h g e (fun t => angOf e t + ng t) e.nrys_roots v0) :
    wp (goutRys e D P idx g gout em) (fun _ h' =>
      HoldsD h' gout (e.nf*P.comps.length) (fun i => if em = 0 then
          u i + ∑ r ∈ Finset.range e.nrys_roots, goutVal D v0 { P with comps := P.comps.map (flatTerms (wss.map List.length)) } wss.flatten (m (i/P.comps.length)) r (i%P.comps.length)
        else ∑ r ∈ Finset.range e.nrys_roots, goutVal D v0 { P with comps := P.comps.map (flatTerms (wss.map List.length)) } wss.flatten (m (i/P.comps.length)) r (i%P.comps.length)) ∧
      AgreeD h h' (fun q => Blk g leng q ∨ Blk gout (e.nf*P.comps.length) q) ∧ h'.I = h.I) h := by
  unfold symRunS at hP
  cases hst : stepsSymS n P.steps (initS ng) with
  | none => rw [hst] at hP; exact absurd hP (by simp)
  | some st0 =>
  rw [hst, Option.bind_some] at hP
  cases hst' : moreSymS n P.more st0 with
  | none => rw [hst'] at hP; exact absurd hP (by simp)
  | some st =>
  rw [hst', Option.bind_some] at hP
  have H0 : InvS D v0 e L e.nrys_roots n leng g h (initS ng) (fun k => g + k * (3 * e.g_size)) h := by
    refine ⟨rfl, AgreeD.refl _ _, hG, ?_, fun _ _ => rfl, ?_⟩
    · intro k y hk
      unfold initS at hk
      split at hk
      · rename_i h0; subst h0
        obtain rfl := (Option.some.inj hk).symm
        refine ⟨?_, hn, fun t => by simpa using hL t, ?_⟩
        · dsimp only; rw [slabM_zero]; simp
        · dsimp only
          rw [Nat.zero_mul, Ptr.add_zero, show sumWords D v0 [[]] = v0 from ?_]
          · exact hv
          · funext c m r
            unfold sumWords
            rw [List.map_cons, List.map_nil, List.sum_cons, List.sum_nil, add_zero]
            rfl
      · exact absurd hk (by simp)
    · intro k y hk
      unfold initS at hk
      split at hk
      · rename_i h0; subst h0; exact hn
      · exact absurd hk (by simp)
  unfold goutRys
  rw [wp_mbind]
  refine wp_mono (execStepsS_wp C P.steps hst H0) ?_
  intro p0 h1' H1'
  rw [wp_mbind]
  refine wp_mono (execMore_wp C P.more hst' H1') ?_
  intro p h1 H1
  have hout : ∀ i, i < e.nf*P.comps.length → h1.D (gout + i) = h.D (gout + i) := fun i hi => H1.agree _ (hd i hi)
  refine wp_mono (goutLoop_wp (T := T) (ad := ad) (u := u)
    (val := fun n k => ∑ r ∈ Finset.range e.nrys_roots, goutVal D v0 { P with comps := P.comps.map (flatTerms (wss.map List.length)) } wss.flatten (m n) r k) ?_ hT ?_ ?_ ?_) ?_
  · intro q x hq; rw [H1.int]; exact hR q x hq
  · intro i hi; rw [hout i hi]; exact ha i hi
  · intro he i hi; rw [hout i hi]; exact hE he i hi
  · intro i hi h' hag hI
    rw [wp_mbind]
    let x : Nat → Nat → α := fun r k => (wss.map fun ws => (ws.map fun W => symVal D v0 (W 0) 0 (m i 0) r * symVal D v0 (W 1) 1 (m i 1) r *
      symVal D v0 (W 2) 2 (m i 2) r).sum).getD k 0
    have hroot : ∀ r, r < e.nrys_roots → wp (do
        let l ← loadProds p (ad 0 i + r) (ad 1 i + r) (ad 2 i + r) P.prods
        pure fun m => l.getD m 0 : Prog α (Nat → α)) (fun s h'' => h'' = h' ∧ s = x r) h' := by
      intro r hr
      have ea : ∀ c, c < 3 → ad c i + r = c*e.g_size + slabM e (m i c) r := by
        intro c hc
        rw [had i c hi hc]
        unfold slabM
        omega
      rw [ea 0 (by omega), ea 1 (by omega), ea 2 (by omega), wp_mbind]
      refine wp_mono (loadProdsS_wp C hr H1 (m i) (fun c t hc => hm i c t hi hc) (fun q hq => hag q ?_) _ _ hP) ?_
      · rintro ⟨j, hj, rfl⟩; exact hd j hj hq
      · rintro s h'' ⟨rfl, rfl⟩
        rw [wp_pure]
        exact ⟨rfl, rfl⟩
    have key : wp (accRoots (fun r => do
        let l ← loadProds p (ad 0 i + r) (ad 1 i + r) (ad 2 i + r) P.prods
        pure fun m => l.getD m 0) e.nrys_roots)
        (fun s h'' => h'' = h' ∧ s = fun k => ∑ r ∈ Finset.range e.nrys_roots, x r k) h' := by
      have : ∀ nr, nr ≤ e.nrys_roots → wp (accRoots (fun r => do
        let l ← loadProds p (ad 0 i + r) (ad 1 i + r) (ad 2 i + r) P.prods
        pure fun m => l.getD m 0) nr)
        (fun s h'' => h'' = h' ∧ s = fun k => ∑ r ∈ Finset.range nr, x r k) h' := by
        intro nr
        induction nr with
        | zero => intro _; unfold accRoots; rw [wp_pure]; exact ⟨rfl, by simp⟩
        | succ nr ih =>
          intro hnr
          unfold accRoots
          rw [wp_mbind]
          refine wp_mono (ih (by omega)) ?_
          rintro s h2 ⟨rfl, rfl⟩
          rw [wp_mbind]
          refine wp_mono (hroot nr (by omega)) ?_
          rintro y h3 ⟨rfl, rfl⟩
          rw [wp_pure]
          exact ⟨rfl, by funext k; rw [Finset.sum_range_succ]⟩
      exact this _ (le_refl _)
    refine wp_mono key ?_
    rintro s h2 ⟨rfl, rfl⟩
    rw [wp_pure]
    refine ⟨rfl, fun k _ => ?_⟩
    refine (compVal_sum _ _).trans ?_
    refine Finset.sum_congr rfl fun r _ => ?_
    unfold goutVal
    dsimp only
    rw [getD_map_flat, compVal_flat]
  · rintro _ h2 ⟨A, B, Cc⟩
    exact ⟨A, H1.agree.trans B (fun q hq => Or.inl hq) (fun q hq => Or.inr hq), by rw [Cc, H1.int]⟩

/-- the functions of src/autocode for integrals evaluated by quadrature -/
theorem goutRys_wp (C : StepCtx true e L e.nrys_roots n leng) {P : GoutProg} {ws : List (Nat → List (GOp × Fin 4))} {ng : Fin 4 → Nat}
    (hP : runWords ng n P = some ws) (hn : 0 < n) (hL : ∀ t, angOf e t + ng t ≤ L t)
    {idx gout : Ptr} {em : Int} {T : Ptr → Option Int} {ad : Nat → Nat → Nat} {m : Nat → Nat → Fin 4 → Nat} {u : Nat → α}
    (had : ∀ n c, n < e.nf → c < 3 → ad c n = c*e.g_size + slabM e (m n c) 0)
    (hm : ∀ n c t, n < e.nf → c < 3 → m n c t ≤ angOf e t)
    (hR : RO T h) (hT : IdxT T idx e.nf ad) (ha : AllocD h gout (e.nf*P.comps.length))
    (hG : ∀ q, Blk g leng q → h.D q ≠ .oob)
    (hd : ∀ i, i < e.nf*P.comps.length → ¬ Blk g leng (gout + i))
    (hE : em = 0 → HoldsD h gout (e.nf*P.comps.length) u)
    (hv : TabM h g e (fun t => angOf e t + ng t) e.nrys_roots v0) :
    wp (goutRys e D P idx g gout em) (fun _ h' =>
      HoldsD h' gout (e.nf*P.comps.length) (fun i => if em = 0 then
          u i + ∑ r ∈ Finset.range e.nrys_roots, goutVal D v0 (flatP ng n P) ws (m (i/P.comps.length)) r (i%P.comps.length)
        else ∑ r ∈ Finset.range e.nrys_roots, goutVal D v0 (flatP ng n P) ws (m (i/P.comps.length)) r (i%P.comps.length)) ∧
      AgreeD h h' (fun q => Blk g leng q ∨ Blk gout (e.nf*P.comps.length) q) ∧ h'.I = h.I) h := by
  cases hm0 : P.more with
  | nil =>
    rw [runWords_plain hm0] at hP
    have := goutRysPlain_wp (D := D) C hm0 hP hn hL (idx := idx) (em := em) (u := u) had hm hR hT ha hG hd hE hv
    have hg : ∀ m r k, goutVal D v0 (flatP ng n P) ws m r k = goutVal D v0 P ws m r k := by
      intro m r k; unfold goutVal; rw [flatP_plain hm0]
    simp only [hg]
    exact this
  | cons a l =>
    unfold runWords at hP
    rw [hm0] at hP
    dsimp only at hP
    cases hS : symRunS ng n P with
    | none => rw [hS] at hP; exact absurd hP (by simp)
    | some wss =>
      rw [hS] at hP
      obtain rfl := (Option.some.inj hP).symm
      have := goutRysSum_wp (D := D) C hS hn hL (idx := idx) (em := em) (u := u) had hm hR hT ha hG hd hE hv
      have hf : flatP ng n P = { P with comps := P.comps.map (flatTerms (wss.map List.length)) } := by
        unfold flatP flatComps
        rw [hm0, hS]
      rw [hf]
      exact this
end

end Verif.Lemmas
