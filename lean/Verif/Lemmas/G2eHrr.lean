import Verif.Lemmas.G2eTab
import Verif.Spec.Rys2

/-! The four horizontal recursions of the two-electron integrals. -/
namespace Verif.Lemmas
open Verif Verif.Model Verif.Prog Verif.Props

section
variable {α : Type} [Field α] {κ : Type} {G : Cells α κ} {h0 h : Heap α} {S S' : κ → Prop} {e : EnvG} {g : Ptr}
  {rr : Nat → α}

theorem hrrStep_wp {d1 d2 n : Nat} {x x1 x2 : κ} (H : G.T h0 S h) (hb : G.box x) (hb1 : G.box x1) (hb2 : G.box x2)
    (hx : ∀ c, gAx g e c n = G.addr c x) (hx1 : ∀ c, gAx g e c (n - d1) = G.addr c x1)
    (hx2 : ∀ c, gAx g e c (n - d1 + d2) = G.addr c x2) (h1 : S x1) (h2 : S x2)
    (hv : ∀ c, c < 3 → G.v c x = rr c * G.v c x1 + G.v c x2)
    (hS : ∀ k', G.box k' → S' k' → k' = x ∨ S k') :
    wp (hrrStep e g rr d1 d2 n) (fun _ h' => G.T h0 S' h') h := by
  unfold hrrStep
  refine T_for3 H hb (fun c h' hc Hc Q hQ => ?_) hS
  rw [wp_mbind, wp_ld]
  refine ⟨_, by rw [hx1]; exact T_val Hc hc h1 hb1, ?_⟩
  rw [wp_mbind, wp_ld]
  refine ⟨_, by rw [hx2]; exact T_val Hc hc h2 hb2, ?_⟩
  rw [wp_st, hx, ← hv c hc]
  have : h'.D (G.addr c x) ≠ .oob := Hc.alloc _ (G.mem c x hc hb)
  exact ⟨this, hQ this⟩

/-- a contiguous run of `R*N` cells -/
theorem hrr_row {d1 d2 p N R : Nat} {x x1 x2 : Nat → Nat → κ} (H : G.T h0 S h)
    (hb : ∀ i r, i < N → r < R → G.box (x i r) ∧ G.box (x1 i r) ∧ G.box (x2 i r))
    (hx : ∀ i r c, i < N → r < R → gAx g e c (p + (R*i+r)) = G.addr c (x i r))
    (hx1 : ∀ i r c, i < N → r < R → gAx g e c (p + (R*i+r) - d1) = G.addr c (x1 i r))
    (hx2 : ∀ i r c, i < N → r < R → gAx g e c (p + (R*i+r) - d1 + d2) = G.addr c (x2 i r))
    (h1 : ∀ i r, i < N → r < R → S (x1 i r)) (h2 : ∀ i r, i < N → r < R → S (x2 i r))
    (hv : ∀ i r c, i < N → r < R → c < 3 → G.v c (x i r) = rr c * G.v c (x1 i r) + G.v c (x2 i r))
    (hS : ∀ k', G.box k' → S' k' → S k' ∨ ∃ i r, i < N ∧ r < R ∧ k' = x i r) :
    wp (forN (R*N) fun n => hrrStep e g rr d1 d2 (p + n)) (fun _ h' => G.T h0 S' h') h := by
  refine T_forN (fun n k => S k ∨ ∃ i r, i < N ∧ r < R ∧ R*i + r < n ∧ k = x i r) H ?_ ?_ ?_
  · rintro k _ (h | ⟨i, r, _, _, h, _⟩)
    · exact h
    · omega
  · intro n hn h' Hn
    have hR : 0 < R := Nat.pos_of_ne_zero fun e => by simp [e] at hn
    have hi : n/R < N := Nat.div_lt_of_lt_mul hn
    have hr : n%R < R := Nat.mod_lt _ hR
    have en : R*(n/R) + n%R = n := Nat.div_add_mod n R
    obtain ⟨b, b1, b2⟩ := hb _ _ hi hr
    refine hrrStep_wp (x := x (n/R) (n%R)) (x1 := x1 (n/R) (n%R)) (x2 := x2 (n/R) (n%R)) Hn b b1 b2 ?_ ?_ ?_
      (Or.inl (h1 _ _ hi hr)) (Or.inl (h2 _ _ hi hr)) (fun c hc => hv _ _ c hi hr hc) ?_
    · intro c; have := hx _ _ c hi hr; rwa [en] at this
    · intro c; have := hx1 _ _ c hi hr; rwa [en] at this
    · intro c; have := hx2 _ _ c hi hr; rwa [en] at this
    · rintro k' _ (h | ⟨i, r, a, b, c, d⟩)
      · exact Or.inr (Or.inl h)
      · by_cases e : R*i + r < n
        · exact Or.inr (Or.inr ⟨i, r, a, b, e, d⟩)
        · have e1 : R*i + r = n := by omega
          have e2 : n/R = i := by
            rw [← e1, Nat.mul_add_div hR, Nat.div_eq_of_lt b]; rfl
          have e3 : n%R = r := by rw [← e1, Nat.mul_add_mod, Nat.mod_eq_of_lt b]
          exact Or.inl (by rw [d, e2, e3])
  · intro k' hk h
    rcases hS k' hk h with h | ⟨i, r, a, b, c⟩
    · exact Or.inl h
    · refine Or.inr ⟨i, r, a, b, ?_, c⟩
      calc R*i + r < R*i + R := by omega
        _ = R*(i+1) := by ring
        _ ≤ R*N := Nat.mul_le_mul_left _ a

/-- first stage: raise `a` at the expense of `b`; `key a b m r` -/
theorem hrrX_wp {la nmax mmax da db R : Nat} {ptr : Nat → Nat → Nat → Nat} {key : Nat → Nat → Nat → Nat → κ}
    (H : G.T h0 S h) (hla : la ≤ nmax)
    (hb : ∀ a b m r, a ≤ la → a + b ≤ nmax → m ≤ mmax → r < R → G.box (key a b m r))
    (hx : ∀ a b m r c, gAx g e c (ptr a b m + r) = G.addr c (key a b m r))
    (hd1 : ∀ a b m, ptr (a+1) b m = ptr a b m + da) (hd2 : ∀ a b m, ptr a (b+1) m = ptr a b m + db)
    (hi : ∀ b m r, b ≤ nmax → m ≤ mmax → r < R → S (key 0 b m r))
    (hv : ∀ a b m r c, c < 3 → r < R → G.v c (key (a+1) b m r) = rr c * G.v c (key a b m r) + G.v c (key a (b+1) m r)) :
    wp (forN la fun a' => forN (nmax-(a'+1)+1) fun b => forN (mmax+1) fun m => forN R fun n =>
        hrrStep e g rr da db (ptr (a'+1) b m + n))
      (fun _ h' => G.T h0 (fun k => S k ∨ ∃ a b m r, a ≤ la ∧ a + b ≤ nmax ∧ m ≤ mmax ∧ r < R ∧ k = key a b m r) h') h := by
  refine T_forN (fun a' k => S k ∨ ∃ a b m r, a ≤ a' ∧ a + b ≤ nmax ∧ m ≤ mmax ∧ r < R ∧ k = key a b m r) H ?_ ?_
    (fun k _ h => h)
  · rintro k _ (h | ⟨a, b, m, r, h1, h2, h3, h4, rfl⟩)
    · exact h
    · have : a = 0 := by omega
      subst this
      exact hi _ _ _ (by omega) h3 h4
  intro a' ha h' Ha
  refine T_forN (fun b' k => (S k ∨ ∃ a b m r, a ≤ a' ∧ a + b ≤ nmax ∧ m ≤ mmax ∧ r < R ∧ k = key a b m r) ∨
    ∃ b m r, b < b' ∧ m ≤ mmax ∧ r < R ∧ k = key (a'+1) b m r) Ha ?_ ?_ ?_
  · rintro k _ (h | ⟨b, m, r, h1, _⟩)
    · exact h
    · omega
  · intro b' hb' h1 Hb
    refine T_forN (fun m' k => ((S k ∨ ∃ a b m r, a ≤ a' ∧ a + b ≤ nmax ∧ m ≤ mmax ∧ r < R ∧ k = key a b m r) ∨
      ∃ b m r, b < b' ∧ m ≤ mmax ∧ r < R ∧ k = key (a'+1) b m r) ∨ ∃ m r, m < m' ∧ r < R ∧ k = key (a'+1) b' m r) Hb ?_ ?_ ?_
    · rintro k _ (h | ⟨m, r, h1, _⟩)
      · exact h
      · omega
    · intro m' hm h2 Hm
      have := hrr_row (S' := fun k => ((S k ∨ ∃ a b m r, a ≤ a' ∧ a + b ≤ nmax ∧ m ≤ mmax ∧ r < R ∧ k = key a b m r) ∨
        ∃ b m r, b < b' ∧ m ≤ mmax ∧ r < R ∧ k = key (a'+1) b m r) ∨ ∃ m r, m < m' + 1 ∧ r < R ∧ k = key (a'+1) b' m r)
        (e := e) (g := g) (rr := rr) (d1 := da) (d2 := db) (p := ptr (a'+1) b' m') (N := 1) (R := R)
        (x := fun _ r => key (a'+1) b' m' r)
        (x1 := fun _ r => key a' b' m' r) (x2 := fun _ r => key a' (b'+1) m' r) Hm ?_ ?_ ?_ ?_ ?_ ?_ ?_ ?_
      · rw [Nat.mul_one] at this
        exact this
      · intro i r _ hr
        exact ⟨hb _ _ _ _ (by omega) (by omega) (by omega) hr, hb _ _ _ _ (by omega) (by omega) (by omega) hr,
          hb _ _ _ _ (by omega) (by omega) (by omega) hr⟩
      · intro i r c h1 hr
        have : i = 0 := by omega
        subst this
        rw [← hx]; simp
      · intro i r c h1 hr
        have : i = 0 := by omega
        subst this
        rw [← hx, hd1]; congr 1; omega
      · intro i r c h1 hr
        have : i = 0 := by omega
        subst this
        rw [← hx, hd1, hd2]; congr 1; omega
      · intro i r _ hr
        exact Or.inl (Or.inl (Or.inr ⟨_, _, _, _, le_refl _, by omega, by omega, hr, rfl⟩))
      · intro i r _ hr
        exact Or.inl (Or.inl (Or.inr ⟨_, _, _, _, le_refl _, by omega, by omega, hr, rfl⟩))
      · intro i r c _ hr hc
        exact hv _ _ _ _ c hc hr
      · rintro k' _ (h | ⟨m, r, a, b, c⟩)
        · exact Or.inl (Or.inl h)
        · by_cases e : m < m'
          · exact Or.inl (Or.inr ⟨m, r, e, b, c⟩)
          · have : m = m' := by omega
            subst this
            exact Or.inr ⟨0, r, by omega, b, c⟩
    · rintro k' _ (h | ⟨b, m, r, h1, h2, h3, h4⟩)
      · exact Or.inl (Or.inl h)
      · by_cases e : b < b'
        · exact Or.inl (Or.inr ⟨b, m, r, e, h2, h3, h4⟩)
        · have : b = b' := by omega
          subst this
          exact Or.inr ⟨m, r, by omega, h3, h4⟩
  · rintro k' _ (h | ⟨a, b, m, r, h1, h2, h3, h4, h5⟩)
    · exact Or.inl (Or.inl h)
    · by_cases e : a ≤ a'
      · exact Or.inl (Or.inr ⟨a, b, m, r, e, h2, h3, h4, h5⟩)
      · have : a = a' + 1 := by omega
        subst this
        exact Or.inr ⟨b, m, r, by omega, h3, h4, h5⟩

/-- second stage of the `lj` and `kj` variants; `key j c d i r` -/
theorem hrrY_wp {lj lc mmax dc dd A R : Nat} {ptr : Nat → Nat → Nat → Nat} {key : Nat → Nat → Nat → Nat → Nat → κ}
    (H : G.T h0 S h) (hlc : lc ≤ mmax)
    (hb : ∀ j c d i r, j ≤ lj → c ≤ lc → c + d ≤ mmax → i < A → r < R → G.box (key j c d i r))
    (hx : ∀ j c d i r ax, gAx g e ax (ptr j c d + (R*i + r)) = G.addr ax (key j c d i r))
    (hd1 : ∀ j c d, ptr j (c+1) d = ptr j c d + dc) (hd2 : ∀ j c d, ptr j c (d+1) = ptr j c d + dd)
    (hi : ∀ j d i r, j ≤ lj → d ≤ mmax → i < A → r < R → S (key j 0 d i r))
    (hv : ∀ j c d i r ax, ax < 3 → r < R → G.v ax (key j (c+1) d i r) = rr ax * G.v ax (key j c d i r) + G.v ax (key j c (d+1) i r)) :
    wp (forN (lj+1) fun j => forN lc fun c' => forN (mmax-(c'+1)+1) fun d => forN (R*A) fun n =>
        hrrStep e g rr dc dd (ptr j (c'+1) d + n))
      (fun _ h' => G.T h0 (fun k => S k ∨ ∃ j c d i r, j ≤ lj ∧ c ≤ lc ∧ c + d ≤ mmax ∧ i < A ∧ r < R ∧ k = key j c d i r) h') h := by
  refine T_forN (fun j' k => S k ∨ ∃ j c d i r, j < j' ∧ c ≤ lc ∧ c + d ≤ mmax ∧ i < A ∧ r < R ∧ k = key j c d i r) H ?_ ?_ ?_
  · rintro k _ (h | ⟨j, c, d, i, r, h1, _⟩)
    · exact h
    · omega
  · intro j' hj h1 Hj
    refine T_forN (fun c' k => (S k ∨ ∃ j c d i r, j < j' ∧ c ≤ lc ∧ c + d ≤ mmax ∧ i < A ∧ r < R ∧ k = key j c d i r) ∨
      ∃ c d i r, c ≤ c' ∧ c + d ≤ mmax ∧ i < A ∧ r < R ∧ k = key j' c d i r) Hj ?_ ?_ ?_
    · rintro k _ (h | ⟨c, d, i, r, h1, h2, h3, h4, rfl⟩)
      · exact h
      · have : c = 0 := by omega
        subst this
        exact Or.inl (hi _ _ _ _ (by omega) (by omega) h3 h4)
    · intro c' hc h2 Hc
      refine T_forN (fun d' k => ((S k ∨ ∃ j c d i r, j < j' ∧ c ≤ lc ∧ c + d ≤ mmax ∧ i < A ∧ r < R ∧ k = key j c d i r) ∨
        ∃ c d i r, c ≤ c' ∧ c + d ≤ mmax ∧ i < A ∧ r < R ∧ k = key j' c d i r) ∨
        ∃ d i r, d < d' ∧ i < A ∧ r < R ∧ k = key j' (c'+1) d i r) Hc ?_ ?_ ?_
      · rintro k _ (h | ⟨d, i, r, h1, _⟩)
        · exact h
        · omega
      · intro d' hd h3 Hd
        refine hrr_row (x := fun i r => key j' (c'+1) d' i r)
          (x1 := fun i r => key j' c' d' i r) (x2 := fun i r => key j' c' (d'+1) i r) Hd ?_ ?_ ?_ ?_ ?_ ?_ ?_ ?_
        · intro i r hi hr
          exact ⟨hb _ _ _ _ _ (by omega) (by omega) (by omega) hi hr, hb _ _ _ _ _ (by omega) (by omega) (by omega) hi hr,
            hb _ _ _ _ _ (by omega) (by omega) (by omega) hi hr⟩
        · intro i r c _ _
          exact hx _ _ _ _ _ _
        · intro i r c _ _
          rw [← hx, hd1]; congr 1; omega
        · intro i r c _ _
          rw [← hx, hd1, hd2]; congr 1; omega
        · intro i r hi hr
          exact Or.inl (Or.inr ⟨_, _, _, _, le_refl _, by omega, hi, hr, rfl⟩)
        · intro i r hi hr
          exact Or.inl (Or.inr ⟨_, _, _, _, le_refl _, by omega, hi, hr, rfl⟩)
        · intro i r c _ hr hc
          exact hv _ _ _ _ _ c hc hr
        · rintro k' _ (h | ⟨d, i, r, a, b, c, f⟩)
          · exact Or.inl (Or.inl h)
          · by_cases e : d < d'
            · exact Or.inl (Or.inr ⟨d, i, r, e, b, c, f⟩)
            · have : d = d' := by omega
              subst this
              exact Or.inr ⟨i, r, b, c, f⟩
      · rintro k' _ (h | ⟨c, d, i, r, h1, h2, h3, h4, h5⟩)
        · exact Or.inl (Or.inl h)
        · by_cases e : c ≤ c'
          · exact Or.inl (Or.inr ⟨c, d, i, r, e, h2, h3, h4, h5⟩)
          · have : c = c' + 1 := by omega
            subst this
            exact Or.inr ⟨d, i, r, by omega, h3, h4, h5⟩
    · rintro k' _ (h | ⟨j, c, d, i, r, h1, h2, h3, h4, h5, h6⟩)
      · exact Or.inl (Or.inl h)
      · by_cases e : j < j'
        · exact Or.inl (Or.inr ⟨j, c, d, i, r, e, h2, h3, h4, h5, h6⟩)
        · have : j = j' := by omega
          subst this
          exact Or.inr ⟨c, d, i, r, h2, h3, h4, h5, h6⟩
  · rintro k' _ (h | ⟨j, c, d, i, r, h1, h⟩)
    · exact Or.inl h
    · exact Or.inr ⟨j, c, d, i, r, by omega, h⟩

/-- second stage of the `il` and `ik` variants; `key j l k i r` -/
theorem hrrZ_wp {lj ll lk nmax dj A R : Nat} {ptr : Nat → Nat → Nat → Nat} {key : Nat → Nat → Nat → Nat → Nat → κ}
    (H : G.T h0 S h) (hlj : lj ≤ nmax) (hA : A = nmax + 1)
    (hb : ∀ j l k i r, j ≤ lj → l ≤ ll → k ≤ lk → i + j ≤ nmax → r < R → G.box (key j l k i r))
    (hx : ∀ j l k i r ax, gAx g e ax (ptr j l k + (R*i + r)) = G.addr ax (key j l k i r))
    (hd1 : ∀ j l k, ptr (j+1) l k = ptr j l k + dj)
    (hi : ∀ l k i r, l ≤ ll → k ≤ lk → i ≤ nmax → r < R → S (key 0 l k i r))
    (hv : ∀ j l k i r ax, ax < 3 → r < R → G.v ax (key (j+1) l k i r) = rr ax * G.v ax (key j l k i r) + G.v ax (key j l k (i+1) r)) :
    wp (forN lj fun j' => forN (ll+1) fun l => forN (lk+1) fun k => forN (R*A - R*(j'+1)) fun n =>
        hrrStep e g rr dj R (ptr (j'+1) l k + n))
      (fun _ h' => G.T h0 (fun x => S x ∨ ∃ j l k i r, j ≤ lj ∧ l ≤ ll ∧ k ≤ lk ∧ i + j ≤ nmax ∧ r < R ∧ x = key j l k i r) h') h := by
  refine T_forN (fun j' x => S x ∨ ∃ j l k i r, j ≤ j' ∧ l ≤ ll ∧ k ≤ lk ∧ i + j ≤ nmax ∧ r < R ∧ x = key j l k i r) H ?_ ?_
    (fun k _ h => h)
  · rintro x _ (h | ⟨j, l, k, i, r, h1, h2, h3, h4, h5, rfl⟩)
    · exact h
    · have : j = 0 := by omega
      subst this
      exact hi _ _ _ _ h2 h3 (by omega) h5
  intro j' hj h1 Hj
  refine T_forN (fun l' x => (S x ∨ ∃ j l k i r, j ≤ j' ∧ l ≤ ll ∧ k ≤ lk ∧ i + j ≤ nmax ∧ r < R ∧ x = key j l k i r) ∨
    ∃ l k i r, l < l' ∧ k ≤ lk ∧ i + (j'+1) ≤ nmax ∧ r < R ∧ x = key (j'+1) l k i r) Hj ?_ ?_ ?_
  · rintro x _ (h | ⟨l, k, i, r, h1, _⟩)
    · exact h
    · omega
  · intro l' hl h2 Hl
    refine T_forN (fun k' x => ((S x ∨ ∃ j l k i r, j ≤ j' ∧ l ≤ ll ∧ k ≤ lk ∧ i + j ≤ nmax ∧ r < R ∧ x = key j l k i r) ∨
      ∃ l k i r, l < l' ∧ k ≤ lk ∧ i + (j'+1) ≤ nmax ∧ r < R ∧ x = key (j'+1) l k i r) ∨
      ∃ k i r, k < k' ∧ i + (j'+1) ≤ nmax ∧ r < R ∧ x = key (j'+1) l' k i r) Hl ?_ ?_ ?_
    · rintro x _ (h | ⟨k, i, r, h1, _⟩)
      · exact h
      · omega
    · intro k' hk h3 Hk
      rw [show R*A - R*(j'+1) = R*(A-(j'+1)) from (Nat.mul_sub _ _ _).symm]
      refine hrr_row (x := fun i r => key (j'+1) l' k' i r)
        (x1 := fun i r => key j' l' k' i r) (x2 := fun i r => key j' l' k' (i+1) r) Hk ?_ ?_ ?_ ?_ ?_ ?_ ?_ ?_
      · intro i r hi hr
        exact ⟨hb _ _ _ _ _ (by omega) (by omega) (by omega) (by omega) hr,
          hb _ _ _ _ _ (by omega) (by omega) (by omega) (by omega) hr,
          hb _ _ _ _ _ (by omega) (by omega) (by omega) (by omega) hr⟩
      · intro i r c _ _
        exact hx _ _ _ _ _ _
      · intro i r c _ _
        rw [← hx, hd1]; congr 1; omega
      · intro i r c _ _
        rw [← hx, hd1]; congr 1
        have : R*(i+1) = R*i + R := by ring
        omega
      · intro i r hi hr
        exact Or.inl (Or.inl (Or.inr ⟨_, _, _, _, _, le_refl _, by omega, by omega, by omega, hr, rfl⟩))
      · intro i r hi hr
        exact Or.inl (Or.inl (Or.inr ⟨_, _, _, _, _, le_refl _, by omega, by omega, by omega, hr, rfl⟩))
      · intro i r c _ hr hc
        exact hv _ _ _ _ _ c hc hr
      · rintro x _ (h | ⟨k, i, r, a, b, c, f⟩)
        · exact Or.inl (Or.inl h)
        · by_cases e : k < k'
          · exact Or.inl (Or.inr ⟨k, i, r, e, b, c, f⟩)
          · have : k = k' := by omega
            subst this
            exact Or.inr ⟨i, r, by omega, c, f⟩
    · rintro x _ (h | ⟨l, k, i, r, h1, h2, h3, h4, h5⟩)
      · exact Or.inl (Or.inl h)
      · by_cases e : l < l'
        · exact Or.inl (Or.inr ⟨l, k, i, r, e, h2, h3, h4, h5⟩)
        · have : l = l' := by omega
          subst this
          exact Or.inr ⟨k, i, r, by omega, h3, h4, h5⟩
  · rintro x _ (h | ⟨j, l, k, i, r, h1, h2, h3, h4, h5, h6⟩)
    · exact Or.inl (Or.inl h)
    · by_cases e : j ≤ j'
      · exact Or.inl (Or.inr ⟨j, l, k, i, r, e, h2, h3, h4, h5, h6⟩)
      · have : j = j' + 1 := by omega
        subst this
        exact Or.inr ⟨l, k, i, r, by omega, h3, h4, h5, h6⟩
end


/-! ### The four variants -/

/-- shape of the array of intermediates (CINTinit_int2e_EnvVars, CINTinit_int3c2e_EnvVars) -/
structure Shape4 (e : EnvG) : Prop where
  si : e.g_stride_i = e.nrys_roots
  sk : e.g_stride_k = e.nrys_roots * dimA e.li_ceil e.lj_ceil
  sl : e.g_stride_l = e.nrys_roots * dimA e.li_ceil e.lj_ceil * dimA e.lk_ceil e.ll_ceil
  sj : e.g_stride_j = e.nrys_roots * dimA e.li_ceil e.lj_ceil * dimA e.lk_ceil e.ll_ceil * dimB e.lk_ceil e.ll_ceil
  gs : e.g_size = e.nrys_roots * dimA e.li_ceil e.lj_ceil * dimA e.lk_ceil e.ll_ceil * dimB e.lk_ceil e.ll_ceil *
    dimB e.li_ceil e.lj_ceil
  ij : e.g2d_ijmax = if ibase e then e.g_stride_i else e.g_stride_j
  kl : e.g2d_klmax = if kbase e then e.g_stride_k else e.g_stride_l

theorem shape4_int2e (li lj lk ll : Nat) (ng : Inc) (sr : Bool) : Shape4 (initInt2e li lj lk ll ng sr) :=
  ⟨rfl, rfl, rfl, rfl, rfl, rfl, rfl⟩

theorem shape4_int3c2e (li lj lk : Nat) (ng : Inc) (sr : Bool) : Shape4 (initInt3c2e li lj lk ng sr) := by
  have e1 : dimA 0 (lk + ng.k) = 1 := by unfold dimA; simp
  have e2 : dimB 0 (lk + ng.k) = lk + ng.k + 1 := by unfold dimB; simp
  refine ⟨rfl, rfl, ?_, ?_, ?_, rfl, ?_⟩
  · show _ = _ * _ * dimA 0 (lk + ng.k)
    rw [e1, Nat.mul_one]; rfl
  · show _ = _ * _ * dimA 0 (lk + ng.k) * dimB 0 (lk + ng.k)
    rw [e1, e2, Nat.mul_one]; rfl
  · show _ = _ * _ * dimA 0 (lk + ng.k) * dimB 0 (lk + ng.k) * _
    rw [e1, e2, Nat.mul_one]; rfl
  · split <;> rfl

abbrev Ix5 := Nat × Nat × Nat × Nat × Nat

/-- the slabs of the array: index `(i,j,k,l,r)` of direction `c` -/
def cells4 {α : Type} (e : EnvG) (he : Shape4 e) (g : Ptr) (E : Nat → Nat → Nat → Nat → Nat → Nat → α) : Cells α Ix5 where
  addr := fun c x => gAx g e c (slab4 e x.1 x.2.1 x.2.2.1 x.2.2.2.1 x.2.2.2.2)
  box := fun x => x.1 < dimA e.li_ceil e.lj_ceil ∧ x.2.1 < dimB e.li_ceil e.lj_ceil ∧
    x.2.2.1 < dimA e.lk_ceil e.ll_ceil ∧ x.2.2.2.1 < dimB e.lk_ceil e.ll_ceil ∧ x.2.2.2.2 < e.nrys_roots
  v := fun c x => E c x.1 x.2.1 x.2.2.1 x.2.2.2.1 x.2.2.2.2
  reg := fun q => ∃ n, n < 3 * e.g_size ∧ q = g + n
  mem := by
    rintro c ⟨i, j, k, l, r⟩ hc ⟨h1, h2, h3, h4, h5⟩
    have := (slabOK4_of (amax := i) (bmax := j) (kmax := k) (lmax := l) he.si he.sk he.sl he.sj he.gs h1 h2 h3 h4).range
      i j k l r (le_refl _) (le_refl _) (le_refl _) (le_refl _) h5
    refine ⟨c*e.g_size + slab4 e i j k l r, ?_, rfl⟩
    have h6 : (c+1)*e.g_size ≤ 3*e.g_size := Nat.mul_le_mul_right _ hc
    have h7 : (c+1)*e.g_size = c*e.g_size + e.g_size := by ring
    omega
  inj := by
    rintro c c' ⟨i, j, k, l, r⟩ ⟨i', j', k', l', r'⟩ hc hc' ⟨h1, h2, h3, h4, h5⟩ ⟨h1', h2', h3', h4', h5'⟩ h
    dsimp only at *
    have S := slabOK4_of (amax := max i i') (bmax := max j j') (kmax := max k k') (lmax := max l l')
      he.si he.sk he.sl he.sj he.gs (by omega) (by omega) (by omega) (by omega)
    have r1 := S.range i j k l r (by omega) (by omega) (by omega) (by omega) h5
    have r2 := S.range i' j' k' l' r' (by omega) (by omega) (by omega) (by omega) h5'
    have ho : c*e.g_size + slab4 e i j k l r = c'*e.g_size + slab4 e i' j' k' l' r' := by
      have := congrArg Ptr.off h
      simp only [gAx] at this
      simpa using this
    have hcc : c = c' := by
      have hp : 0 < e.g_size := by omega
      have a1 := Nat.div_eq_of_lt r1
      have a2 := Nat.div_eq_of_lt r2
      have b := congrArg (· / e.g_size) ho
      simp only [Nat.mul_comm c, Nat.mul_comm c', Nat.mul_add_div hp, a1, a2] at b
      omega
    subst hcc
    obtain ⟨rfl, rfl, rfl, rfl, rfl⟩ := S.inj i j k l r i' j' k' l' r' (by omega) (by omega) (by omega) (by omega) h5
      (by omega) (by omega) (by omega) (by omega) h5' (by omega)
    exact ⟨rfl, rfl⟩

section
variable {α : Type} [Field α]

/-- transfer relations -/
abbrev Hrr4 (d : G2 α) (E : Nat → Nat → Nat → Nat → Nat → Nat → α) : Prop := Spec.Transfers d.ri d.rj d.rk d.rl E

variable {e : EnvG} {he : Shape4 e} {g : Ptr} {E : Nat → Nat → Nat → Nat → Nat → Nat → α} {d : G2 α} {h0 h : Heap α}

/-- what the two-dimensional recursion leaves: one index of each pair is zero -/
def base4 (e : EnvG) (x : Ix5) : Prop :=
  (if ibase e then x.2.1 = 0 else x.1 = 0) ∧ (if kbase e then x.2.2.2.1 = 0 else x.2.2.1 = 0)

/-- the indices that are read later -/
def full4 (e : EnvG) (x : Ix5) : Prop :=
  x.1 ≤ e.li_ceil ∧ x.2.1 ≤ e.lj_ceil ∧ x.2.2.1 ≤ e.lk_ceil ∧ x.2.2.2.1 ≤ e.ll_ceil

theorem cells4_addr (i j k l r c : Nat) : (cells4 e he g E).addr c (i,j,k,l,r) = gAx g e c (slab4 e i j k l r) := rfl

theorem lj2d_wp (hE : Hrr4 d E) (hi : ¬ ibase e) (hk : ¬ kbase e)
    (H : (cells4 e he g E).T h0 (base4 e) h) :
    wp (g0_lj2d_4d e d g) (fun _ h' => (cells4 e he g E).T h0 (full4 e) h') h := by
  have hA : dimA e.li_ceil e.lj_ceil = e.li_ceil + 1 := if_neg hi
  have hB : dimB e.li_ceil e.lj_ceil = e.li_ceil + e.lj_ceil + 1 := if_neg hi
  have hK : dimA e.lk_ceil e.ll_ceil = e.lk_ceil + 1 := if_neg hk
  have hL : dimB e.lk_ceil e.ll_ceil = e.lk_ceil + e.ll_ceil + 1 := if_neg hk
  unfold g0_lj2d_4d
  dsimp only
  by_cases hz : e.li_ceil = 0 ∧ e.lk_ceil = 0
  · rw [if_pos hz, wp_pure]
    refine T_mono H ?_
    rintro ⟨i, j, k, l, r⟩ _ ⟨h1, h2, h3, h4⟩
    refine ⟨?_, ?_⟩
    · rw [if_neg hi]; dsimp only at *; omega
    · rw [if_neg hk]; dsimp only at *; omega
  rw [if_neg hz, wp_mbind]
  refine wp_mono (hrrX_wp (R := e.nrys_roots) (ptr := fun a b m => b*e.g_stride_j + m*e.g_stride_l + a*e.g_stride_i)
    (key := fun a b m r => (a,b,0,m,r)) H (by omega) ?_ ?_ ?_ ?_ ?_ ?_) ?_
  · intro a b m r h1 h2 h3 h4
    refine ⟨?_, ?_, ?_, ?_, h4⟩ <;> dsimp only <;> omega
  · intro a b m r c
    rw [cells4_addr]; unfold slab4; congr 1; ring
  · intro a b m; ring
  · intro a b m; ring
  · intro b m r _ _ _
    refine ⟨?_, ?_⟩
    · rw [if_neg hi]
    · rw [if_neg hk]
  · intro a b m r c hc _
    show E c (a+1) b 0 m r = _ * E c a b 0 m r + E c a (b+1) 0 m r
    unfold rirj2; rw [if_neg hi, hE.ij c a b 0 m r hc]; ring
  intro _ h1 H1
  have e1 : e.g_stride_k = e.nrys_roots * dimA e.li_ceil e.lj_ceil := he.sk
  have main := hrrY_wp (e := e) (g := g) (rr := rkrl2 e d) (R := e.nrys_roots) (A := dimA e.li_ceil e.lj_ceil)
    (lj := e.lj_ceil) (lc := e.lk_ceil) (mmax := e.lk_ceil + e.ll_ceil) (dc := e.g_stride_k) (dd := e.g_stride_l)
    (ptr := fun j c d => j*e.g_stride_j + d*e.g_stride_l + c*e.g_stride_k)
    (key := fun j c d i r => (i,j,c,d,r)) H1 (by omega) ?_ ?_ ?_ ?_ ?_ ?_
  · rw [← e1] at main
    refine wp_mono main ?_
    intro _ h2 H2
    refine T_mono H2 ?_
    rintro ⟨i, j, k, l, r⟩ hb ⟨h1, h2, h3, h4⟩
    have := hb.2.2.2.2
    dsimp only at *
    exact Or.inr ⟨j, k, l, i, r, h2, h3, by omega, by omega, this, rfl⟩
  · intro j c d i r h1 h2 h3 h4 h5
    refine ⟨h4, ?_, ?_, ?_, h5⟩ <;> dsimp only <;> omega
  · intro j c d i r ax
    rw [cells4_addr]; unfold slab4; rw [he.si]; congr 1; ring
  · intro a b m; ring
  · intro a b m; ring
  · intro j d i r h1 h2 h3 h4
    exact Or.inr ⟨i, j, d, r, by omega, by omega, h2, h4, rfl⟩
  · intro j c dd i r ax hc _
    show E ax i j (c+1) dd r = _ * E ax i j c dd r + E ax i j c (dd+1) r
    unfold rkrl2; rw [if_neg hk, hE.kl ax i j c dd r hc]; ring

theorem kj2d_wp (hE : Hrr4 d E) (hi : ¬ ibase e) (hk : kbase e)
    (H : (cells4 e he g E).T h0 (base4 e) h) :
    wp (g0_kj2d_4d e d g) (fun _ h' => (cells4 e he g E).T h0 (full4 e) h') h := by
  have hA : dimA e.li_ceil e.lj_ceil = e.li_ceil + 1 := if_neg hi
  have hB : dimB e.li_ceil e.lj_ceil = e.li_ceil + e.lj_ceil + 1 := if_neg hi
  have hK : dimA e.lk_ceil e.ll_ceil = e.lk_ceil + e.ll_ceil + 1 := if_pos hk
  have hL : dimB e.lk_ceil e.ll_ceil = e.ll_ceil + 1 := if_pos hk
  unfold g0_kj2d_4d
  dsimp only
  by_cases hz : e.li_ceil = 0 ∧ e.ll_ceil = 0
  · rw [if_pos hz, wp_pure]
    refine T_mono H ?_
    rintro ⟨i, j, k, l, r⟩ _ ⟨h1, h2, h3, h4⟩
    refine ⟨?_, ?_⟩
    · rw [if_neg hi]; dsimp only at *; omega
    · rw [if_pos hk]; dsimp only at *; omega
  rw [if_neg hz, wp_mbind]
  refine wp_mono (hrrX_wp (R := e.nrys_roots) (ptr := fun a b m => b*e.g_stride_j + m*e.g_stride_k + a*e.g_stride_i)
    (key := fun a b m r => (a,b,m,0,r)) H (by omega) ?_ ?_ ?_ ?_ ?_ ?_) ?_
  · intro a b m r h1 h2 h3 h4
    refine ⟨?_, ?_, ?_, ?_, h4⟩ <;> dsimp only <;> omega
  · intro a b m r c
    rw [cells4_addr]; unfold slab4; congr 1; ring
  · intro a b m; ring
  · intro a b m; ring
  · intro b m r _ _ _
    refine ⟨?_, ?_⟩
    · rw [if_neg hi]
    · rw [if_pos hk]
  · intro a b m r c hc _
    show E c (a+1) b m 0 r = _ * E c a b m 0 r + E c a (b+1) m 0 r
    unfold rirj2; rw [if_neg hi, hE.ij c a b m 0 r hc]; ring
  intro _ h1 H1
  have e1 : e.g_stride_k = e.nrys_roots * dimA e.li_ceil e.lj_ceil := he.sk
  have main := hrrY_wp (e := e) (g := g) (rr := rkrl2 e d) (R := e.nrys_roots) (A := dimA e.li_ceil e.lj_ceil)
    (lj := e.lj_ceil) (lc := e.ll_ceil) (mmax := e.lk_ceil + e.ll_ceil) (dc := e.g_stride_l) (dd := e.g_stride_k)
    (ptr := fun j c d => j*e.g_stride_j + c*e.g_stride_l + d*e.g_stride_k)
    (key := fun j c d i r => (i,j,d,c,r)) H1 (by omega) ?_ ?_ ?_ ?_ ?_ ?_
  · rw [← e1] at main
    refine wp_mono main ?_
    intro _ h2 H2
    refine T_mono H2 ?_
    rintro ⟨i, j, k, l, r⟩ hb ⟨h1, h2, h3, h4⟩
    have := hb.2.2.2.2
    dsimp only at *
    exact Or.inr ⟨j, l, k, i, r, h2, h4, by omega, by omega, this, rfl⟩
  · intro j c d i r h1 h2 h3 h4 h5
    refine ⟨h4, ?_, ?_, ?_, h5⟩ <;> dsimp only <;> omega
  · intro j c d i r ax
    rw [cells4_addr]; unfold slab4; rw [he.si]; congr 1; ring
  · intro a b m; ring
  · intro a b m; ring
  · intro j d i r h1 h2 h3 h4
    exact Or.inr ⟨i, j, d, r, by omega, by omega, h2, h4, rfl⟩
  · intro j c dd i r ax hc _
    show E ax i j dd (c+1) r = _ * E ax i j dd c r + E ax i j (dd+1) c r
    unfold rkrl2; rw [if_pos hk, hE.kl ax i j dd c r hc]; ring

theorem il2d_wp (hE : Hrr4 d E) (hi : ibase e) (hk : ¬ kbase e)
    (H : (cells4 e he g E).T h0 (base4 e) h) :
    wp (g0_il2d_4d e d g) (fun _ h' => (cells4 e he g E).T h0 (full4 e) h') h := by
  have hA : dimA e.li_ceil e.lj_ceil = e.li_ceil + e.lj_ceil + 1 := if_pos hi
  have hB : dimB e.li_ceil e.lj_ceil = e.lj_ceil + 1 := if_pos hi
  have hK : dimA e.lk_ceil e.ll_ceil = e.lk_ceil + 1 := if_neg hk
  have hL : dimB e.lk_ceil e.ll_ceil = e.lk_ceil + e.ll_ceil + 1 := if_neg hk
  unfold g0_il2d_4d
  dsimp only
  by_cases hz : e.lj_ceil = 0 ∧ e.lk_ceil = 0
  · rw [if_pos hz, wp_pure]
    refine T_mono H ?_
    rintro ⟨i, j, k, l, r⟩ _ ⟨h1, h2, h3, h4⟩
    refine ⟨?_, ?_⟩
    · rw [if_pos hi]; dsimp only at *; omega
    · rw [if_neg hk]; dsimp only at *; omega
  rw [if_neg hz, wp_mbind]
  refine wp_mono (hrrX_wp (R := e.nrys_roots) (ptr := fun a b m => b*e.g_stride_l + a*e.g_stride_k + m*e.g_stride_i)
    (key := fun a b m r => (m,0,a,b,r)) H (by omega) ?_ ?_ ?_ ?_ ?_ ?_) ?_
  · intro a b m r h1 h2 h3 h4
    refine ⟨?_, ?_, ?_, ?_, h4⟩ <;> dsimp only <;> omega
  · intro a b m r c
    rw [cells4_addr]; unfold slab4; congr 1; ring
  · intro a b m; ring
  · intro a b m; ring
  · intro b m r _ _ _
    refine ⟨?_, ?_⟩
    · rw [if_pos hi]
    · rw [if_neg hk]
  · intro a b m r c hc _
    show E c m 0 (a+1) b r = _ * E c m 0 a b r + E c m 0 a (b+1) r
    unfold rkrl2; rw [if_neg hk, hE.kl c m 0 a b r hc]; ring
  intro _ h1 H1
  have main := hrrZ_wp (e := e) (g := g) (rr := rirj2 e d) (R := e.nrys_roots) (A := dimA e.li_ceil e.lj_ceil)
    (lj := e.lj_ceil) (ll := e.ll_ceil) (lk := e.lk_ceil) (nmax := e.li_ceil + e.lj_ceil) (dj := e.g_stride_j)
    (ptr := fun j l k => j*e.g_stride_j + l*e.g_stride_l + k*e.g_stride_k)
    (key := fun j l k i r => (i,j,k,l,r)) H1 (by omega) hA ?_ ?_ ?_ ?_ ?_
  · rw [← he.sk] at main
    simp only [← he.si] at main
    refine wp_mono main ?_
    intro _ h2 H2
    refine T_mono H2 ?_
    rintro ⟨i, j, k, l, r⟩ hb ⟨h1, h2, h3, h4⟩
    have := hb.2.2.2.2
    have hs := he.si
    dsimp only at *
    exact Or.inr ⟨j, l, k, i, r, h2, h4, h3, by omega, by omega, rfl⟩
  · intro j l k i r h1 h2 h3 h4 h5
    refine ⟨?_, ?_, ?_, ?_, h5⟩ <;> dsimp only <;> omega
  · intro j l k i r ax
    rw [cells4_addr]; unfold slab4; rw [he.si]; congr 1; ring
  · intro a b m; ring
  · intro l k i r h1 h2 h3 h4
    exact Or.inr ⟨k, l, i, r, by omega, by omega, h3, h4, rfl⟩
  · intro j l k i r ax hc _
    show E ax i (j+1) k l r = _ * E ax i j k l r + E ax (i+1) j k l r
    unfold rirj2; rw [if_pos hi, hE.ij ax i j k l r hc]; ring

theorem ik2d_wp (hE : Hrr4 d E) (hi : ibase e) (hk : kbase e)
    (H : (cells4 e he g E).T h0 (base4 e) h) :
    wp (g0_ik2d_4d e d g) (fun _ h' => (cells4 e he g E).T h0 (full4 e) h') h := by
  have hA : dimA e.li_ceil e.lj_ceil = e.li_ceil + e.lj_ceil + 1 := if_pos hi
  have hB : dimB e.li_ceil e.lj_ceil = e.lj_ceil + 1 := if_pos hi
  have hK : dimA e.lk_ceil e.ll_ceil = e.lk_ceil + e.ll_ceil + 1 := if_pos hk
  have hL : dimB e.lk_ceil e.ll_ceil = e.ll_ceil + 1 := if_pos hk
  unfold g0_ik2d_4d
  dsimp only
  by_cases hz : e.lj_ceil = 0 ∧ e.ll_ceil = 0
  · rw [if_pos hz, wp_pure]
    refine T_mono H ?_
    rintro ⟨i, j, k, l, r⟩ _ ⟨h1, h2, h3, h4⟩
    refine ⟨?_, ?_⟩
    · rw [if_pos hi]; dsimp only at *; omega
    · rw [if_pos hk]; dsimp only at *; omega
  rw [if_neg hz, wp_mbind]
  refine wp_mono (hrrX_wp (R := e.nrys_roots) (ptr := fun a b m => a*e.g_stride_l + b*e.g_stride_k + m*e.g_stride_i)
    (key := fun a b m r => (m,0,b,a,r)) H (by omega) ?_ ?_ ?_ ?_ ?_ ?_) ?_
  · intro a b m r h1 h2 h3 h4
    refine ⟨?_, ?_, ?_, ?_, h4⟩ <;> dsimp only <;> omega
  · intro a b m r c
    rw [cells4_addr]; unfold slab4; congr 1; ring
  · intro a b m; ring
  · intro a b m; ring
  · intro b m r _ _ _
    refine ⟨?_, ?_⟩
    · rw [if_pos hi]
    · rw [if_pos hk]
  · intro a b m r c hc _
    show E c m 0 b (a+1) r = _ * E c m 0 b a r + E c m 0 (b+1) a r
    unfold rkrl2; rw [if_pos hk, hE.kl c m 0 b a r hc]; ring
  intro _ h1 H1
  have main := hrrZ_wp (e := e) (g := g) (rr := rirj2 e d) (R := e.nrys_roots) (A := dimA e.li_ceil e.lj_ceil)
    (lj := e.lj_ceil) (ll := e.ll_ceil) (lk := e.lk_ceil) (nmax := e.li_ceil + e.lj_ceil) (dj := e.g_stride_j)
    (ptr := fun j l k => j*e.g_stride_j + l*e.g_stride_l + k*e.g_stride_k)
    (key := fun j l k i r => (i,j,k,l,r)) H1 (by omega) hA ?_ ?_ ?_ ?_ ?_
  · rw [← he.sk] at main
    simp only [← he.si] at main
    refine wp_mono main ?_
    intro _ h2 H2
    refine T_mono H2 ?_
    rintro ⟨i, j, k, l, r⟩ hb ⟨h1, h2, h3, h4⟩
    have := hb.2.2.2.2
    have hs := he.si
    dsimp only at *
    exact Or.inr ⟨j, l, k, i, r, h2, h4, h3, by omega, by omega, rfl⟩
  · intro j l k i r h1 h2 h3 h4 h5
    refine ⟨?_, ?_, ?_, ?_, h5⟩ <;> dsimp only <;> omega
  · intro j l k i r ax
    rw [cells4_addr]; unfold slab4; rw [he.si]; congr 1; ring
  · intro a b m; ring
  · intro l k i r h1 h2 h3 h4
    exact Or.inr ⟨l, k, i, r, by omega, by omega, h3, h4, rfl⟩
  · intro j l k i r ax hc _
    show E ax i (j+1) k l r = _ * E ax i j k l r + E ax (i+1) j k l r
    unfold rirj2; rw [if_pos hi, hE.ij ax i j k l r hc]; ring

/-- where the two-dimensional recursion puts `(n, m, r)` -/
def pos2 (e : EnvG) (n m r : Nat) : Ix5 :=
  (if ibase e then n else 0, if ibase e then 0 else n, if kbase e then m else 0, if kbase e then 0 else m, r)

/-- values of the two-dimensional intermediates -/
def baseF (e : EnvG) (E : Nat → Nat → Nat → Nat → Nat → Nat → α) (c n m r : Nat) : α :=
  E c (if ibase e then n else 0) (if ibase e then 0 else n) (if kbase e then m else 0) (if kbase e then 0 else m) r

theorem pos2_box {n m r : Nat} (hn : n ≤ e.li_ceil + e.lj_ceil) (hm : m ≤ e.lk_ceil + e.ll_ceil) (hr : r < e.nrys_roots) :
    (cells4 e he g E).box (pos2 e n m r) := by
  unfold cells4 pos2 dimA dimB
  by_cases hi : ibase e <;> by_cases hk : kbase e <;> simp only [hi, hk, if_true, if_false] <;>
    unfold ibase at hi <;> unfold kbase at hk <;> simp only [hi, hk, if_true, if_false] <;>
    refine ⟨?_, ?_, ?_, ?_, hr⟩ <;> omega

theorem slab4_pos2 (he : Shape4 e) (n m r : Nat) :
    slab4 e (if ibase e then n else 0) (if ibase e then 0 else n) (if kbase e then m else 0) (if kbase e then 0 else m) r =
      r + n*e.g2d_ijmax + m*e.g2d_klmax := by
  rw [he.ij, he.kl]
  unfold slab4
  by_cases h1 : ibase e <;> by_cases h2 : kbase e <;> simp only [h1, h2, if_true, if_false] <;> ring

theorem pos2_inj {n m r n' m' r' : Nat} (h : pos2 e n m r = pos2 e n' m' r') : (n,m,r) = (n',m',r') := by
  unfold pos2 at h
  simp only [Prod.mk.injEq] at h ⊢
  obtain ⟨a, b, c, d, f⟩ := h
  refine ⟨?_, ?_, f⟩
  · split at a
    · exact a
    · rename_i h; simpa [h] using b
  · split at c
    · exact c
    · rename_i h; simpa [h] using d

/-- the cells of the two-dimensional recursion -/
def cells2 (e : EnvG) (he : Shape4 e) (g : Ptr) (E : Nat → Nat → Nat → Nat → Nat → Nat → α) : Cells α Ix2 where
  addr := fun c x => (cells4 e he g E).addr c (pos2 e x.1 x.2.1 x.2.2)
  box := fun x => x.1 ≤ e.li_ceil + e.lj_ceil ∧ x.2.1 ≤ e.lk_ceil + e.ll_ceil ∧ x.2.2 < e.nrys_roots
  v := fun c x => baseF e E c x.1 x.2.1 x.2.2
  reg := (cells4 e he g E).reg
  mem := fun c x hc hx => (cells4 e he g E).mem c _ hc (pos2_box hx.1 hx.2.1 hx.2.2)
  inj := by
    rintro c c' ⟨n, m, r⟩ ⟨n', m', r'⟩ hc hc' hx hx' h
    obtain ⟨a, b⟩ := (cells4 e he g E).inj c c' _ _ hc hc' (pos2_box hx.1 hx.2.1 hx.2.2) (pos2_box hx'.1 hx'.2.1 hx'.2.2) h
    exact ⟨a, pos2_inj b⟩

theorem T_base4 (H : (cells2 e he g E).T h0 (fun _ => True) h) : (cells4 e he g E).T h0 (base4 e) h := by
  refine ⟨?_, H.alloc, H.frame, H.int⟩
  rintro ⟨c, i, j, k, l, r⟩ ⟨hc, hb, hx⟩
  obtain ⟨h1, h2⟩ := hb
  obtain ⟨b1, b2, b3, b4, b5⟩ := hx
  dsimp only at h1 h2 b1 b2 b3 b4 b5 hc
  unfold dimA at b1 b3
  unfold dimB at b2 b4
  have key : ∃ n m, n ≤ e.li_ceil + e.lj_ceil ∧ m ≤ e.lk_ceil + e.ll_ceil ∧ (i,j,k,l,r) = pos2 e n m r := by
    unfold pos2
    by_cases hi : ibase e <;> by_cases hk : kbase e <;> simp only [hi, hk, if_true, if_false] at h1 h2 ⊢ <;>
      unfold ibase at hi <;> unfold kbase at hk <;> simp only [hi, hk, if_true, if_false] at b1 b2 b3 b4
    · exact ⟨i, k, by omega, by omega, by rw [h1, h2]⟩
    · exact ⟨i, l, by omega, by omega, by rw [h1, h2]⟩
    · exact ⟨j, k, by omega, by omega, by rw [h1, h2]⟩
    · exact ⟨j, l, by omega, by omega, by rw [h1, h2]⟩
  obtain ⟨n, m, hn, hm, hp⟩ := key
  have := H.val (c, n, m, r) ⟨hc, trivial, hn, hm, b5⟩
  have e1 : (cells2 e he g E).addr c (n,m,r) = (cells4 e he g E).addr c (i,j,k,l,r) := by
    show (cells4 e he g E).addr c (pos2 e n m r) = _
    rw [← hp]
  have e2 : (cells2 e he g E).v c (n,m,r) = (cells4 e he g E).v c (i,j,k,l,r) := by
    show (cells4 e he g E).v c (pos2 e n m r) = _
    rw [← hp]
  dsimp only at this ⊢
  rw [← e1, ← e2]
  exact this

/-- memory before the recursions: the weights are in the first cells of the `z` slab -/
structure Seed (e : EnvG) (g : Ptr) (z : Nat → α) (h0 h : Heap α) : Prop where
  alloc : ∀ n, n < 3*e.g_size → h.D (g + n) ≠ .oob
  val : ∀ r, r < e.nrys_roots → h.D (gAx g e 2 r) = .val (z r)
  frame : AgreeD h0 h (fun q => ∃ n, n < 3*e.g_size ∧ q = g + n)
  int : h.I = h0.I

theorem seed_tab {z : Nat → α} (hz : ∀ r, r < e.nrys_roots → E 2 0 0 0 0 r = z r) (H : Seed e g z h0 h) :
    Tab h0 h (cells2 e he g E).reg (fun p : Nat × Ix2 => p.1 = 2 ∧ (p.2.1 = 0 ∧ p.2.2.1 = 0) ∧ (cells2 e he g E).box p.2)
      (fun p => (cells2 e he g E).addr p.1 p.2) (fun p => (cells2 e he g E).v p.1 p.2) := by
  refine ⟨?_, ?_, H.frame, H.int⟩
  · rintro ⟨c, n, m, r⟩ ⟨h1, ⟨h2, h3⟩, h4⟩
    dsimp only at h1 h2 h3
    subst h1; subst h2; subst h3
    have e1 : (cells2 e he g E).addr 2 (0,0,r) = gAx g e 2 r := by
      show gAx g e 2 (slab4 e (if ibase e then 0 else 0) (if ibase e then 0 else 0) (if kbase e then 0 else 0) (if kbase e then 0 else 0) r) = _
      rw [slab4_pos2 he]; simp
    have e2 : (cells2 e he g E).v 2 (0,0,r) = z r := by
      rw [← hz r h4.2.2]
      show baseF e E 2 0 0 r = _
      unfold baseF; simp
    dsimp only
    rw [e1, e2]
    exact H.val r h4.2.2
  · rintro q ⟨n, hn, rfl⟩
    exact H.alloc n hn

theorem g0Hrr_wp (hE : Hrr4 d E) (H2 : (cells4 e he g E).T h0 (base4 e) h) :
    wp (g0Hrr e d g) (fun _ h' => (cells4 e he g E).T h0 (full4 e) h') h := by
  unfold g0Hrr
  by_cases hk : kbase e <;> by_cases hi : ibase e <;> simp only [hi, hk, if_true, if_false]
  · exact ik2d_wp hE hi hk H2
  · exact kj2d_wp hE hi hk H2
  · exact il2d_wp hE hi hk H2
  · exact lj2d_wp hE hi hk H2

/-- the generic recursions fill the whole array of intermediates -/
theorem g0General_wp {bc : Rys2eT α} {z : Nat → α} (hE : Hrr4 d E)
    (hF : Rec2 bc e.nrys_roots (e.li_ceil + e.lj_ceil) (e.lk_ceil + e.ll_ceil) (baseF e E))
    (h1 : ∀ c r, c < 2 → r < e.nrys_roots → E c 0 0 0 0 r = 1) (hz : ∀ r, r < e.nrys_roots → E 2 0 0 0 0 r = z r)
    (H : Seed e g z h0 h) :
    wp (g0General e d bc g) (fun _ h' => (cells4 e he g E).T h0 (full4 e) h') h := by
  unfold g0General
  rw [wp_mbind]
  refine wp_mono (g0_2e_2d_wp (G := cells2 e he g E) (F := baseF e E) ?_ (fun _ _ _ => Iff.rfl) (fun _ _ _ _ => rfl) hF ?_
    (seed_tab hz H)) ?_
  · intro c n m r
    exact congrArg (gAx g e c) (slab4_pos2 he n m r)
  · intro c r hc hr
    unfold baseF; simp [h1 c r hc hr]
  intro _ h1 H1
  exact g0Hrr_wp hE (T_base4 H1)
end

end Verif.Lemmas
