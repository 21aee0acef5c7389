import Verif.Lemmas.Contrib

/-
Memory layout of the loop nests: the blocks of inner levels are carved from the cache with
ALIAS_ADDR_IF_EQUAL.
-/
namespace Verif.Model
open Verif Prog

variable {α : Type} [CommRing α] [DecidableEq α]

/-- scratch of a level: the `g` block and everything from `g1` up to `E` -/
def Scr (g : Ptr) (leng : Nat) (g1 : Ptr) (E : Nat) (q : Ptr) : Prop :=
  q.buf = g.buf ∧ ((g.off ≤ q.off ∧ q.off < g.off + leng) ∨ (g1.off ≤ q.off ∧ q.off < E))

/-- the block `p[0..N)` is outside the scratch -/
structure Lay (g : Ptr) (leng : Nat) (g1 : Ptr) (E : Nat) (p : Ptr) (N : Nat) : Prop where
  buf : g1.buf = g.buf
  low : g.off + leng ≤ g1.off
  out : ∀ i, i < N → ¬ Scr g leng g1 E (p + i)

theorem Scr.mono {g : Ptr} {leng : Nat} {g1 g2 : Ptr} {E : Nat} (h : g1.off ≤ g2.off) {q : Ptr}
    (H : Scr g leng g2 E q) : Scr g leng g1 E q :=
  ⟨H.1, H.2.imp id (fun h3 => ⟨le_trans h h3.1, h3.2⟩)⟩

theorem Lay.not_scr {g : Ptr} {leng : Nat} {g1 p : Ptr} {E N : Nat} (L : Lay g leng g1 E p N)
    {g2 : Ptr} (h : g1.off ≤ g2.off) {i : Nat} (hi : i < N) :
    ¬ Scr g leng g2 E (p + i) := fun hs => L.out i hi (hs.mono h)

theorem Lay.disj {g : Ptr} {leng : Nat} {g1 p : Ptr} {E N : Nat} (L : Lay g leng g1 E p N)
    {n : Nat} (hn : g1.off + n ≤ E) : Disj g1 n p N := by
  intro i j hi hj e
  refine L.out j hj ?_
  rw [← e]
  exact ⟨L.buf, Or.inr ⟨by simp, by simp only [Ptr.add_off]; omega⟩⟩

theorem aliasAddr_one {gctry yempty own g1 : Ptr} {lenx : Nat} :
    aliasAddr 1 gctry yempty own g1 lenx = (gctry, yempty, g1) := rfl

theorem aliasAddr_ne {ctry : Nat} (h : ctry ≠ 1) {gctry yempty own g1 : Ptr} {lenx : Nat} :
    aliasAddr ctry gctry yempty own g1 lenx = (g1, own, g1 + lenx) := by
  simp [aliasAddr, h]

theorem Lay.alias' {g : Ptr} {leng : Nat} {g1 p : Ptr} {E N : Nat} (L : Lay g leng g1 E p N)
    {ctr Ny A : Nat} (flag own : Ptr) (hN : N = Ny*ctr) (hA : Ny ≤ A) :
    Lay g leng (aliasAddr ctr p flag own g1 A).2.2 E (aliasAddr ctr p flag own g1 A).1 Ny := by
  by_cases h1 : ctr = 1
  · subst h1; rw [Nat.mul_one] at hN; subst hN; exact L
  · rw [aliasAddr_ne h1]
    have := L.low
    refine ⟨L.buf, by simp only [Ptr.add_off]; omega, ?_⟩
    rintro i hi ⟨_, h2⟩
    simp only [Ptr.add_off] at h2
    omega

theorem Lay.alias {g : Ptr} {leng : Nat} {g1 p : Ptr} {E N : Nat} (L : Lay g leng g1 E p N)
    {ctr Ny : Nat} (flag own : Ptr) (hN : N = Ny*ctr) :
    Lay g leng (aliasAddr ctr p flag own g1 Ny).2.2 E (aliasAddr ctr p flag own g1 Ny).1 Ny :=
  L.alias' flag own hN (le_refl _)

theorem alias_le {ctr Ny : Nat} {p flag own g1 : Ptr} :
    g1.off ≤ (aliasAddr ctr p flag own g1 Ny).2.2.off := by
  unfold aliasAddr; split <;> simp

/-- how far ALIAS_ADDR_IF_EQUAL advances the free pointer -/
def aliasLen (ctr Ny : Nat) : Nat := if ctr = 1 then 0 else Ny

theorem alias_off {ctr Ny : Nat} {p flag own g1 : Ptr} :
    (aliasAddr ctr p flag own g1 Ny).2.2.off = g1.off + aliasLen ctr Ny := by
  unfold aliasAddr aliasLen; split <;> simp

/-- one contraction level whose inner block is placed by ALIAS_ADDR_IF_EQUAL -/
theorem Contrib.levelA' {T : Ptr → Option Int} {flag p : Ptr} {SI SI' : Ptr → Prop}
    {g g1 own : Ptr} {leng E : Nat}
    {ctr prim Ny t : Nat} {non0ctr non0idx : Ptr} {c : Nat → α}
    {inner : α → Prog α Unit} {b : Bool} {w : Nat → α} {yflag gy g1' : Ptr} {A : Nat}
    (hA : Ny ≤ A) (hy : aliasAddr ctr p flag own g1 A = (gy, yflag, g1'))
    (L : Lay g leng g1 E p (Ny*ctr)) (room : g1'.off ≤ E)
    (hctr : 1 ≤ ctr) (ht : t < prim) (htbl : ctr ≠ 1 → TblRO T non0ctr non0idx c prim ctr)
    (hown : ctr ≠ 1 → flag ≠ own ∧ T own = none ∧ SI' own)
    (hTS : ∀ q, SI q → T q = none) (hSf : ¬ SI flag) (hSI : ∀ q, SI q → SI' q)
    (H : ∀ fac, Contrib T (inner fac) yflag gy Ny b (fun m => fac * w m) (Scr g leng g1' E) SI)
    (fac : α) :
    Contrib T (levelBody ctr prim flag yflag p gy c Ny non0ctr non0idx t inner fac)
      flag p (Ny*ctr) b (fun m => fac * (c (prim*(m/Ny)+t) * w (m%Ny))) (Scr g leng g1 E) SI' := by
  have hle : g1.off ≤ g1'.off := by
    have := @alias_le ctr A p flag own g1; rw [hy] at this; exact this
  refine Contrib.level hctr ht htbl ?_ ?_ hTS hSf (fun i hi => L.not_scr hle hi) ?_ hSI H fac
  · intro h1; subst h1
    rw [aliasAddr_one, Prod.mk.injEq, Prod.mk.injEq] at hy
    exact ⟨hy.2.1.symm, hy.1.symm⟩
  · intro h1
    rw [aliasAddr_ne h1, Prod.mk.injEq, Prod.mk.injEq] at hy
    obtain ⟨rfl, rfl, rfl⟩ := hy
    obtain ⟨h2, h3, h4⟩ := hown h1
    refine ⟨h2, L.disj (by simp only [Ptr.add_off] at room; omega), h3, h4, ?_⟩
    rintro q ⟨i, hi, rfl⟩
    refine ⟨L.buf, Or.inr ⟨by simp, ?_⟩⟩
    simp only [Ptr.add_off] at room ⊢; omega
  · exact fun q hq => hq.mono hle

theorem Contrib.levelA {T : Ptr → Option Int} {flag p : Ptr} {SI SI' : Ptr → Prop}
    {g g1 own : Ptr} {leng E : Nat}
    {ctr prim Ny t : Nat} {non0ctr non0idx : Ptr} {c : Nat → α}
    {inner : α → Prog α Unit} {b : Bool} {w : Nat → α} {yflag gy g1' : Ptr} 
    (hy : aliasAddr ctr p flag own g1 Ny = (gy, yflag, g1'))
    (L : Lay g leng g1 E p (Ny*ctr)) (room : g1'.off ≤ E)
    (hctr : 1 ≤ ctr) (ht : t < prim) (htbl : ctr ≠ 1 → TblRO T non0ctr non0idx c prim ctr)
    (hown : ctr ≠ 1 → flag ≠ own ∧ T own = none ∧ SI' own)
    (hTS : ∀ q, SI q → T q = none) (hSf : ¬ SI flag) (hSI : ∀ q, SI q → SI' q)
    (H : ∀ fac, Contrib T (inner fac) yflag gy Ny b (fun m => fac * w m) (Scr g leng g1' E) SI)
    (fac : α) :
    Contrib T (levelBody ctr prim flag yflag p gy c Ny non0ctr non0idx t inner fac)
      flag p (Ny*ctr) b (fun m => fac * (c (prim*(m/Ny)+t) * w (m%Ny))) (Scr g leng g1 E) SI' :=
  Contrib.levelA' (le_refl _) hy L room hctr ht htbl hown hTS hSf hSI H fac

/-- the innermost step with the output block placed by ALIAS_ADDR_IF_EQUAL -/
theorem Contrib.primA' {T : Ptr → Option Int} {flag p : Ptr} {SI : Ptr → Prop}
    {g g1 own : Ptr} {leng E : Nat}
    {ctr prim Ng t : Nat} {non0ctr non0idx : Ptr} {c : Nat → α}
    {g0 : α → Prog α Bool} {fgout : α → Ptr → Int → Prog α Unit} {expo : α} {keep : Bool}
    {w : Nat → α} {gflag gout g1' : Ptr} {A : Nat}
    (hA : Ng ≤ A) (hy : aliasAddr ctr p flag own g1 A = (gout, gflag, g1'))
    (L : Lay g leng g1 E p (Ng*ctr)) (room : g1'.off ≤ E)
    (hctr : 1 ≤ ctr) (ht : t < prim) (htbl : ctr ≠ 1 → TblRO T non0ctr non0idx c prim ctr)
    (hown : ctr ≠ 1 → T own = some 1)
    (hK : KernelSpec T g0 fgout (Blk g leng) Ng keep w) (fac fac1i : α)
    (hfac : fac1i = if ctr = 1 then fac * c t * expo else fac * expo) :
    Contrib T (primBody ctr prim flag gflag p gout c Ng non0ctr non0idx t fac1i g0 fgout)
      flag p (Ng*ctr) keep
      (fun m => fac * (if keep then c (prim*(m/Ng)+t) * (expo * w (m%Ng)) else 0))
      (Scr g leng g1 E) SI := by
  have Lg := L.alias' (ctr := ctr) (Ny := Ng) flag own rfl hA
  rw [hy] at Lg
  have hscr : ∀ q, Blk g leng q → ∀ g2 E, Scr g leng g2 E q := by
    rintro q ⟨i, hi, rfl⟩ g2 E
    exact ⟨rfl, Or.inl ⟨by simp, by simp; omega⟩⟩
  refine Contrib.prim hctr ht htbl ?_ ?_ (fun i hi hb => Lg.not_scr (le_refl _) hi (hscr _ hb _ _))
    (fun q hq => hscr q hq _ _) (fun i hi hb => L.not_scr (le_refl _) hi (hscr _ hb _ _))
    hK fac fac1i hfac
  · intro h1; subst h1
    rw [aliasAddr_one, Prod.mk.injEq, Prod.mk.injEq] at hy
    exact ⟨by rw [hy.2.1], hy.1.symm⟩
  · intro h1
    rw [aliasAddr_ne h1, Prod.mk.injEq, Prod.mk.injEq] at hy
    obtain ⟨rfl, rfl, rfl⟩ := hy
    refine ⟨fun h hT => by simp only [wp_ldI]; exact ⟨1, hT _ _ (hown h1), rfl, True.intro⟩, L.disj (by simp only [Ptr.add_off] at room; omega), ?_⟩
    rintro q ⟨i, hi, rfl⟩
    refine ⟨L.buf, Or.inr ⟨by simp, ?_⟩⟩
    simp only [Ptr.add_off] at room ⊢; omega

theorem Contrib.primA {T : Ptr → Option Int} {flag p : Ptr} {SI : Ptr → Prop}
    {g g1 own : Ptr} {leng E : Nat}
    {ctr prim Ng t : Nat} {non0ctr non0idx : Ptr} {c : Nat → α}
    {g0 : α → Prog α Bool} {fgout : α → Ptr → Int → Prog α Unit} {expo : α} {keep : Bool}
    {w : Nat → α} {gflag gout g1' : Ptr} 
    (hy : aliasAddr ctr p flag own g1 Ng = (gout, gflag, g1'))
    (L : Lay g leng g1 E p (Ng*ctr)) (room : g1'.off ≤ E)
    (hctr : 1 ≤ ctr) (ht : t < prim) (htbl : ctr ≠ 1 → TblRO T non0ctr non0idx c prim ctr)
    (hown : ctr ≠ 1 → T own = some 1)
    (hK : KernelSpec T g0 fgout (Blk g leng) Ng keep w) (fac fac1i : α)
    (hfac : fac1i = if ctr = 1 then fac * c t * expo else fac * expo) :
    Contrib T (primBody ctr prim flag gflag p gout c Ng non0ctr non0idx t fac1i g0 fgout)
      flag p (Ng*ctr) keep
      (fun m => fac * (if keep then c (prim*(m/Ng)+t) * (expo * w (m%Ng)) else 0))
      (Scr g leng g1 E) SI :=
  Contrib.primA' (le_refl _) hy L room hctr ht htbl hown hK fac fac1i hfac

/-- the outermost block, placed by ALIAS_ADDR_IF_EQUAL(x, m) -/
theorem Lay.outer {g gctr empty own gx fx g1 : Ptr} {nC leng E N : Nat}
    (e1 : aliasAddr nC gctr empty own (g + leng) N = (gx, fx, g1)) (hlen : leng ≤ E)
    (hd : Disj gctr N g E) : Lay g leng g1 (g.off + E) gx N := by
  by_cases h1 : nC = 1
  · rw [h1, aliasAddr_one, Prod.mk.injEq, Prod.mk.injEq] at e1
    obtain ⟨rfl, rfl, rfl⟩ := e1
    refine ⟨rfl, le_refl _, ?_⟩
    rintro i hi ⟨h2, h3⟩
    have h5 : g.off ≤ gctr.off + i ∧ gctr.off + i < g.off + E := by
      simp only [Ptr.add_off] at h3; omega
    refine hd i (gctr.off + i - g.off) hi (by omega) (Ptr.ext_iff'.2 ⟨h2, ?_⟩)
    simp only [Ptr.add_off]; omega
  · rw [aliasAddr_ne h1, Prod.mk.injEq, Prod.mk.injEq] at e1
    obtain ⟨rfl, rfl, rfl⟩ := e1
    refine ⟨rfl, by simp only [Ptr.add_off]; omega, ?_⟩
    rintro i hi ⟨_, h3⟩
    simp only [Ptr.add_off] at h3; omega

/-- a level with one contraction: only the prefactor changes -/
theorem Contrib.one {T : Ptr → Option Int} {flag p : Ptr} {SD SI : Ptr → Prop} {op : Prog α Unit}
    {N prim t : Nat} {b : Bool} {w c : Nat → α} {fac : α}
    (H : Contrib T op flag p N b (fun m => (fac * c t) * w m) SD SI) :
    Contrib T op flag p N b (fun m => fac * (c (prim*(m/N)+t) * w (m%N))) SD SI :=
  H.congr rfl (fun m hm => by
    rw [Nat.div_eq_of_lt hm, Nat.mod_eq_of_lt hm, Nat.mul_zero, Nat.zero_add, mul_assoc])

end Verif.Model
