import Verif.Model.Sparse
import Verif.Core.Frame
import Mathlib.Algebra.Ring.Defs
import Mathlib.Data.List.GetD

namespace Verif.Model
open Verif Prog

variable {α : Type}

section table
variable [Zero α] [DecidableEq α]

/-- indices below `n` with non-zero coefficient, ascending -/
def nzList (c : Nat → α) (n : Nat) : List Nat := (List.range n).filter (fun j => c j ≠ 0)
/-- indices below `n` with zero coefficient, ascending -/
def zList (c : Nat → α) (n : Nat) : List Nat := (List.range n).filter (fun j => c j = 0)

theorem nzList_succ (c : Nat → α) (n : Nat) :
    nzList c (n+1) = if c n ≠ 0 then nzList c n ++ [n] else nzList c n := by
  unfold nzList
  rw [List.range_succ, List.filter_append]
  by_cases h : c n = 0 <;> simp [h]

theorem zList_succ (c : Nat → α) (n : Nat) :
    zList c (n+1) = if c n ≠ 0 then zList c n else zList c n ++ [n] := by
  unfold zList
  rw [List.range_succ, List.filter_append]
  by_cases h : c n = 0 <;> simp [h]

theorem nz_add_z_length (c : Nat → α) (n : Nat) : (nzList c n).length + (zList c n).length = n := by
  induction n with
  | zero => simp [nzList, zList]
  | succ n ih =>
    rw [nzList_succ, zList_succ]
    by_cases h : c n = 0 <;> simp [h] <;> omega

theorem mem_nzList {c : Nat → α} {n j : Nat} : j ∈ nzList c n ↔ j < n ∧ c j ≠ 0 := by
  simp [nzList]

theorem nzList_nodup (c : Nat → α) (n : Nat) : (nzList c n).Nodup :=
  List.nodup_range.filter _

theorem nzList_sorted (c : Nat → α) (n : Nat) : (nzList c n).Pairwise (· < ·) :=
  List.pairwise_lt_range.filter _

/-- index of a table cell: `inl (ip, k)` is `sortedidx[ip*ictr+k]`, `inr ip` is `non0ctr[ip]` -/
abbrev tblAddr (sortedidx non0ctr : Ptr) (ictr : Nat) : (Nat × Nat) ⊕ Nat → Ptr
  | .inl p => sortedidx + (p.1*ictr + p.2)
  | .inr ip => non0ctr + ip

abbrev tblVal (ci : Nat → α) (iprim ictr : Nat) : (Nat × Nat) ⊕ Nat → Int
  | .inl p => (((nzList (fun j => ci (iprim*j+p.1)) ictr ++
      zList (fun j => ci (iprim*j+p.1)) ictr).getD p.2 0 : Nat) : Int)
  | .inr ip => ((nzList (fun j => ci (iprim*j+ip)) ictr).length : Int)

abbrev tblDom (iprim ictr : Nat) : (Nat × Nat) ⊕ Nat → Prop
  | .inl p => p.1 < iprim ∧ p.2 < ictr
  | .inr ip => ip < iprim

theorem tblAddr_inj {sortedidx non0ctr : Ptr} {iprim ictr : Nat}
    (hd : ∀ i j, i < iprim*ictr → j < iprim → sortedidx + i ≠ non0ctr + j)
    {x y : (Nat × Nat) ⊕ Nat} (hx : tblDom iprim ictr x) (hy : tblDom iprim ictr y)
    (e : tblAddr sortedidx non0ctr ictr x = tblAddr sortedidx non0ctr ictr y) : x = y := by
  rcases x with ⟨a, b⟩ | a <;> rcases y with ⟨a', b'⟩ | a'
  · simp only [tblAddr, Ptr.add_right_inj] at e
    obtain ⟨h1, h2⟩ := radix_inj hx.2 hy.2 e
    simp only at h1 h2
    rw [h1, h2]
  · exact absurd e (hd _ _ (radix_lt hx.1 hx.2) hy)
  · exact absurd e.symm (hd _ _ (radix_lt hy.1 hy.2) hx)
  · simp only [tblAddr, Ptr.add_right_inj] at e
    rw [e]

theorem non0coeff_wp (sortedidx non0ctr : Ptr) (ci : Nat → α) (iprim ictr : Nat) (h : Heap α)
    (ha : ∀ i, i < iprim*ictr → h.I (sortedidx + i) ≠ .oob)
    (hb : ∀ i, i < iprim → h.I (non0ctr + i) ≠ .oob)
    (hd : ∀ i j, i < iprim*ictr → j < iprim → sortedidx + i ≠ non0ctr + j) :
    wp (non0coeffByshell sortedidx non0ctr ci iprim ictr) (fun _ h' =>
      AssignedI h h' (tblDom iprim ictr) (tblAddr sortedidx non0ctr ictr)
        (tblVal ci iprim ictr)) h := by
  unfold non0coeffByshell
  refine wp_forN (fun ip h1 => AssignedI h h1 (tblDom ip ictr) (tblAddr sortedidx non0ctr ictr)
    (tblVal ci iprim ictr)) ?_ ?_ ?_
  · exact AssignedI.init _ _ _ (by rintro (⟨a, b⟩ | a) <;> simp [tblDom])
  · intro ip hip h1 H1
    simp only [wp_mbind]
    let c := fun j => ci (iprim*j+ip)
    -- value function while row `ip` is under construction
    let V : List Nat → (Nat × Nat) ⊕ Nat → Int := fun L x =>
      match x with
      | .inl p => if p.1 = ip then ((L.getD p.2 0 : Nat) : Int) else tblVal ci iprim ictr x
      | .inr _ => tblVal ci iprim ictr x
    let D : Nat → (Nat × Nat) ⊕ Nat → Prop := fun n x => tblDom ip ictr x ∨
      match x with
      | .inl p => p.1 = ip ∧ p.2 < n
      | .inr _ => False
    have hDdom : ∀ n x, n ≤ ictr → D n x → tblDom iprim ictr x := by
      rintro n (⟨a, b⟩ | a) hn hx
      · rcases hx with hx | hx
        · exact ⟨Nat.lt_trans hx.1 hip, hx.2⟩
        · exact ⟨by simp only at hx; omega, by simp only at hx; omega⟩
      · rcases hx with hx | hx
        · exact Nat.lt_trans hx hip
        · exact hx.elim
    -- storing one more entry of the row
    have hstep : ∀ (L : List Nat) (x : Nat) (h2 : Heap α), L.length < ictr →
        AssignedI h h2 (D L.length) (tblAddr sortedidx non0ctr ictr) (V L) →
        h2.I (sortedidx + (ip*ictr + L.length)) ≠ .oob ∧
        AssignedI h (h2.setI (sortedidx + (ip*ictr + L.length)) (x : Int)) (D (L ++ [x]).length)
          (tblAddr sortedidx non0ctr ictr) (V (L ++ [x])) := by
      intro L x h2 hL H2
      refine ⟨H2.ne_oob (ha _ (radix_lt hip hL)), ?_⟩
      have H3 : AssignedI h h2 (D L.length) (tblAddr sortedidx non0ctr ictr) (V (L ++ [x])) := by
        refine H2.congr (fun _ => Iff.rfl) ?_
        rintro (⟨a, b⟩ | a) hx
        · simp only [V]
          split
          · rename_i e
            rcases hx with hx | hx
            · exact absurd hx.1 (by simp only at e ⊢; omega)
            · rw [List.getD_append _ _ _ _ hx.2]
          · rfl
        · rfl
      have H4 := H3.set (P' := D (L ++ [x]).length) (.inl (ip, L.length)) (fun k' hk' e => by
          rw [tblAddr_inj hd (hDdom _ _ (Nat.le_of_lt hL) hk') (y := .inl (ip, L.length))
            ⟨hip, hL⟩ e]) (by
          rintro (⟨a, b⟩ | a)
          · simp only [D, List.length_append, List.length_singleton, Sum.inl.injEq, Prod.mk.injEq]
            constructor
            · rintro (h5 | h5)
              · exact Or.inl (Or.inl h5)
              · rcases Nat.lt_or_ge b L.length with h6 | h6
                · exact Or.inl (Or.inr ⟨h5.1, h6⟩)
                · exact Or.inr ⟨h5.1, by omega⟩
            · rintro ((h5 | h5) | h5)
              · exact Or.inl h5
              · exact Or.inr ⟨h5.1, by omega⟩
              · exact Or.inr ⟨h5.1, by omega⟩
          · simp [D])
      have e : V (L ++ [x]) (.inl (ip, L.length)) = (x : Int) := by
        simp [V]
      rw [e] at H4
      exact H4
    refine wp_forS (fun n s h2 => s = ((nzList c n).length, zList c n) ∧
      AssignedI h h2 (D (nzList c n).length) (tblAddr sortedidx non0ctr ictr) (V (nzList c n)))
      ?_ ?_ ?_
    · refine ⟨rfl, H1.congr ?_ ?_⟩
      · rintro (⟨a, b⟩ | a) <;> simp [D, nzList]
      · rintro (⟨a, b⟩ | a) hx
        · have h5 : a ≠ ip := by have := hx.1; simp only at this; omega
          simp [V, h5]
        · rfl
    · rintro n hn s h2 ⟨rfl, H2⟩
      have hlen := nz_add_z_length c n
      by_cases hz : c n ≠ 0
      · have hz' : ci (iprim*n+ip) ≠ 0 := hz
        rw [if_pos hz', nzList_succ, zList_succ, if_pos hz, if_pos hz]
        simp only [wp_mbind, wp_stI, wp_pure]
        obtain ⟨h5, h6⟩ := hstep (nzList c n) n h2 (by omega) H2
        exact ⟨h5, by simp, h6⟩
      · have hz' : ¬ ci (iprim*n+ip) ≠ 0 := hz
        rw [if_neg hz', nzList_succ, zList_succ, if_neg hz, if_neg hz]
        simp only [wp_pure]
        exact ⟨True.intro, H2⟩
    · rintro s h2 ⟨rfl, H2⟩
      simp only
      have hlen := nz_add_z_length c ictr
      refine wp_forN (fun j h3 =>
        AssignedI h h3 (D ((nzList c ictr) ++ (zList c ictr).take j).length)
          (tblAddr sortedidx non0ctr ictr) (V ((nzList c ictr) ++ (zList c ictr).take j))) ?_ ?_ ?_
      · simpa using H2
      · intro j hj h3 H3
        simp only [wp_stI]
        have h7 : (nzList c ictr ++ (zList c ictr).take j).length = (nzList c ictr).length + j := by
          simp; omega
        obtain ⟨h5, h6⟩ := hstep _ ((zList c ictr).getD j 0) h3 (by rw [h7]; omega) H3
        rw [h7] at h5 h6
        refine ⟨h5, ?_⟩
        have h8 : (zList c ictr).take (j+1) = (zList c ictr).take j ++ [(zList c ictr).getD j 0] := by
          rw [List.take_add_one, List.getD_eq_getElem?_getD, List.getElem?_eq_getElem hj]
          simp
        rw [h8, ← List.append_assoc]
        exact h6
      · intro h3 H3
        simp only [wp_stI]
        rw [List.take_length] at H3
        refine ⟨H3.ne_oob (hb _ hip), ?_⟩
        have h9 : (nzList c ictr ++ zList c ictr).length = ictr := by simp; omega
        rw [h9] at H3
        have H4 : AssignedI h h3 (D ictr) (tblAddr sortedidx non0ctr ictr)
            (tblVal ci iprim ictr) := by
          refine H3.congr (fun _ => Iff.rfl) ?_
          rintro (⟨a, b⟩ | a) hx
          · simp only [V]
            split
            · rename_i e; subst e; rfl
            · rfl
          · rfl
        exact H4.set (.inr ip) (fun k' hk' e => by
          rw [tblAddr_inj hd (hDdom _ _ (Nat.le_refl _) hk') (y := .inr ip) hip e]) (by
          rintro (⟨a, b⟩ | a)
          · simp only [D, tblDom]
            constructor
            · rintro h5
              by_cases h6 : a = ip
              · exact Or.inl (Or.inr ⟨h6, h5.2⟩)
              · exact Or.inl (Or.inl ⟨by omega, h5.2⟩)
            · rintro ((h5 | h5) | h5)
              · exact ⟨by omega, h5.2⟩
              · exact ⟨by omega, h5.2⟩
              · cases h5
          · simp only [D, tblDom, Sum.inr.injEq, or_false]; omega)
  · intro h1 H1; exact H1

end table

/-- address of element `n` of contraction `i` -/
abbrev ctrAddr (gc : Ptr) (nf : Nat) (p : Nat × Nat) : Ptr := gc + (nf*p.1 + p.2)

theorem ctr_lt {nf nctr i n : Nat} (hi : i < nctr) (hn : n < nf) : nf*i + n < nf*nctr := by
  have := radix_lt hi hn
  rw [Nat.mul_comm nf i, Nat.mul_comm nf nctr]; exact this

theorem ctr_div {nf i n : Nat} (hn : n < nf) : (nf*i + n) / nf = i := by
  rw [Nat.mul_add_div (by omega), Nat.div_eq_of_lt hn, Nat.add_zero]

theorem ctr_mod {nf i n : Nat} (hn : n < nf) : (nf*i + n) % nf = n := by
  rw [Nat.mul_add_mod, Nat.mod_eq_of_lt hn]

theorem ctrAddr_inj {gc : Ptr} {nf : Nat} {p q : Nat × Nat} (hp : p.2 < nf) (hq : q.2 < nf)
    (e : ctrAddr gc nf p = ctrAddr gc nf q) : p = q := by
  have e' := (Ptr.add_right_inj _ _ _).1 e
  rw [Nat.mul_comm nf, Nat.mul_comm nf] at e'
  obtain ⟨h1, h2⟩ := radix_inj hp hq e'
  exact Prod.ext h1 h2

section contract
variable {gc gp : Ptr} {coeff : Nat → α} {nf nprim nctr : Nat} {h : Heap α} {v : Nat → α}

theorem primToCtr0_wp [Mul α] (hgp : HoldsD h gp nf v) (hgc : AllocD h gc (nf*nctr))
    (hd : Disj gp nf gc (nf*nctr)) :
    wp (primToCtr0 gc gp coeff nf nprim nctr) (fun _ h' =>
      AssignedD h h' (fun p : Nat × Nat => p.1 < nctr ∧ p.2 < nf) (ctrAddr gc nf)
        (fun p => coeff (nprim*p.1) * v p.2)) h := by
  unfold primToCtr0
  refine wp_forN (fun i h1 => AssignedD h h1 (fun p : Nat × Nat => p.1 < i ∧ p.2 < nf)
    (ctrAddr gc nf) (fun p => coeff (nprim*p.1) * v p.2)) ?_ ?_ (fun h1 H1 => H1)
  · exact AssignedD.init _ _ _ (by intro k; omega)
  · intro i hi h1 H1
    refine wp_forN (fun n h2 => AssignedD h h2
      (fun p : Nat × Nat => (p.1 < i ∧ p.2 < nf) ∨ (p.1 = i ∧ p.2 < n))
      (ctrAddr gc nf) (fun p => coeff (nprim*p.1) * v p.2)) ?_ ?_ ?_
    · exact H1.congr (by intro k; omega) (fun _ _ => rfl)
    · intro n hn h2 H2
      simp only [wp_mbind, wp_ld, wp_st]
      refine ⟨v n, ?_, H2.ne_oob (hgc _ (ctr_lt hi hn)), ?_⟩
      · rw [H2.frame, hgp n hn]
        intro p hp
        exact hd _ _ hn (ctr_lt (by omega) (by omega))
      · exact H2.set (i, n) (fun p hp e => by
          rw [ctrAddr_inj (p := p) (q := (i, n)) (by omega) hn e]) (by
          rintro ⟨p1, p2⟩; simp only [Prod.mk.injEq]; omega)
    · intro h2 H2; exact H2.congr (by intro k; omega) (fun _ _ => rfl)

/-- accumulate the rows listed in `L` -/
theorem primToCtr1_wp [Add α] [Mul α] {u : Nat → α} {L : List Nat} {sortedidx : Ptr}
    (hL : ∀ j ∈ L, j < nctr) (hnd : L.Nodup)
    (hidx : ∀ i, i < L.length → h.I (sortedidx + i) = .val ((L.getD i 0 : Nat) : Int))
    (hgp : HoldsD h gp nf v) (hgc : HoldsD h gc (nf*nctr) u) (hd : Disj gp nf gc (nf*nctr)) :
    wp (primToCtr1 gc gp coeff nf nprim L.length sortedidx) (fun _ h' =>
      AssignedD h h' (fun p : Nat × Nat => p.1 < nctr ∧ p.2 < nf) (ctrAddr gc nf)
        (fun p => if p.1 ∈ L then u (nf*p.1+p.2) + coeff (nprim*p.1) * v p.2
          else u (nf*p.1+p.2))) h := by
  unfold primToCtr1
  refine wp_forN (fun t h1 => AssignedD h h1 (fun p : Nat × Nat => p.1 < nctr ∧ p.2 < nf)
    (ctrAddr gc nf) (fun p => if p.1 ∈ L.take t then u (nf*p.1+p.2) + coeff (nprim*p.1) * v p.2
          else u (nf*p.1+p.2))) ?_ ?_ ?_
  · refine ⟨?_, fun _ _ => rfl, rfl⟩
    intro p hp
    simp only [List.take_zero, List.not_mem_nil, if_false]
    exact hgc _ (ctr_lt hp.1 hp.2)
  · intro t ht h1 H1
    simp only [wp_mbind, wp_ldI]
    refine ⟨((L.getD t 0 : Nat) : Int), by rw [H1.int, hidx t ht], ?_⟩
    rw [Int.toNat_natCast]
    generalize hj : L.getD t 0 = j
    have hjL : j = L[t] := by rw [← hj, List.getD_eq_getElem?_getD]; simp [ht]
    have hjlt : j < nctr := hL j (by rw [hjL]; exact List.getElem_mem ht)
    have htake : L.take (t+1) = L.take t ++ [j] := by
      rw [List.take_add_one, List.getElem?_eq_getElem ht, hjL]; rfl
    have hjn : j ∉ L.take t := by
      have h3 := hnd.sublist (List.take_sublist (t+1) L)
      rw [htake, List.nodup_append] at h3
      intro hmem
      exact (h3.2.2 j hmem j (by simp)) rfl
    refine wp_forN (fun n h2 => AssignedD h h2 (fun p : Nat × Nat => p.1 < nctr ∧ p.2 < nf)
      (ctrAddr gc nf) (fun p => if p.1 ∈ L.take t ∨ (p.1 = j ∧ p.2 < n) then
        u (nf*p.1+p.2) + coeff (nprim*p.1) * v p.2 else u (nf*p.1+p.2))) ?_ ?_ ?_
    · refine H1.congr (fun _ => Iff.rfl) (fun p _ => ?_)
      simp
    · intro n hn h2 H2
      simp only [wp_mbind, wp_ld, wp_st]
      have h4 := H2.val (j, n) ⟨hjlt, hn⟩
      simp only [Nat.lt_irrefl, and_false, or_false, if_neg hjn] at h4
      refine ⟨_, h4, v n, ?_, ?_, ?_⟩
      · rw [H2.frame, hgp n hn]
        intro p hp
        exact hd _ _ hn (ctr_lt hp.1 hp.2)
      · rw [show gc + (nf*j+n) = ctrAddr gc nf (j, n) from rfl, h4]; simp
      · refine H2.upd (j, n) _ ⟨hjlt, hn⟩ (fun p hp e => ctrAddr_inj hp.2 hn e) ?_ ?_
        · rintro ⟨p1, p2⟩ hp hne
          have h5 : (p1 ∈ L.take t ∨ p1 = j ∧ p2 < n + 1) ↔ (p1 ∈ L.take t ∨ p1 = j ∧ p2 < n) := by
            constructor
            · rintro (h6 | h6)
              · exact Or.inl h6
              · refine Or.inr ⟨h6.1, ?_⟩
                have h7 : p2 ≠ n := fun e => hne (by rw [h6.1, e])
                omega
            · rintro (h6 | h6)
              · exact Or.inl h6
              · exact Or.inr ⟨h6.1, by omega⟩
          simp only [h5]
        · simp
    · intro h2 H2
      refine H2.congr (fun _ => Iff.rfl) (fun p hp => ?_)
      rw [htake]
      simp only [List.mem_append, List.mem_singleton, hp.2, and_true]
  · intro h1 H1
    rw [List.take_length] at H1
    exact H1

end contract

end Verif.Model
