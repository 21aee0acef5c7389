import Verif.Lemmas.G1e
import Verif.Lemmas.Contrib

/-! The functions that combine intermediates to components (`f_gout`). -/
namespace Verif.Lemmas
open Verif Verif.Model Verif.Prog

variable {α : Type} [Field α]

theorem goutPut_wp {nc n N : Nat} {gout : Ptr} {e : Int} {s : Nat → α} {u : Nat → α} {h0 h : Heap α}
    (hn : n*nc + nc ≤ N) (ha : AllocD h0 gout N) (hE : e = 0 → HoldsD h0 gout N u)
    {v : Nat → α} (hv : ∀ k, k < nc → v (n*nc+k) = if e = 0 then u (n*nc+k) + s k else s k)
    (H : AssignedD h0 h (fun m => m < n*nc) (fun m => gout + m) v) :
    wp (goutPut nc gout e n s)
      (fun _ h' => AssignedD h0 h' (fun m => m < (n+1)*nc) (fun m => gout + m) v) h := by
  have hal : ∀ {h' : Heap α} {m : Nat} {P : Nat → Prop}, AssignedD h0 h' P (fun m => gout + m) v → m < N →
      h'.D (gout + m) ≠ .oob := fun H hm => H.ne_oob (ha _ hm)
  have hend : ∀ h', AssignedD h0 h' (fun m => m < n*nc + nc) (fun m => gout + m) v →
      AssignedD h0 h' (fun m => m < (n+1)*nc) (fun m => gout + m) v := by
    intro h' H; rw [Nat.add_mul, Nat.one_mul]; exact H
  have step : ∀ {h' : Heap α} {k : Nat}, AssignedD h0 h' (fun m => m < n*nc + k) (fun m => gout + m) v →
      AssignedD h0 (h'.setD (gout + (n*nc+k)) (v (n*nc+k))) (fun m => m < n*nc + (k+1))
        (fun m => gout + m) v := fun H =>
    H.set _ (fun k' _ e => by rw [(Ptr.add_right_inj _ _ _).1 e]) (fun k' => by omega)
  unfold goutPut
  by_cases he : e = 0
  · rw [if_neg (by simpa using he)]
    refine wp_forN (fun k h' => AssignedD h0 h' (fun m => m < n*nc + k) (fun m => gout + m) v) H ?_ hend
    intro k hk h' H'
    simp only [wp_mbind, wp_ld, wp_st]
    refine ⟨u (n*nc+k), ?_, hal H' (by omega), ?_⟩
    · rw [H'.frame _ (fun k hk e => by have := (Ptr.add_right_inj _ _ _).1 e; omega)]
      exact hE he _ (by omega)
    · have := step H'
      rwa [hv k hk, if_pos he] at this
  · rw [if_pos he]
    refine wp_forN (fun k h' => AssignedD h0 h' (fun m => m < n*nc + k) (fun m => gout + m) v) H ?_ hend
    intro k hk h' H'
    simp only [wp_st]
    refine ⟨hal H' (by omega), ?_⟩
    have := step H'
    rwa [hv k hk, if_neg he] at this

/-- what the index table says: address of direction `c` of pair `n` -/
def IdxT (T : Ptr → Option Int) (idx : Ptr) (nf : Nat) (ad : Nat → Nat → Nat) : Prop :=
  ∀ n c, n < nf → c < 3 → T (idx + (3*n+c)) = some (ad c n : Int)

theorem goutLoop_wp {nf nc : Nat} {idx gout : Ptr} {e : Int} {T : Ptr → Option Int} {ad : Nat → Nat → Nat}
    {comp : Nat → Nat → Nat → Prog α (Nat → α)} {val : Nat → Nat → α} {u : Nat → α} {h : Heap α}
    (hR : RO T h) (hT : IdxT T idx nf ad) (ha : AllocD h gout (nf*nc))
    (hE : e = 0 → HoldsD h gout (nf*nc) u)
    (hc : ∀ n, n < nf → ∀ h', AgreeD h h' (Blk gout (nf*nc)) → h'.I = h.I →
      wp (comp (ad 0 n) (ad 1 n) (ad 2 n)) (fun s h'' => h'' = h' ∧ ∀ k, k < nc → s k = val n k) h') :
    wp (goutLoop nf nc idx gout e comp) (fun _ h' =>
      HoldsD h' gout (nf*nc) (fun m => if e = 0 then u m + val (m/nc) (m%nc) else val (m/nc) (m%nc)) ∧
      AgreeD h h' (Blk gout (nf*nc)) ∧ h'.I = h.I) h := by
  let v : Nat → α := fun m => if e = 0 then u m + val (m/nc) (m%nc) else val (m/nc) (m%nc)
  unfold goutLoop
  refine wp_forN (fun n h' => AssignedD h h' (fun m => m < n*nc) (fun m => gout + m) v)
    (AssignedD.init _ _ _ (fun k hk => by omega)) ?_ ?_
  · intro n hn h' H
    have hI : h'.I = h.I := H.int
    have hle : n*nc + nc ≤ nf*nc := by
      have := Nat.mul_le_mul_right nc (show n+1 ≤ nf by omega)
      rw [Nat.add_mul, Nat.one_mul] at this; omega
    have hag : AgreeD h h' (Blk gout (nf*nc)) := H.agree (fun k hk => ⟨k, by omega, rfl⟩)
    have hidx : ∀ c, c < 3 → h'.I (idx + (n*3+c)) = .val (ad c n : Int) := by
      intro c hc3
      rw [hI, Nat.mul_comm n 3]
      exact hR _ _ (hT n c hn hc3)
    simp only [wp_mbind, wp_ldI]
    refine ⟨_, hidx 0 (by omega), _, hidx 1 (by omega), _, hidx 2 (by omega), ?_⟩
    simp only [Int.toNat_natCast]
    refine wp_mono (hc n hn h' hag hI) ?_
    rintro s _ ⟨rfl, hs⟩
    refine goutPut_wp hle ha hE ?_ H
    intro k hk
    have hd : (n*nc+k)/nc = n := by
      rw [Nat.mul_comm, Nat.mul_add_div (by omega), Nat.div_eq_of_lt hk, Nat.add_zero]
    have hm : (n*nc+k)%nc = k := by rw [Nat.mul_comm, Nat.mul_add_mod, Nat.mod_eq_of_lt hk]
    show (if e = 0 then u (n*nc+k) + val ((n*nc+k)/nc) ((n*nc+k)%nc) else val ((n*nc+k)/nc) ((n*nc+k)%nc)) = _
    rw [hd, hm, hs k hk]
  · intro h' H
    exact ⟨fun i hi => H.val i hi, H.agree (fun k hk => ⟨k, hk, rfl⟩), H.int⟩

/-- CINTgout1e multiplies the three factors -/
theorem gout1e_wp {nf : Nat} {idx g gout : Ptr} {e : Int} {T : Ptr → Option Int} {ad : Nat → Nat → Nat}
    {x : Nat → Nat → α} {u : Nat → α} {h : Heap α}
    (hR : RO T h) (hT : IdxT T idx nf ad) (ha : AllocD h gout nf)
    (hE : e = 0 → HoldsD h gout nf u)
    (hg : ∀ n c, n < nf → c < 3 → ¬ Blk gout nf (g + ad c n))
    (hx : ∀ n c, n < nf → c < 3 → h.D (g + ad c n) = .val (x c n)) :
    wp (gout1e nf idx g gout e) (fun _ h' =>
      HoldsD h' gout nf (fun m => if e = 0 then u m + x 0 m * x 1 m * x 2 m else x 0 m * x 1 m * x 2 m) ∧
      AgreeD h h' (Blk gout nf) ∧ h'.I = h.I) h := by
  have := goutLoop_wp (nf := nf) (nc := 1) (idx := idx) (gout := gout) (e := e)
    (comp := fun ix iy iz => do
      let x ← ld (g + ix)
      let y ← ld (g + iy)
      let z ← ld (g + iz)
      pure fun _ => x*y*z) (val := fun n _ => x 0 n * x 1 n * x 2 n) (u := u) hR hT
    (by rwa [Nat.mul_one]) (by rwa [Nat.mul_one]) ?_
  · simp only [Nat.mul_one, Nat.div_one] at this
    exact this
  · intro n hn h' hag hI
    have hv : ∀ c, c < 3 → h'.D (g + ad c n) = .val (x c n) := by
      intro c hc
      rw [hag _ (by rw [Nat.mul_one]; exact hg n c hn hc)]
      exact hx n c hn hc
    simp only [wp_mbind, wp_ld, wp_pure]
    exact ⟨_, hv 0 (by omega), _, hv 1 (by omega), _, hv 2 (by omega), True.intro, fun _ _ => rfl⟩

end Verif.Lemmas
