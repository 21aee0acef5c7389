import Verif.Lemmas.GoutSimd
import Mathlib.Algebra.Field.Rat

/-!
# C58: the SSE3 build evaluates the same integrals

CINTgout2e exists twice: src/cint2e.c:961-1184 and, for compilers that define `__SSE3__`, src/gout2e_simd.c.
-/
namespace Verif.Props
open Verif Verif.Model Verif.Prog Verif.Lemmas

/-- What the caller of CINTgout2e provides: `idx` has the three addresses of each of the `nf` elements, at each of them `g` has a
value for each of the roots, none of these values lies in the block `gout[0..nf)`, the block exists and, when the result is to be
added (`gout_empty = 0`), has been set. -/
structure GoutIn {α : Type} (h : Heap α) (nf nroots : Nat) (idx g gout : Ptr) (empty : Int) : Prop where
  tables : ∀ n c, n < nf → c < 3 → ∃ a : Nat, h.I (idx + (3*n+c)) = .val (a : Int) ∧
    ∀ r, r < nroots → (∃ v, h.D (g + a + r) = .val v) ∧ ∀ m, m < nf → g + a + r ≠ gout + m
  block : ∀ m, m < nf → h.D (gout + m) ≠ .oob
  set : empty = 0 → ∀ m, m < nf → ∃ v, h.D (gout + m) = .val v

variable {α : Type} [Field α] {h : Heap α} {nf nroots : Nat} {idx g gout : Ptr} {empty : Int}

theorem GoutIn.ctx (H : GoutIn h nf nroots idx g gout empty) :
    ∃ T ad x u, SimdCtx nf nroots idx g gout empty T ad x u h := by
  have h1 : ∀ n c, ∃ a : Nat, n < nf → c < 3 → h.I (idx + (3*n+c)) = .val (a : Int) ∧
      ∀ r, r < nroots → (∃ v, h.D (g + a + r) = .val v) ∧ ∀ m, m < nf → g + a + r ≠ gout + m := by
    intro n c
    by_cases hn : n < nf ∧ c < 3
    · obtain ⟨a, ha⟩ := H.tables n c hn.1 hn.2
      exact ⟨a, fun _ _ => ha⟩
    · exact ⟨0, fun a b => absurd ⟨a, b⟩ hn⟩
  choose ad had using h1
  have h2 : ∀ c n r, ∃ v, n < nf → c < 3 → r < nroots → h.D (g + ad n c + r) = .val v := by
    intro c n r
    by_cases hn : n < nf ∧ c < 3 ∧ r < nroots
    · obtain ⟨v, hv⟩ := ((had n c hn.1 hn.2.1).2 r hn.2.2).1
      exact ⟨v, fun _ _ _ => hv⟩
    · exact ⟨0, fun a b c => absurd ⟨a, b, c⟩ hn⟩
  choose x hx using h2
  have h3 : ∀ m, ∃ v, empty = 0 → m < nf → h.D (gout + m) = .val v := by
    intro m
    by_cases hn : empty = 0 ∧ m < nf
    · obtain ⟨v, hv⟩ := H.set hn.1 m hn.2
      exact ⟨v, fun _ _ => hv⟩
    · exact ⟨0, fun a b => absurd ⟨a, b⟩ hn⟩
  choose u hu using h3
  refine ⟨fun q => match h.I q with | .val v => some v | _ => none, fun c n => ad n c, x, u, ?_, ?_, H.block, fun he m hm => hu m he hm,
    ?_, fun n c r hn hc hr => hx c n r hn hc hr⟩
  · intro q v hq
    dsimp only at hq
    split at hq
    · next w hw => rw [hw, Option.some.inj hq]
    · cases hq
  · intro n c hn hc
    dsimp only
    rw [(had n c hn hc).1]
  · rintro n c r hn hc hr ⟨m, hm, e⟩
    exact ((had n c hn hc).2 r hr).2 m hm e

theorem GoutIn.plain (H : GoutIn h nf nroots idx g gout empty) {T : Ptr → Option Int} {ad : Nat → Nat → Nat}
    {x : Nat → Nat → Nat → α} {u : Nat → α} (C : SimdCtx nf nroots idx g gout empty T ad x u h) :
    wp (gout2e nf nroots idx g gout empty) (fun _ h' => Done nroots gout empty u x h h' nf) h := by
  refine wp_mono (gout1eNuc_wp (T := T) (ad := ad) (u := u) (x := x) C.hR C.hT C.ha C.hE C.hg C.hx) ?_
  rintro _ h' ⟨h1, h2, h3⟩
  refine ⟨fun m hm => ?_, fun q hq => h2 q ?_, h3⟩
  · exact h1 m hm
  · rintro ⟨m, hm, e⟩; exact hq m hm e

theorem done_unique {R : Nat} {x : Nat → Nat → Nat → α} {u : Nat → α} {h1 h2 : Heap α} (H1 : Done R gout empty u x h h1 nf)
    (H2 : Done R gout empty u x h h2 nf) : h1 = h2 := by
  obtain ⟨D1, I1⟩ := h1
  obtain ⟨D2, I2⟩ := h2
  congr 1
  · funext q
    by_cases hq : ∃ m, m < nf ∧ q = gout + m
    · obtain ⟨m, hm, rfl⟩ := hq
      exact (H1.val m hm).trans (H2.val m hm).symm
    · have : ∀ m, m < nf → q ≠ gout + m := fun m hm e => hq ⟨m, hm, e⟩
      exact (H1.frame q this).trans (H2.frame q this).symm
  · exact H1.int.trans H2.int.symm

/-- **C58.**  Both versions run without fault and leave the same memory: the same block `gout` and nothing else changed.  With
eight or more roots and a result to be added, the SSE3 version needs a readable double behind the block. -/
theorem C58_same_result (H : GoutIn h nf nroots idx g gout empty) (hr : 1 ≤ nroots)
    (hpast : empty = 0 → 8 ≤ nroots → ∃ v, h.D (gout + nf) = .val v) :
    ∃ h', run (gout2eSimd nf nroots idx g gout empty) h = some ((), h') ∧
      run (gout2e nf nroots idx g gout empty) h = some ((), h') := by
  obtain ⟨T, ad, x, u, C⟩ := H.ctx
  obtain ⟨_, h1, r1, d1⟩ := run_of_wp (gout2eSimd_wp hr hpast C)
  obtain ⟨_, h2, r2, d2⟩ := run_of_wp (H.plain C)
  obtain rfl := done_unique d1 d2
  exact ⟨h1, r1, r2⟩

/-- **C58**, the values: element `n` of the block becomes the sum over the roots of the products of the three intermediates, added
to what was there when `gout_empty = 0`; nothing else changes. -/
theorem C58_values (H : GoutIn h nf nroots idx g gout empty) (hr : 1 ≤ nroots)
    (hpast : empty = 0 → 8 ≤ nroots → ∃ v, h.D (gout + nf) = .val v) :
    ∃ h', run (gout2eSimd nf nroots idx g gout empty) h = some ((), h') ∧
      (∀ n, n < nf → ∀ (ix iy iz : Nat) (x y z : Nat → α) (old : α),
        h.I (idx + 3*n) = .val (ix : Int) → h.I (idx + (3*n+1)) = .val (iy : Int) → h.I (idx + (3*n+2)) = .val (iz : Int) →
        (∀ r, r < nroots → h.D (g + ix + r) = .val (x r) ∧ h.D (g + iy + r) = .val (y r) ∧ h.D (g + iz + r) = .val (z r)) →
        (if empty = 0 then h.D (gout + n) = .val old else old = 0) →
        h'.D (gout + n) = .val (old + ∑ r ∈ Finset.range nroots, x r * y r * z r)) ∧
      (∀ q, (∀ n, n < nf → q ≠ gout + n) → h'.D q = h.D q) ∧ h'.I = h.I := by
  obtain ⟨T, ad, x, u, C⟩ := H.ctx
  obtain ⟨_, h1, r1, d1⟩ := run_of_wp (gout2eSimd_wp hr hpast C)
  refine ⟨h1, r1, ?_, d1.frame, d1.int⟩
  intro n hn ix iy iz X Y Z old e0 e1 e2 hv ho
  have hi : ∀ c (a : Nat), c < 3 → h.I (idx + (3*n+c)) = .val (a : Int) → a = ad c n := by
    intro c a hc e
    have e' := C.hR _ _ (C.hT n c hn hc)
    rw [e] at e'
    exact Int.ofNat.inj (Cell.val.inj e')
  obtain rfl := hi 0 ix (by omega) e0
  obtain rfl := hi 1 iy (by omega) e1
  obtain rfl := hi 2 iz (by omega) e2
  rw [d1.val n hn]
  have hs : ∑ r ∈ Finset.range nroots, p3 (fun c => x c n) r = ∑ r ∈ Finset.range nroots, X r * Y r * Z r := by
    refine Finset.sum_congr rfl (fun r hr => ?_)
    have hr := Finset.mem_range.1 hr
    obtain ⟨a, b, c⟩ := hv r hr
    rw [C.hx n 0 r hn (by omega) hr] at a
    rw [C.hx n 1 r hn (by omega) hr] at b
    rw [C.hx n 2 r hn (by omega) hr] at c
    rw [p3, Cell.val.inj a, Cell.val.inj b, Cell.val.inj c]
  unfold simdVal
  rw [hs]
  by_cases he : empty = 0
  · rw [if_pos he] at ho ⊢
    rw [C.hE he n hn] at ho
    rw [Cell.val.inj ho]
  · rw [if_neg he] at ho ⊢
    rw [ho, zero_add]

theorem pairSum_pure {ix iy iz : Nat} {h : Heap α} : ∀ (m : Nat) (Q : V2 α → Heap α → Prop),
    wp (pairSum g ix iy iz m) Q h → ∃ s, Q s h
  | 0, Q, w => by
    unfold pairSum prodPair loadu at w
    simp only [wp_mbind, wp_ld, wp_pure] at w
    obtain ⟨_, _, _, _, _, _, _, _, _, _, _, _, w⟩ := w
    exact ⟨_, w⟩
  | m+1, Q, w => by
    unfold pairSum at w
    rw [wp_mbind] at w
    obtain ⟨_, w⟩ := pairSum_pure m _ w
    unfold prodPair loadu at w
    simp only [wp_mbind, wp_ld, wp_pure] at w
    obtain ⟨_, _, _, _, _, _, _, _, _, _, _, _, w⟩ := w
    exact ⟨_, w⟩

/-! ### Evaluators of primitive integrals with either version -/

theorem accRoots_inv {F : Nat → Prog α (Nat → α)} {P : Nat → Prop} {h : Heap α}
    (hF : ∀ r Q, wp (F r) Q h → P r ∧ ∃ s, Q s h) : ∀ (n : Nat) (Q : (Nat → α) → Heap α → Prop),
    wp (accRoots F n) Q h → (∀ r, r < n → P r) ∧ ∃ s, Q s h
  | 0, Q, w => ⟨fun r hr => by omega, _, w⟩
  | n+1, Q, w => by
    unfold accRoots at w
    rw [wp_mbind] at w
    obtain ⟨h1, s, w⟩ := accRoots_inv hF n _ w
    rw [wp_mbind] at w
    obtain ⟨h2, t, w⟩ := hF n _ w
    refine ⟨fun r hr => ?_, _, w⟩
    rcases Nat.lt_succ_iff_lt_or_eq.1 hr with h | rfl
    · exact h1 r h
    · exact h2

/-- a run of the plain version without fault has read the intermediates of all elements -/
theorem gout2e_inv {T : Ptr → Option Int} {ad : Nat → Nat → Nat} {N : Nat} (hR : RO T h) (hT : IdxT T idx N ad)
    (hg : ∀ n c r, n < N → c < 3 → r < nroots → ¬ Blk gout N (g + ad c n + r)) : ∀ (n : Nat), n ≤ N → ∀ (Q : Unit → Heap α → Prop),
    wp (gout2e n nroots idx g gout empty) Q h →
    (∀ m c r, m < n → c < 3 → r < nroots → ∃ v, h.D (g + ad c m + r) = .val v) ∧
      ∃ h', Q () h' ∧ AgreeD h h' (Blk gout N) ∧ h'.I = h.I := by
  intro n
  induction n with
  | zero => intro _ Q w; exact ⟨fun m c r hm => by omega, h, w, fun _ _ => rfl, rfl⟩
  | succ n ih =>
    intro hn Q w
    unfold gout2e goutLoop at w
    change wp (Prog.bind (gout2e n nroots idx g gout empty) fun _ => _) Q h at w
    rw [wp_bind] at w
    obtain ⟨i1, h1, w, ag, hI⟩ := ih (by omega) _ w
    have hidx : ∀ c, c < 3 → h1.I (idx + (n*3+c)) = .val (ad c n : Int) := by
      intro c hc
      rw [hI, Nat.mul_comm n 3]
      exact hR _ _ (hT n c (by omega) hc)
    simp only [wp_mbind, wp_ldI] at w
    obtain ⟨ix, e0, iy, e1, iz, e2, w⟩ := w
    obtain rfl := Cell.val.inj (e0.symm.trans (hidx 0 (by omega)))
    obtain rfl := Cell.val.inj (e1.symm.trans (hidx 1 (by omega)))
    obtain rfl := Cell.val.inj (e2.symm.trans (hidx 2 (by omega)))
    simp only [Int.toNat_natCast] at w
    obtain ⟨i2, s, w⟩ := accRoots_inv (P := fun r => ∀ c, c < 3 → ∃ v, h1.D (g + ad c n + r) = .val v) (h := h1) (fun r Q w => by
      simp only [wp_mbind, wp_ld, wp_pure] at w
      obtain ⟨x, x1, y, y1, z, z1, w⟩ := w
      refine ⟨fun c hc => ?_, _, w⟩
      obtain rfl | rfl | rfl : c = 0 ∨ c = 1 ∨ c = 2 := by omega
      · exact ⟨_, x1⟩
      · exact ⟨_, y1⟩
      · exact ⟨_, z1⟩) _ _ w
    refine ⟨fun m c r hm hc hr => ?_, ?_⟩
    · rcases Nat.lt_succ_iff_lt_or_eq.1 hm with hm | rfl
      · exact i1 m c r hm hc hr
      · obtain ⟨v, hv⟩ := i2 r hr c hc
        exact ⟨v, by rw [← hv, ag _ (hg m c r (by omega) hc hr)]⟩
    · have hset : ∀ v, AgreeD h (h1.setD (gout + (n*1+0)) v) (Blk gout N) := by
        intro v q hq
        rw [← ag q hq]
        exact if_neg (fun e => hq ⟨n, by omega, by rw [e, Nat.mul_one, Nat.add_zero]⟩)
      unfold goutPut at w
      split at w
      · change wp (Prog.bind (Prog.ret ()) _) Q h1 at w
        rw [wp_bind] at w
        exact ⟨_, w.2, hset _, hI⟩
      · change wp (Prog.bind (Prog.ret ()) _) Q h1 at w
        rw [wp_bind] at w
        change wp (_ >>= _) Q h1 at w
        simp only [wp_mbind, wp_ld, wp_st] at w
        obtain ⟨o, _, _, w⟩ := w
        exact ⟨_, w, hset _, hI⟩

/-- an evaluator with the plain version that does its work also does it with the SSE3 version -/
theorem KernelSpec.simd {T : Ptr → Option Int} {g0 : α → Prog α Bool} {Gs : Ptr → Prop} {keep : Bool} {w : Nat → α}
    {ad : Nat → Nat → Nat} (h1 : 1 ≤ nroots) (h8 : nroots < 8) (hT : IdxT T idx nf ad)
    (hin : ∀ n c r, n < nf → c < 3 → r < nroots → Gs (g + ad c n + r))
    (H : KernelSpec T g0 (fun _ gout em => gout2e nf nroots idx g gout em) Gs nf keep w) :
    KernelSpec T g0 (fun _ gout em => gout2eSimd nf nroots idx g gout em) Gs nf keep w := by
  intro fac gout em u h hRO hGs hA hd hE
  refine wp_mono (H fac gout em u h hRO hGs hA hd hE) ?_
  rintro r h2 ⟨hr, hag, hI, hw⟩
  refine ⟨hr, hag, hI, fun hr1 => ?_⟩
  have w1 := hw hr1
  have hg : ∀ n c r, n < nf → c < 3 → r < nroots → ¬ Blk gout nf (g + ad c n + r) := by
    rintro n c r hn hc hr ⟨m, hm, e⟩
    exact hd m hm (e ▸ hin n c r hn hc hr)
  have hRO2 : RO T h2 := fun q v hq => by rw [hI]; exact hRO q v hq
  obtain ⟨hrd, _⟩ := gout2e_inv hRO2 hT hg nf le_rfl _ w1
  have G : GoutIn h2 nf nroots idx g gout em := by
    refine ⟨fun n c hn hc => ⟨ad c n, hRO2 _ _ (hT n c hn hc), fun r hr => ⟨hrd n c r hn hc hr, fun m hm e => hg n c r hn hc hr ⟨m, hm, e⟩⟩⟩,
      fun m hm => ?_, fun he m hm => ?_⟩
    · rw [hag _ (hd m hm)]; exact hA m hm
    · rw [hag _ (hd m hm)]; exact ⟨_, hE he m hm⟩
  obtain ⟨h3, r3, r4⟩ := C58_same_result G h1 (fun _ h => by omega)
  obtain ⟨_, h5, r5, q5⟩ := run_of_wp w1
  rw [r4] at r5
  obtain ⟨_, rfl⟩ := Prod.mk.inj (Option.some.inj r5)
  exact (wp_iff_run _ _ _).2 ⟨_, _, r3, q5⟩

/-- **C58**, the exception: with eight or more roots and a result to be added the SSE3 version reads `gout[nf]`, the double behind
the block (its value is not used).  If there is no such double the read is out of bounds; the plain version has no fault. -/
theorem C58_reads_past_block (H : GoutIn h nf nroots idx g gout 0) (hr : 8 ≤ nroots) (hnf : 1 ≤ nf)
    (hpast : ∀ v, h.D (gout + nf) ≠ .val v) :
    run (gout2eSimd nf nroots idx g gout 0) h = none ∧ ∃ h', run (gout2e nf nroots idx g gout 0) h = some ((), h') := by
  obtain ⟨T, ad, x, u, C⟩ := H.ctx
  obtain ⟨_, h2, r2, _⟩ := run_of_wp (H.plain C)
  refine ⟨?_, h2, r2⟩
  obtain ⟨m, rfl⟩ : ∃ m, nf = m + 1 := ⟨nf - 1, by omega⟩
  by_contra hne
  obtain ⟨⟨_, h3⟩, h3r⟩ := Option.ne_none_iff_exists'.1 hne
  have hw : wp (gout2eSimd (m+1) nroots idx g gout 0) (fun _ _ => True) h := (wp_iff_run _ _ _).2 ⟨_, _, h3r, trivial⟩
  unfold gout2eSimd at hw
  rw [if_neg (by omega), if_neg (by omega)] at hw
  change wp (Prog.bind (forN m fun n => simdMany nroots idx g gout 0 n) fun _ => simdMany nroots idx g gout 0 m) _ h at hw
  rw [wp_bind] at hw
  have hp : wp (forN m fun n => simdMany nroots idx g gout 0 n) (fun _ h' => Done nroots gout 0 u x h h' m) h := by
    refine wp_forN (fun n h' => Done nroots gout 0 u x h h' n) (AssignedD.init _ _ _ (fun k hk => by omega)) ?_ (fun _ H => H)
    intro n hn h' H
    exact simdMany_wp C hr (fun _ e => by omega) (by omega) H
  obtain ⟨_, h4, r4, d4⟩ := run_of_wp hp
  obtain ⟨_, h5, r5, w5⟩ := run_of_wp hw
  rw [r4] at r5
  obtain ⟨rfl, rfl⟩ := Prod.mk.inj (Option.some.inj r5)
  unfold simdMany loadu at w5
  simp only [wp_mbind, wp_ldI, ne_eq, not_true_eq_false, if_false, wp_ld] at w5
  obtain ⟨_, _, _, _, _, _, w6⟩ := w5
  obtain ⟨_, _, _, v, hv, _⟩ := pairSum_pure _ _ w6
  rw [show gout + m + 1 = gout + (m+1) from Ptr.add_assoc _ _ _, d4.old (by omega)] at hv
  exact hpast v hv

/-! ### Examples -/

/-- memory of the examples: intermediates 1 in buffer 0, addresses 0, 8, 16 in buffer 1, a block of `nf` zeros in buffer 2 -/
def simdDemo (nf : Nat) : Heap ℚ where
  D := fun q => if q.buf = 0 then .val 1 else if q.buf = 2 ∧ q.off < nf then .val 0 else .oob
  I := fun q => if q.buf = 1 then .val ((8 * (q.off % 3) : Nat) : Int) else .oob

theorem simdDemo_in (nf nroots : Nat) (empty : Int) : GoutIn (simdDemo nf) nf nroots ⟨1, 0⟩ ⟨0, 0⟩ ⟨2, 0⟩ empty where
  tables := fun n c hn hc => ⟨8*c, by
    show Cell.val ((8 * ((0 + (3*n+c)) % 3) : Nat) : Int) = _
    rw [show (0 + (3*n+c)) % 3 = c by omega], fun r hr => ⟨⟨1, rfl⟩, fun m hm e => by
      have : (0:Nat) = 2 := congrArg Ptr.buf e
      omega⟩⟩
  block := fun m hm => by
    show (if (2:Nat) = 0 then Cell.val (1:ℚ) else if (2:Nat) = 2 ∧ 0 + m < nf then .val 0 else .oob) ≠ .oob
    rw [if_neg (by decide), if_pos ⟨rfl, by omega⟩]
    exact fun e => by cases e
  set := fun _ m hm => ⟨0, by
    show (if (2:Nat) = 0 then Cell.val (1:ℚ) else if (2:Nat) = 2 ∧ 0 + m < nf then .val 0 else .oob) = _
    rw [if_neg (by decide), if_pos ⟨rfl, by omega⟩]⟩

/-- an odd number of elements, an odd number of roots, the result added -/
example : ∃ h', run (gout2eSimd 3 5 ⟨1, 0⟩ ⟨0, 0⟩ ⟨2, 0⟩ 0) (simdDemo 3) = some ((), h') ∧
    run (gout2e 3 5 ⟨1, 0⟩ ⟨0, 0⟩ ⟨2, 0⟩ 0) (simdDemo 3) = some ((), h') :=
  C58_same_result (simdDemo_in 3 5 0) (by omega) (fun _ h => by omega)

/-- ten roots, an empty block -/
example : ∃ h', run (gout2eSimd 6 10 ⟨1, 0⟩ ⟨0, 0⟩ ⟨2, 0⟩ 1) (simdDemo 6) = some ((), h') ∧
    run (gout2e 6 10 ⟨1, 0⟩ ⟨0, 0⟩ ⟨2, 0⟩ 1) (simdDemo 6) = some ((), h') :=
  C58_same_result (simdDemo_in 6 10 1) (by omega) (fun h => by omega)

/-- nine roots, the result added to a block at the end of its allocation -/
example : run (gout2eSimd 6 9 ⟨1, 0⟩ ⟨0, 0⟩ ⟨2, 0⟩ 0) (simdDemo 6) = none :=
  (C58_reads_past_block (simdDemo_in 6 9 0) (by omega) (by omega) (fun v e => by
    change (if (2:Nat) = 0 then Cell.val (1:ℚ) else if (2:Nat) = 2 ∧ 0 + 6 < 6 then .val 0 else .oob) = _ at e
    rw [if_neg (by decide), if_neg (by omega)] at e
    cases e)).1

end Verif.Props
