import Verif.Lemmas.Touch
import Verif.Model.Oper

/-!
Which buffers the functions called by the drivers through pointers touch.
-/
namespace Verif.Lemmas
open Verif Prog Model

section
variable {α : Type} [Field α] {W R : Nat → Prop}

theorem gAx_w {g : Ptr} {e : EnvG} {c n : Nat} (h : W g.buf) : W (gAx g e c n).buf := h
theorem gAx_r {g : Ptr} {e : EnvG} {c n : Nat} (h : W g.buf) : W (gAx g e c n).buf ∨ R (gAx g e c n).buf := Or.inl h

theorem g1eOvlp_touch {K : Consts α} {e : EnvG} {d : G1 α} {g : Ptr} {fac : α} (h : W g.buf) : T W R (g1eOvlp K e d g fac) := by
  unfold g1eOvlp; tch [gAx_w, gAx_r]

theorem goutLoop_touch {nf nc : Nat} {idx gout : Ptr} {em : Int} {comp : Nat → Nat → Nat → Prog α (Nat → α)} (h1 : W idx.buf)
    (h2 : W gout.buf) (hc : ∀ ix iy iz, T W R (comp ix iy iz)) : T W R (goutLoop nf nc idx gout em comp) := by
  unfold goutLoop goutPut; tch [hc]

theorem gout1e_touch {nf : Nat} {idx g gout : Ptr} {em : Int} (h1 : W idx.buf) (h2 : W g.buf) (h3 : W gout.buf) :
    T W R (gout1e nf idx g gout em : Prog α Unit) :=
  goutLoop_touch h1 h3 fun _ _ _ => by tch []

theorem accRoots_touch {f : Nat → Prog α (Nat → α)} {n : Nat} (h : ∀ i, T W R (f i)) : T W R (accRoots f n) := by
  induction n with
  | zero => exact trivial
  | succ n ih => exact Touch.bind ih fun _ => Touch.bind (h n) fun _ => trivial

theorem gout1eNuc_touch {nf nr : Nat} {idx g gout : Ptr} {em : Int} (h1 : W idx.buf) (h2 : W g.buf) (h3 : W gout.buf) :
    T W R (gout1eNuc nf nr idx g gout em : Prog α Unit) :=
  goutLoop_touch h1 h3 fun _ _ _ => accRoots_touch fun _ => by tch []

theorem gout2e_touch {nf nr : Nat} {idx g gout : Ptr} {em : Int} (h1 : W idx.buf) (h2 : W g.buf) (h3 : W gout.buf) :
    T W R (gout2e nf nr idx g gout em : Prog α Unit) :=
  goutLoop_touch h1 h3 fun _ _ _ => accRoots_touch fun _ => by tch []

/-! ### Operators -/

theorem dLow_touch {e : EnvG} {f g : Ptr} {s c n : Nat} {a : α} (h1 : W f.buf) (h2 : W g.buf) : T W R (dLow e f g s a c n) := by
  unfold dLow; tch [gAx_w, gAx_r]
theorem dHigh_touch {e : EnvG} {f g : Ptr} {s m c n : Nat} {a : α} (h1 : W f.buf) (h2 : W g.buf) : T W R (dHigh e f g s a m c n) := by
  unfold dHigh; tch [gAx_w, gAx_r]
theorem xMul_touch {e : EnvG} {f g : Ptr} {s c n : Nat} {r : Nat → α} (h1 : W f.buf) (h2 : W g.buf) : T W R (xMul e f g s r c n) := by
  unfold xMul; tch [gAx_w, gAx_r]

theorem nablaAt_touch {b : Bool} {e : EnvG} {a : α} {t : Fin 4} {f g : Ptr} {l : Fin 4 → Nat} (h1 : W f.buf) (h2 : W g.buf) :
    T W R (nablaAt b e a t f g l) := by
  unfold nablaAt
  split
  · unfold nabla1i2 perRoot; tch [dLow_touch, dHigh_touch]
  · unfold nabla1j2 perRoot; tch [dLow_touch, dHigh_touch]
  · unfold nabla1k2 perRoot; tch [dLow_touch, dHigh_touch]
  · unfold nabla1l2 perRoot; tch [dLow_touch, dHigh_touch]
  · unfold nabla1i; tch [dLow_touch, dHigh_touch]
  · unfold nabla1j; tch [dLow_touch, dHigh_touch]
  · unfold nabla1k; tch [dLow_touch, dHigh_touch]
  · exact trivial

theorem xAt_touch {b : Bool} {e : EnvG} {r : Nat → α} {t : Fin 4} {f g : Ptr} {l : Fin 4 → Nat} (h1 : W f.buf) (h2 : W g.buf) :
    T W R (xAt b e r t f g l) := by
  unfold xAt
  split
  · unfold x2e perRoot; tch [xMul_touch]
  · unfold x1e; tch [xMul_touch]

theorem execSteps_touch {b : Bool} {e : EnvG} {D : OpData α} (l : List GStep) (p : Nat → Ptr) (h : ∀ k, W (p k).buf) :
    Touch W R (fun p : Nat → Ptr => ∀ k, W (p k).buf) (execSteps b e D l p) := by
  induction l generalizing p with
  | nil => exact h
  | cons s l ih =>
    refine Touch.bind' (post := fun p : Nat → Ptr => ∀ k, W (p k).buf) ?_ fun p hp => ih p hp
    unfold execStep
    dsimp only
    split
    · exact Touch.bind (nablaAt_touch (h _) (h _)) fun _ => h
    · exact Touch.bind (xAt_touch (h _) (h _)) fun _ => h
    · exact Touch.bind (xAt_touch (h _) (h _)) fun _ => h
    · intro k
      dsimp only
      split
      · exact h _
      · exact h _

theorem loadProds_touch {p : Nat → Ptr} {x y z : Nat} (h : ∀ k, W (p k).buf) (l : List (Nat × Nat × Nat)) :
    T W R (loadProds p x y z l : Prog α (List α)) := by
  induction l with
  | nil => exact trivial
  | cons m l ih =>
    exact Touch.bind (Touch.ld (Or.inl (h _))) fun _ => Touch.bind (Touch.ld (Or.inl (h _))) fun _ =>
      Touch.bind (Touch.ld (Or.inl (h _))) fun _ => Touch.bind ih fun _ => trivial

theorem goutOvlp_touch {e : EnvG} {D : OpData α} {P : GoutProg} {idx g gout : Ptr} {em : Int} (h1 : W idx.buf) (h2 : W g.buf)
    (h3 : W gout.buf) : T W R (goutOvlp e D P idx g gout em) :=
  Touch.bind' (execSteps_touch _ _ fun _ => h2) fun _ hp => goutLoop_touch h1 h3 fun _ _ _ =>
    Touch.bind (loadProds_touch hp _) fun _ => trivial

/-! ### Two-electron intermediates -/

theorem ld3_touch {p : Nat → Ptr} (h : ∀ k, W (p k).buf) : T W R (ld3 p : Prog α (Nat → α)) :=
  Touch.bind (Touch.ld (Or.inl (h _))) fun _ => Touch.bind (Touch.ld (Or.inl (h _))) fun _ =>
    Touch.bind (Touch.ld (Or.inl (h _))) fun _ => trivial

theorem st3_touch {p : Nat → Ptr} {v : Nat → α} (h : ∀ k, W (p k).buf) : T W R (st3 p v) :=
  Touch.forN fun _ => Touch.st (h _)

theorem vrr1_touch {n : Nat} {c : Nat → α} {b : α} {p : Nat → Nat → Ptr} (h : ∀ a k, W (p a k).buf) : T W R (vrr1 n c b p) := by
  unfold vrr1
  refine Touch.bind (ld3_touch fun _ => h _ _) fun _ => Touch.bind (st3_touch fun _ => h _ _) fun _ =>
    Touch.bind (Touch.forS fun _ _ => Touch.bind (st3_touch fun _ => h _ _) fun _ => trivial) fun _ => trivial

theorem vrr2_touch {n : Nat} {c : Nat → α} {b b' : α} {p q : Nat → Nat → Ptr} (h : ∀ a k, W (p a k).buf)
    (h' : ∀ a k, W (q a k).buf) : T W R (vrr2 n c b b' p q) := by
  unfold vrr2
  refine Touch.bind (ld3_touch fun _ => h _ _) fun _ => Touch.bind (ld3_touch fun _ => h' _ _) fun _ =>
    Touch.bind (st3_touch fun _ => h _ _) fun _ =>
    Touch.bind (Touch.forS fun _ _ => Touch.bind (ld3_touch fun _ => h' _ _) fun _ =>
      Touch.bind (st3_touch fun _ => h _ _) fun _ => trivial) fun _ => trivial

theorem vrr3_touch {n m : Nat} {c : Nat → α} {b b' : α} {p q : Nat → Nat → Ptr} (h : ∀ a k, W (p a k).buf)
    (h' : ∀ a k, W (q a k).buf) : T W R (vrr3 n m c b b' p q) := by
  unfold vrr3 ldS1
  refine Touch.bind (ld3_touch fun _ => h _ _) fun _ =>
    Touch.bind (Touch.ite (fun _ => trivial) fun _ => ld3_touch fun _ => h _ _) fun _ =>
    Touch.bind (Touch.forS fun _ _ => Touch.bind (ld3_touch fun _ => h' _ _) fun _ =>
      Touch.bind (st3_touch fun _ => h _ _) fun _ => trivial) fun _ => trivial

theorem onlyIf_touch {c : Prop} [Decidable c] {p : Prog α Unit} (h : T W R p) : T W R (onlyIf c p) :=
  Touch.ite (fun _ => h) fun _ => trivial

theorem g0_2e_2d_touch {e : EnvG} {bc : Rys2eT α} {g : Ptr} (h : W g.buf) : T W R (g0_2e_2d e bc g) := by
  unfold g0_2e_2d
  have hp : ∀ f : Nat → Nat → Nat, ∀ a k, W (gAx g e a (f a k)).buf := fun _ _ _ => h
  refine Touch.bind (by tch [gAx_w]) fun _ => Touch.forN fun i => ?_
  refine Touch.bind (onlyIf_touch (vrr1_touch fun _ _ => h)) fun _ => Touch.bind (onlyIf_touch (vrr1_touch fun _ _ => h)) fun _ =>
    Touch.bind (onlyIf_touch (vrr2_touch (fun _ _ => h) (fun _ _ => h))) fun _ => ?_
  exact Touch.forN fun k => vrr3_touch (fun _ _ => h) (fun _ _ => h)

theorem hrrStep_touch {e : EnvG} {g : Ptr} {r : Nat → α} {a b n : Nat} (h : W g.buf) : T W R (hrrStep e g r a b n) := by
  unfold hrrStep; tch [gAx_w, gAx_r]

theorem g0Hrr_touch {e : EnvG} {d : G2 α} {g : Ptr} (h : W g.buf) : T W R (g0Hrr e d g) := by
  unfold g0Hrr
  split
  · split
    · unfold g0_ik2d_4d; tch [hrrStep_touch]
    · unfold g0_kj2d_4d; tch [hrrStep_touch]
  · split
    · unfold g0_il2d_4d; tch [hrrStep_touch]
    · unfold g0_lj2d_4d; tch [hrrStep_touch]

theorem uexpr_touch {bc : Rys2eT α} {r s : Nat → α} {g : Ptr} (h : W g.buf) (u : UExpr) : T W R (u.eval bc r s g) := by
  induction u with
  | add a b iha ihb => exact Touch.bind iha fun _ => Touch.bind ihb fun _ => trivial
  | mul a b iha ihb => exact Touch.bind iha fun _ => Touch.bind ihb fun _ => trivial
  | g n => exact Touch.ld (Or.inl h)
  | _ => exact trivial

theorem runAssigns_touch {bc : Rys2eT α} {r s : Nat → α} {g : Ptr} (h : W g.buf) (l : List (Nat × UExpr)) :
    T W R (runAssigns bc r s g l) := by
  induction l with
  | nil => exact trivial
  | cons x l ih => exact Touch.bind (uexpr_touch h _) fun _ => Touch.bind (Touch.st h) fun _ => ih

theorem g0_2d4d_touch {e : EnvG} {d : G2 α} {bc : Rys2eT α} {g : Ptr} (h : W g.buf) : T W R (g0_2d4d e d bc g) := by
  have hu : ∀ cases, T W R (g0Unrolled cases e d bc g) := by
    intro cases
    unfold g0Unrolled
    dsimp only
    split
    · exact runAssigns_touch h _
    · exact trivial
  unfold g0_2d4d
  split
  · split <;> exact hu _
  · exact Touch.bind (g0_2e_2d_touch h) fun _ => g0Hrr_touch h

variable [LinearOrder α]

theorem g1eNuc_touch {Rt : Rys α} {K : Consts α} {e : EnvG} {d : G1 α} {S : Src α} {g : Ptr} {fac : α} (h : W g.buf) :
    T W R (g1eNuc Rt K e d S g fac) := by
  unfold g1eNuc; tch [gAx_w, gAx_r]

theorem g0Rest_touch {e : EnvG} {d : G2 α} {g : Ptr} {u : Nat → α} {fac : α} (h : W g.buf) : T W R (g0Rest e d g u fac) := by
  unfold g0Rest; tch [g0_2d4d_touch, gAx_w, gAx_r]

theorem g0_2e_touch {Rt : Rys2 α} {K : Consts α} {e : EnvG} {d : G2 α} {cut : α} {g : Ptr} {fac : α} (h : W g.buf) :
    T W R (g0_2e Rt K e d cut g fac) := by
  unfold g0_2e; tch [g0Rest_touch, gAx_w, gAx_r]

end
end Verif.Lemmas
