import Mathlib.Data.Finset.Basic
import Mathlib.Data.Finset.Insert

/-
Allocation and release of optimizers, src/optimizer.c.

The heap is the set of live blocks; `A` is the allocator: from the set of live blocks it picks
the identity of the next block, and may reuse identities of released blocks.  Only the parts of
the contents that decide which blocks are released are kept: the pointer arrays.
-/
namespace Verif.Model.OptLife

/-- a stored pointer -/
inductive PV where
  | null
  | novalue                    -- NOVALUE, src/optimizer.h:8
  | at (blk off : Nat)
  deriving DecidableEq

/-- an array of pointers in its own block -/
structure Arr where
  blk : Nat
  slot : Nat → PV

/-- CINTOpt, include/cint.h.in:149-157; `none` is NULL -/
structure Opt where
  self : Nat
  index : Option Arr
  non0 : Option Arr
  sorted : Option Arr
  logc : Option Arr
  pair : Option Arr

/-- the part of a basis that matters -/
structure Bas where
  nbas : Nat
  nprim : Nat → Nat
  nctr : Nat → Nat
  l : Nat → Nat
  /-- result of CINTset_pairdata -/
  empty : Nat → Nat → Bool

abbrev Live := Finset Nat

/-- malloc -/
def malloc (A : Live → Nat) (s : Live) : Nat × Live := (A s, insert (A s) s)

/-- free; `none`: undefined behaviour -/
def free (s : Live) : PV → Option Live
  | .null => some s
  | .novalue => none
  | .at b off => if off = 0 ∧ b ∈ s then some (s.erase b) else none

/-- `for (i = 0; i < n; i++)` -/
def iter {S : Type} (f : Nat → S → S) : Nat → S → S
  | 0, s => s
  | n+1, s => f n (iter f n s)

def setSlot (a : Nat → PV) (i : Nat) (v : PV) : Nat → PV := fun k => if k = i then v else a k

/-- sum over all shells, e.g. `tot_prim` -/
def total (f : Nat → Nat) (n : Nat) : Nat := iter (fun i s => s + f i) n 0

/-- the cursor loops of CINTOpt_set_log_maxc (src/optimizer.c:277-285) and
CINTOpt_set_non0coeff (:479-490): every shell gets the next piece of the pool -/
def pieces (pool n : Nat) (len : Nat → Nat) : Nat → PV :=
  (iter (fun i (s : (Nat → PV) × Nat) => (setSlot s.1 i (.at pool s.2), s.2 + len i)) n
    (setSlot (fun _ => .null) 0 (.at pool 0), 0)).1

/-- CINTOpt_set_log_maxc, src/optimizer.c:262-286 -/
def setLogMaxc (A : Live → Nat) (B : Bas) (o : Opt) (s : Live) : Opt × Live :=
  if total B.nprim B.nbas = 0 then (o, s) else
  let (arr, s) := malloc A s
  let (pool, s) := malloc A s
  ({ o with logc := some ⟨arr, pieces pool B.nbas B.nprim⟩ }, s)

/-- body of the pair loop of CINTOpt_setij, src/optimizer.c:403-422 -/
def setijBody (B : Bas) (pool i j : Nat) (s : (Nat → PV) × Nat) : (Nat → PV) × Nat :=
  let n := B.nprim i * B.nprim j
  if i = 0 ∧ j = 0 then (setSlot s.1 0 (.at pool s.2), s.2 + n)
  else if B.empty i j = false then
    let a := setSlot s.1 (i*B.nbas+j) (.at pool s.2)
    if i ≠ j then (setSlot a (j*B.nbas+i) (.at pool (s.2 + n)), s.2 + n + n)
    else (a, s.2 + n)
  else (setSlot (setSlot s.1 (i*B.nbas+j) .novalue) (j*B.nbas+i) .novalue, s.2)

/-- CINTOpt_setij, src/optimizer.c:357-425 -/
def setij (A : Live → Nat) (B : Bas) (o : Opt) (s : Live) : Opt × Live :=
  let (o, s) := if o.logc.isNone then setLogMaxc A B o s else (o, s)
  let tot := total B.nprim B.nbas
  if tot = 0 ∨ tot > 2048 then (o, s) else
  let (arr, s) := malloc A s
  let (pool, s) := malloc A s
  let r := iter (fun i s => iter (fun j s => setijBody B pool i j s) (i+1) s) B.nbas
    (setSlot (fun _ => .null) 0 (.at pool 0), 0)
  ({ o with pair := some ⟨arr, r.1⟩ }, s)

/-- CINTOpt_set_non0coeff, src/optimizer.c:460-491 -/
def setNon0 (A : Live → Nat) (B : Bas) (o : Opt) (s : Live) : Opt × Live :=
  if total B.nprim B.nbas = 0 then (o, s) else
  let (non0, s) := malloc A s
  let (sorted, s) := malloc A s
  let (pnon0, s) := malloc A s
  let (psorted, s) := malloc A s
  ({ o with non0 := some ⟨non0, pieces pnon0 B.nbas B.nprim⟩
            sorted := some ⟨sorted, pieces psorted B.nbas (fun i => B.nprim i * B.nctr i)⟩ }, s)

/-- `_make_fakebas`: the largest angular momentum, src/optimizer.c:80-88 -/
def maxL (B : Bas) : Nat := iter (fun i m => if m > B.l i then m else B.l i) B.nbas 0

/-- the table loops of gen_idx, src/optimizer.c:133-170; LMAX1 = 16; `nf` the number of
functions of a combination of angular momenta -/
def genLoop (order la buf : Nat) (nf : Nat → Nat → Nat → Nat → Nat) (s : (Nat → PV) × Nat) :
    (Nat → PV) × Nat :=
  let put := fun ptr n (s : (Nat → PV) × Nat) => (setSlot s.1 ptr (.at buf s.2), s.2 + n*3)
  if order = 2 then
    iter (fun i s => iter (fun j s => put (i*16+j) (nf i j 0 0) s) (la+1) s) (la+1) s
  else if order = 3 then
    iter (fun i s => iter (fun j s => iter (fun k s => put (i*16*16+j*16+k) (nf i j k 0) s)
      (la+1) s) (la+1) s) (la+1) s
  else
    iter (fun i s => iter (fun j s => iter (fun k s => iter (fun l s =>
      put (i*16*16*16+j*16*16+k*16+l) (nf i j k l) s) (la+1) s) (la+1) s) (la+1) s) (la+1) s

/-- gen_idx with _allocate_index_xyz, src/optimizer.c:97-171 -/
def genIdx (A : Live → Nat) (B : Bas) (order allow : Nat) (nf : Nat → Nat → Nat → Nat → Nat)
    (o : Opt) (s : Live) : Opt × Live :=
  let la := if maxL B < allow then maxL B else allow
  let (buf, s) := malloc A s
  let (arr, s) := malloc A s
  let r := genLoop order la buf nf (setSlot (fun _ => .null) 0 (.at buf 0), 0)
  ({ o with index := some ⟨arr, r.1⟩ }, s)

/-- CINTinit_2e_optimizer, src/optimizer.c:21-33 -/
def init (A : Live → Nat) (s : Live) : Opt × Live :=
  let (p, s) := malloc A s
  (⟨p, none, none, none, none, none⟩, s)

/-- the kinds of optimizer: CINTall_1e/2c2e/1e_grids (`pairs = false`) and
CINTall_2e/3c2e/3c1e/2e_stg (`pairs = true`), src/optimizer.c:173-258 -/
structure Kind where
  pairs : Bool
  order : Nat
  allow : Nat
  nf : Nat → Nat → Nat → Nat → Nat

/-- CINTall_*_optimizer, src/optimizer.c:173-258 -/
def build (A : Live → Nat) (K : Kind) (B : Bas) (s : Live) : Opt × Live :=
  let (o, s) := init A s
  let (o, s) := if K.pairs then setij A B o s else setLogMaxc A B o s
  let (o, s) := setNon0 A B o s
  genIdx A B K.order K.allow K.nf o s

/-- release a pool through element 0 of its pointer array, then the array -/
def freeArr (s : Live) : Option Arr → Option Live
  | none => some s
  | some a => do
    let s ← free s (a.slot 0)
    free s (.at a.blk 0)

/-- CINTdel_pairdata_optimizer, src/optimizer.c:427-434 (non-NULL argument) -/
def delPair (o : Opt) (s : Live) : Option (Opt × Live) := do
  let s ← freeArr s o.pair
  pure ({ o with pair := none }, s)

/-- src/optimizer.c:52-57: `non0ctr != NULL` is tested, `sortedidx` is dereferenced without a
test -/
def delTables (o : Opt) (s : Live) : Option Live :=
  match o.non0, o.sorted with
  | none, _ => some s
  | some _, none => none
  | some n, some x => (freeArr s (some x)).bind fun s => freeArr s (some n)

/-- CINTdel_2e_optimizer, src/optimizer.c:40-68; the argument is `*opt`, the result its new value
and the live blocks -/
def del (h : Option Opt) (s : Live) : Option (Option Opt × Live) :=
  match h with
  | none => some (none, s)
  | some o => do
    let s ← freeArr s o.index
    let s ← delTables o s
    let s ← freeArr s o.logc
    let (o, s) ← delPair o s
    let s ← free s (.at o.self 0)
    pure (none, s)

/-- what a program does with optimizer handles -/
inductive Op where
  | create (h : Nat) (K : Kind) (B : Bas)       -- int*_optimizer(&h, ...)
  | createEmpty (h : Nat)                        -- CINTinit_2e_optimizer(&h, ...)
  | noOpt (h : Nat)                              -- CINTno_optimizer(&h, ...)
  | delPairs (h : Nat)                           -- CINTdel_pairdata_optimizer(h)
  | delete (h : Nat)                             -- CINTdel_optimizer(&h)

/-- the variables holding optimizers and the live blocks -/
structure State where
  hnd : Nat → Option Opt
  live : Live

def State.set (S : State) (h : Nat) (o : Option Opt) (s : Live) : State :=
  ⟨fun k => if k = h then o else S.hnd k, s⟩

/-- one step; `none`: undefined behaviour -/
def step (A : Live → Nat) (S : State) : Op → Option State
  | .create h K B => let (o, s) := build A K B S.live; some (S.set h (some o) s)
  | .createEmpty h => let (o, s) := init A S.live; some (S.set h (some o) s)
  | .noOpt h => some (S.set h none S.live)
  | .delPairs h => match S.hnd h with
    | none => some S
    | some o => do let (o, s) ← delPair o S.live; pure (S.set h (some o) s)
  | .delete h => do let (o, s) ← del (S.hnd h) S.live; pure (S.set h o s)

/-- a history -/
def exec (A : Live → Nat) : List Op → State → Option State
  | [], S => some S
  | op :: ops, S => (step A S op).bind (exec A ops)

end Verif.Model.OptLife
