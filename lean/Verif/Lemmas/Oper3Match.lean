import Verif.Lemmas.Oper2Key
import Verif.Model.Auto3c2e
import Verif.Model.Auto2c2e
import Verif.Spec.Oper3

/-! Every generated three- and two-centre repulsion integral against the definition of the same name. -/
namespace Verif.Lemmas
open Verif Verif.Model Verif.Spec

set_option maxRecDepth 100000

/-- there are no operators on the missing functions -/
def onThree (G : Gen2e) (D : Def2e) : Bool :=
  decide (G.ng.l = 0) && D.out.all fun P => P.all fun x => x.2.ket.isEmpty && x.2.geo.isEmpty

def onTwo (G : Gen2e) (D : Def2e) : Bool :=
  decide (G.ng.j = 0 ∧ G.ng.l = 0) && D.out.all fun P => P.all fun x => x.1.ket.isEmpty && x.1.geo.isEmpty && x.2.ket.isEmpty && x.2.geo.isEmpty

theorem all_match3 : ∀ x ∈ Auto3c2e.all3c.zip defs3c, (matches2e x.1.2 x.2.2 && onThree x.1.2 x.2.2) = true := by decide +kernel

theorem all_match2c : ∀ x ∈ Auto2c2e.all2c.zip defs2c, (matches2e x.1.2 x.2.2 && onTwo x.1.2 x.2.2) = true := by decide +kernel

theorem all_names3 : Auto3c2e.all3c.map (·.1) = defs3c.map (·.1) := by decide +kernel
theorem names_nodup3 : (defs3c.map (·.1)).Nodup := by decide +kernel
theorem all_names2c : Auto2c2e.all2c.map (·.1) = defs2c.map (·.1) := by decide +kernel
theorem names_nodup2c : (defs2c.map (·.1)).Nodup := by decide +kernel

/-- entries of the same name in two lists with the same names -/
theorem zip_of_name {κ : Type} {α β : Type} {l : List (κ × α)} {m : List (κ × β)} (hn : l.map (·.1) = m.map (·.1))
    (hd : (m.map (·.1)).Nodup) {name : κ} {a : α} {b : β} (ha : (name, a) ∈ l) (hb : (name, b) ∈ m) :
    ((name, a), (name, b)) ∈ l.zip m := by
  obtain ⟨i, hi, ei⟩ := List.mem_iff_getElem.1 ha
  obtain ⟨j, hj, ej⟩ := List.mem_iff_getElem.1 hb
  have hlen : l.length = m.length := by
    have := congrArg List.length hn; simpa using this
  have e1 : (m.map (·.1))[i]'(by simp; omega) = name := by
    have : (l.map (·.1))[i]'(by simp; omega) = name := by rw [List.getElem_map, ei]
    rw [← this]
    exact (List.getElem_of_eq hn _).symm
  have e2 : (m.map (·.1))[j]'(by simp; omega) = name := by rw [List.getElem_map, ej]
  have hij : i = j := (List.Nodup.getElem_inj_iff hd).1 (e1.trans e2.symm)
  subst hij
  have hz : (l.zip m)[i]'(by rw [List.length_zip]; omega) = ((name, a), (name, b)) := by
    rw [List.getElem_zip, ei, ej]
  rw [← hz]
  exact List.getElem_mem _

end Verif.Lemmas
