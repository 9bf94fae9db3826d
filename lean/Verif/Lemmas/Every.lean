import Verif.Spec.Shape
/-
Facts about every command of a query, at any depth, follow from stronger such facts.
-/
namespace Verif
open Verif.Spec

variable {E E' : Expr → Prop} {C C' : Command → Prop}

mutual
theorem everyE_mono (hE : ∀ e, E e → E' e) (hC : ∀ c, C c → C' c) : ∀ e, everyE E C e → everyE E' C' e
  | .const _, h | .fv _ _, h | .fb _ _, h | .fc _ _, h | .aliasedField _ _, h | .timeModifier _, h | .searchModifier _, h => by
    simp only [everyE] at h ⊢; exact hE _ h
  | .binary _ _ _, h => by simp only [everyE] at h ⊢; exact ⟨hE _ h.1, everyE_mono hE hC _ h.2.1, everyE_mono hE hC _ h.2.2⟩
  | .unary _ _, h => by simp only [everyE] at h ⊢; exact ⟨hE _ h.1, everyE_mono hE hC _ h.2⟩
  | .call _ _, h => by simp only [everyE] at h ⊢; exact ⟨hE _ h.1, everyEs_mono hE hC _ h.2⟩
  | .fieldIn _ _, h => by simp only [everyE] at h ⊢; exact ⟨hE _ h.1, everyEs_mono hE hC _ h.2⟩
  | .alias _ _, h => by simp only [everyE] at h ⊢; exact ⟨hE _ h.1, everyE_mono hE hC _ h.2⟩
  | .subSearch _, h => by simp only [everyE] at h ⊢; exact ⟨hE _ h.1, everyP_mono hE hC _ h.2⟩

theorem everyEs_mono (hE : ∀ e, E e → E' e) (hC : ∀ c, C c → C' c) : ∀ es, everyEs E C es → everyEs E' C' es
  | [], _ => by simp only [everyEs]
  | _ :: _, h => by simp only [everyEs] at h ⊢; exact ⟨everyE_mono hE hC _ h.1, everyEs_mono hE hC _ h.2⟩

theorem everyAs_mono (hE : ∀ e, E e → E' e) (hC : ∀ c, C c → C' c) : ∀ es, everyAs E C es → everyAs E' C' es
  | [], _ => by simp only [everyAs]
  | (_, _) :: _, h => by simp only [everyAs] at h ⊢; exact ⟨everyE_mono hE hC _ h.1, everyAs_mono hE hC _ h.2⟩

theorem everyKs_mono (hE : ∀ e, E e → E' e) (hC : ∀ c, C c → C' c) : ∀ es, everyKs E C es → everyKs E' C' es
  | [], _ => by simp only [everyKs]
  | (_, _) :: _, h => by simp only [everyKs] at h ⊢; exact ⟨everyE_mono hE hC _ h.1, everyKs_mono hE hC _ h.2⟩

theorem everyC_mono (hE : ∀ e, E e → E' e) (hC : ∀ c, C c → C' c) : ∀ c, everyC E C c → everyC E' C' c
  | .eval _, h => by simp only [everyC] at h ⊢; exact ⟨hC _ h.1, everyAs_mono hE hC _ h.2⟩
  | .eventStats .., h => by simp only [everyC] at h ⊢; exact ⟨hC _ h.1, everyEs_mono hE hC _ h.2⟩
  | .head .., h => by simp only [everyC] at h ⊢; exact ⟨hC _ h.1, everyE_mono hE hC _ h.2⟩
  | .inputLookup _ _ _ _ _ (some _), h => by simp only [everyC] at h ⊢; exact ⟨hC _ h.1, everyE_mono hE hC _ h.2⟩
  | .inputLookup _ _ _ _ _ none, h => by simp only [everyC] at h ⊢; exact hC _ h
  | .join .., h => by simp only [everyC] at h ⊢; exact ⟨hC _ h.1, everyP_mono hE hC _ h.2⟩
  | .map .., h => by simp only [everyC] at h ⊢; exact ⟨hC _ h.1, everyP_mono hE hC _ h.2⟩
  | .multiSearch _, h => by simp only [everyC] at h ⊢; exact ⟨hC _ h.1, everyPs_mono hE hC _ h.2⟩
  | .sort .., h => by simp only [everyC] at h ⊢; exact ⟨hC _ h.1, everyKs_mono hE hC _ h.2⟩
  | .stats .., h => by simp only [everyC] at h ⊢; exact ⟨hC _ h.1, everyEs_mono hE hC _ h.2⟩
  | .streamStats .., h => by simp only [everyC] at h ⊢; exact ⟨hC _ h.1, everyEs_mono hE hC _ h.2⟩
  | .tstats _ _ _ _ (some _) _ _, h => by simp only [everyC] at h ⊢; exact ⟨hC _ h.1, everyEs_mono hE hC _ h.2.1, everyE_mono hE hC _ h.2.2⟩
  | .tstats _ _ _ _ none _ _, h => by simp only [everyC] at h ⊢; exact ⟨hC _ h.1, everyEs_mono hE hC _ h.2⟩
  | .where_ _, h => by simp only [everyC] at h ⊢; exact ⟨hC _ h.1, everyE_mono hE hC _ h.2⟩
  | .search _, h => by simp only [everyC] at h ⊢; exact ⟨hC _ h.1, everyE_mono hE hC _ h.2⟩
  | .addTotals _, h | .bin _, h | .collect .., h | .convert .., h | .dataModel _, h | .dedup .., h | .fields .., h | .fillNull .., h | .format .., h | .lookup _, h
  | .makeResults _, h | .mvCombine .., h | .mvExpand .., h | .rare _, h | .regex .., h | .rename _, h | .return_ .., h | .spath .., h | .table _, h | .tail _, h
  | .top _, h | .rex _, h => by simp only [everyC] at h ⊢; exact hC _ h

theorem everyP_mono (hE : ∀ e, E e → E' e) (hC : ∀ c, C c → C' c) : ∀ cs, everyP E C cs → everyP E' C' cs
  | [], _ => by simp only [everyP]
  | _ :: _, h => by simp only [everyP] at h ⊢; exact ⟨everyC_mono hE hC _ h.1, everyP_mono hE hC _ h.2⟩

theorem everyPs_mono (hE : ∀ e, E e → E' e) (hC : ∀ c, C c → C' c) : ∀ ps, everyPs E C ps → everyPs E' C' ps
  | [], _ => by simp only [everyPs]
  | _ :: _, h => by simp only [everyPs] at h ⊢; exact ⟨everyP_mono hE hC _ h.1, everyPs_mono hE hC _ h.2⟩
end

end Verif
