import Verif.Driver.Spec
import Verif.Pipeline.Spec
import Verif.Whole.Spec

/-!
# Specification: the observations of a run that makes its ephemerides

Nothing here refers to the functions of `Whole/Model.lean` or `Driver/Model.lean`.
-/

namespace Sorcha.Whole.Spec

open Sorcha.Readers (Rec)

variable {K U R S V G : Type} [Field K] [LinearOrder K]

/-- The rows of an object: one for each visit it is found in, with the number and mid-time of the visit, what the integrator answers for it, and the object's own columns.
`pos` are the answers of the integrators of the objects, `τs` the reference times of the visits. -/
noncomputable def foundRows (E : Driver.Env K U R S V G) (pos : Rec Str → K → U → R) (visits : List (Pointing.Visit V)) (τs : List K) (r : Rec Str) :
    List (Pointing.Obs (G × List Str)) :=
  (keep (fun x => Driver.Spec.Found E (pos r) x.1 x.2) (visits.zip τs)).map fun x => ⟨r.id, x.1.id, x.1.mid, (E.geometry x.1 (Driver.Spec.atVisit E (pos r) x.1), r.cells)⟩

/-- What is needed of the visits of the pointing table so that any rows for them can be worked on: numbers that are unique, times that agree with the starts of the visits,
and values that can be computed; with the linking filter, finite settings and times well inside the nights. -/
structure GoodVisits {Γ W : Type} (Q : Pipeline.Env Γ W V) (c : Config.Cfg) (visits : List (Pointing.Visit V)) : Prop where
  table : Q.db = visits
  numbers : (visits.map (·.id)).Nodup
  times : ∀ v ∈ visits, Pointing.Spec.Agree v.start v.mid
  values : ∀ o, ∀ v ∈ visits, Q.measure (o, v) ≠ none
  sortIndex : ∀ l, (Q.sortIndex l).Perm l
  linking : ∀ ssp, c.linking.ssp = some ssp → Linking.Spec.Sorts Q.sortT ∧ ∃ lc, Pipeline.Spec.Settings Q ssp lc ∧
    ∀ v ∈ visits, Linking.Spec.WellPhased lc [⟨v.id, v.mid, 0, 0⟩]

end Sorcha.Whole.Spec
