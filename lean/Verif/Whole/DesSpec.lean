import Verif.DesRun.Spec
import Verif.Whole.Spec
import Verif.Whole.SpecDb

/-!
# Specification: what the results of a DES run hold

Nothing here refers to the functions of `Whole/Des.lean`.
-/

namespace Sorcha.Whole.Spec

open Sorcha.Output (Cell)
open Sorcha.DesRun.Spec (survivors Near Moving SeenAs)

variable {G W V : Type}

/-- The content of the place of the results for the given rows, as a text or as a database. -/
def Results (dist : Cell → Cell → Cell → Cell) (shown : Cell → Str) (read : Str → Option (List (List Str))) (c : Config.Cfg) (columns : List String)
    (cells : Pipeline.Row W V → Output.Row) (rows : List (Pipeline.Row W V)) (file : Option History.Content) : Prop :=
  (c.output.format = "csv" → ResultsFile dist shown read c columns cells rows file) ∧ (c.output.format ≠ "csv" → ResultsTable dist c columns cells rows file)

/-- The same rows, in some order. -/
def SameResults (c : Config.Cfg) (read : Str → Option (List (List Str))) (file file' : Option History.Content) : Prop :=
  (c.output.format = "csv" → SameLines read file file') ∧ (c.output.format ≠ "csv" → SameTable file file')

/-- What a DES run may output of the observations: each row is in view and within the limits on magnitude, it moves as it should, its object is seen at the right distance,
and no row is there twice; with the discovery filter, the rows of its object that are there meet the rule of the survey. -/
structure Passed (E : DesRun.Env G W V) (c : Config.Cfg) (obs : List (Pointing.Obs W)) (rows : List (Pipeline.Row W V)) : Prop where
  once : rows.Subperm (survivors E c obs)
  near : ∀ r ∈ rows, Near c (survivors E c obs) r
  moving : ∀ r ∈ rows, Moving c r
  found : c.linking.desDiscovery.on = true → ∀ r ∈ rows, ∃ seen ds, seen.Subperm rows ∧ (∀ x ∈ seen, x.objId = r.objId) ∧ List.Forall₂ SeenAs ds seen ∧ Des.Spec.Discovered ds

/-- The ephemerides of each object do not depend on the other objects they are made with. -/
def EachAlone (ephem : List (Readers.Rec Str) → List (Pointing.Obs W)) (orb : List (Readers.Rec Str)) : Prop :=
  ∀ objs, Pipeline.Spec.PartOf orb objs → ∀ id, ((ephem objs).filter fun o => o.obj = id) = ephem (objs.filter fun r => r.id = id)

end Sorcha.Whole.Spec
