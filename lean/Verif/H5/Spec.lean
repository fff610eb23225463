import Verif.Readers.Spec
import Verif.Config.Model

/-! # Specification vocabulary for tables with index labels -/

namespace Sorcha.H5.Spec
open Sorcha.Readers Sorcha.Readers.Spec

variable {C : Type}

/-- No row of an object of the block has the label of a row of an object outside the block. -/
def Apart (t : List (ℕ × Rec C)) (blk : List (Rec C)) : Prop :=
  ∀ x ∈ t, ∀ y ∈ t, x.1 = y.1 → x.2.id ∈ idsOf blk → y.2.id ∈ idsOf blk

/-- Some row of the table is of an object of the block. -/
def Present (t : List (ℕ × Rec C)) (blk : List (Rec C)) : Prop := ∃ x ∈ t, x.2.id ∈ idsOf blk

/-- The objects a round of the generating run makes ephemerides for. -/
def kept (c : Config.Cfg) (cull : Rec C → Bool) (ts : List (List (Rec C))) (b : List (Rec C)) : List (Rec C) :=
  (b.map (extend ts)).filter fun r => c.expert.bruteForce || !cull r

end Sorcha.H5.Spec
