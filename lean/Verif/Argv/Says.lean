import Verif.Argv.Words

/-!
# Lemmas: the options of `sorcha run`
-/

namespace Sorcha.Argv
open Spec

/-- Where a setting is stored. -/
def dest : Setting → Dest
  | .config => .c
  | .outfile => .o
  | .orbits => .ob
  | .parameters => .p
  | .pointings => .pd
  | .ephemRead => .er
  | .ephemWrite => .ew
  | .dataPath => .ar
  | .complex => .cp
  | .force => .f
  | .survey => .s
  | .stem => .t
  | .quiet => .l
  | .stats => .st
  | .visits => .vd

theorem dest_inj {s t : Setting} (h : dest s = dest t) : s = t := by
  cases s <;> cases t <;> first | rfl | cases h

theorem runTable_good : Good runTable := by
  refine ⟨?_, ?_, ?_⟩
  · intro e he
    have : ∀ n ∈ runTable.map Prod.fst, (match n with | ['-', c] => c != '-' | '-' :: '-' :: r => !r.isEmpty | _ => false) = true := by decide +kernel
    have := this e.1 (List.mem_map.2 ⟨e, he, rfl⟩)
    split at this
    · rename_i c h; exact .inl ⟨c, by simpa using this, h⟩
    · rename_i r _ h; exact .inr ⟨r, by simpa using this, h⟩
    · cases this
  · intro e he
    have : ∀ n ∈ runTable.map Prod.fst, '=' ∉ n := by decide +kernel
    exact this e.1 (List.mem_map.2 ⟨e, he, rfl⟩)
  · decide +kernel

instance : Fits runTable names Switch dest where
  table := by simp [runTable, names, actOf, Switch, dest]
  inj := fun _ _ => dest_inj
  good := runTable_good
  dashes := rfl

/-- A setting as it is stored. -/
abbrev store (g : Setting × Str) : Dest × Str := storeOf dest g

end Sorcha.Argv
