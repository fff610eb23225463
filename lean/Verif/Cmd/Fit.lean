import Verif.Cmd.Lemmas

/-!
# Lemmas: the tables of options fit the names of the settings
-/

namespace Sorcha.Cmd
open Argv Argv.Spec Spec

theorem good_of {D : Type} {T : Table D}
    (h1 : (T.map Prod.fst).all (fun n => match n with | ['-', c] => c != '-' | '-' :: '-' :: r => !r.isEmpty | _ => false) = true)
    (h2 : (T.map Prod.fst).all (fun n => !n.contains '=') = true) (h3 : (T.map Prod.fst).Nodup) : Good T := by
  refine ⟨?_, ?_, h3⟩
  · intro e he
    have := List.all_eq_true.1 h1 e.1 (List.mem_map.2 ⟨e, he, rfl⟩)
    split at this
    · rename_i c h; exact .inl ⟨c, by simpa using this, h⟩
    · rename_i r _ h; exact .inr ⟨r, by simpa using this, h⟩
    · cases this
  · intro e he
    have := List.all_eq_true.1 h2 e.1 (List.mem_map.2 ⟨e, he, rfl⟩)
    simpa using this

def initDest : InitSetting → InitDest
  | .verbose => .verbose
  | .path => .path
  | .force => .force

instance : Fits initTable initNames (fun s => s = .verbose ∨ s = .force) initDest where
  table := by simp [initTable, initNames, actOf, initDest]
  inj := by intro s t h; cases s <;> cases t <;> first | rfl | cases h
  good := good_of (by decide +kernel) (by decide +kernel) (by decide +kernel)
  dashes := rfl

def bootDest : BootSetting → BootDest
  | .cache => .cache
  | .force => .force

instance : Fits bootTable bootNames (fun s => s = .force) bootDest where
  table := by simp [bootTable, bootNames, actOf, bootDest]
  inj := by intro s t h; cases s <;> cases t <;> first | rfl | cases h
  good := good_of (by decide +kernel) (by decide +kernel) (by decide +kernel)
  dashes := rfl

def citeDest : CiteSetting → CiteDest
  | .dir => .o
  | .print => .p

instance : Fits citeTable citeNames (fun s => s = .print) citeDest where
  table := by simp [citeTable, citeNames, actOf, citeDest]
  inj := by intro s t h; cases s <;> cases t <;> first | rfl | cases h
  good := good_of (by decide +kernel) (by decide +kernel) (by decide +kernel)
  dashes := rfl

def demoDest : DemoSetting → DemoDest
  | .path => .path
  | .force => .force

instance : Fits demoTable demoNames (fun s => s = .force) demoDest where
  table := by simp [demoTable, demoNames, actOf, demoDest]
  inj := by intro s t h; cases s <;> cases t <;> first | rfl | cases h
  good := good_of (by decide +kernel) (by decide +kernel) (by decide +kernel)
  dashes := rfl

def sqlDest : SqlSetting → SqlDest
  | .output => .output
  | .inputs => .inputs
  | .results => .results
  | .stem => .stem
  | .complex => .complex

instance : Fits sqlTable sqlNames (fun s => s = .complex) sqlDest where
  table := by simp [sqlTable, sqlNames, actOf, sqlDest]
  inj := by intro s t h; cases s <;> cases t <;> first | rfl | cases h
  good := good_of (by decide +kernel) (by decide +kernel) (by decide +kernel)
  dashes := rfl

def logsDest : LogsSetting → LogsDest
  | .dir => .filepath
  | .report => .outpath
  | .force => .force

instance : Fits logsTable logsNames (fun s => s = .force) logsDest where
  table := by simp [logsTable, logsNames, actOf, logsDest]
  inj := by intro s t h; cases s <;> cases t <;> first | rfl | cases h
  good := good_of (by decide +kernel) (by decide +kernel) (by decide +kernel)
  dashes := rfl

theorem switch_given {S : Type} [DecidableEq S] (gs : List (S × Str)) (s : S) (b : Bool) : ((lastOf gs s).map fun _ => true).getD false = b ↔ (b = true ↔ Given gs s) := by
  rw [← lastOf_some_iff]
  cases lastOf gs s <;> cases b <;> simp

end Sorcha.Cmd
