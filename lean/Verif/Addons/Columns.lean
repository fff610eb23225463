import Mathlib.Data.List.Basic

/-!
# C106: what the base classes of light curve and activity models do for their subclasses

activity/base_activity.py and lightcurves/base_lightcurve.py.
-/

namespace Sorcha.Addons.Columns

/-- What a call leads to: the messages it writes to the error log, and whether it raises (`some`: the class of the exception and its text). -/
structure Outcome where
  log : List String
  raised : Option (String × String)
deriving DecidableEq, Repr

/-- `_validate_column_names`, base_activity.py:46-50, base_lightcurve.py:46-50: the loop over the required columns. -/
def validate (cols : List String) : List String → Outcome
  | [] => ⟨[], none⟩
  | c :: cs =>
    if c ∈ cols then validate cols cs
    else let msg := "Input dataframe is missing column %" ++ c
      ⟨[msg], some ("ValueError", msg)⟩

/-- An exception: its text, and its attribute `value` as text, which the exceptions of Python do not have unless they define it. -/
structure Exc where
  text : String
  value : Option String
deriving DecidableEq, Repr

/-- `_log_exception` of activity models, base_activity.py:60: `str(exception.value)`. -/
def logActivity (e : Exc) : Outcome :=
  match e.value with
  | some v => ⟨[v], none⟩
  | none => ⟨[], some ("AttributeError", "object has no attribute 'value'")⟩

/-- `_log_exception` of light curve models, base_lightcurve.py:60: `str(exception)`. -/
def logLightcurve (e : Exc) : Outcome := ⟨[e.text], none⟩

namespace Props

/-- C106 (columns): the check lets a table pass, silently, exactly if it has all required columns; otherwise it logs one message and raises a ValueError with the same text,
which names the first required column that is missing. -/
theorem C106_columns (cols required : List String) :
    (validate cols required = ⟨[], none⟩ ↔ ∀ c ∈ required, c ∈ cols) ∧
    (∀ before c after, required = before ++ c :: after → (∀ b ∈ before, b ∈ cols) → c ∉ cols →
      validate cols required = ⟨["Input dataframe is missing column %" ++ c], some ("ValueError", "Input dataframe is missing column %" ++ c)⟩) := by
  constructor
  · induction required with
    | nil => simp [validate]
    | cons c cs ih =>
      unfold validate
      split_ifs with h
      · rw [ih]
        simp [h]
      · simp [h]
  · intro before
    induction before generalizing required with
    | nil =>
      rintro c after rfl - h
      simp [validate, h]
    | cons b bs ih =>
      rintro c after rfl hb h
      rw [List.cons_append]
      unfold validate
      rw [if_pos (hb b (by simp))]
      exact ih _ c after rfl (fun x hx => hb x (by simp [hx])) h

/-- C106 (light curves): a light curve model logs the text of any exception. -/
theorem C106_lightcurve (e : Exc) : logLightcurve e = ⟨[e.text], none⟩ := rfl

/-- **C106 fails** for activity models: logging an exception without an attribute `value`, as those of Python are, raises another one and logs nothing. -/
theorem C106_activity_fails (e : Exc) (h : e.value = none) : (logActivity e).log = [] ∧ ∃ text, (logActivity e).raised = some ("AttributeError", text) := by
  unfold logActivity
  rw [h]
  exact ⟨rfl, _, rfl⟩

example : validate ["ObjID", "H_filter"] ["ObjID", "k", "a1"] = ⟨["Input dataframe is missing column %k"], some ("ValueError", "Input dataframe is missing column %k")⟩ :=
  (C106_columns _ _).2 ["ObjID"] "k" ["a1"] rfl (by simp) (by decide)

example : validate ["ObjID", "H_filter"] ["H_filter"] = ⟨[], none⟩ := (C106_columns _ _).1.2 (by simp)

end Props
end Sorcha.Addons.Columns
