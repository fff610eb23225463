import Mathlib.Data.List.Basic
import Mathlib.Data.List.Nodup
import Mathlib.Data.Nat.Notation

/-!
# Model of the choice of light curve and activity models

activity/activity_registration.py and lightcurves/lightcurve_registration.py, which are the same text for two base classes; the checks of the
LIGHTCURVE and ACTIVITY sections of the configuration; and the places where the chosen model is called.

Simplifications. A class is given by the name its `name_id` returns, by whether it derives directly from the base class, and by what `M` stands
for: its code. Classes are never removed (Python forgets a class nothing refers to any more).
-/

namespace Sorcha.Addons

variable {M : Type}

/-- A class derived from the base class: its name, whether the base class is its immediate parent, the number of arguments of `compute` and of
`maxBrightness` (`none`: there is no such method), and its code. -/
structure Cls (M : Type) where
  name : String
  direct : Bool
  computeArgs : ℕ
  maxArgs : Option ℕ
  code : M
deriving DecidableEq, Repr

/-- The dictionary `CA_METHODS` or `LC_METHODS`, in the order of insertion. -/
abbrev Registry (M : Type) := List (String × Cls M)

/-- `name in CA_METHODS`. -/
def has (r : Registry M) (n : String) : Bool := r.any fun p => p.1 = n

/-- `CA_METHODS.get(name)`. -/
def get (r : Registry M) (n : String) : Option (Cls M) := (r.find? fun p => p.1 = n).map (·.2)

/-- `AbstractCometaryActivity.__subclasses__()`: the immediate subclasses, in the order of their definition. -/
def subclasses (cs : List (Cls M)) : List (Cls M) := cs.filter (·.direct)

/-- The loop of `register_activity_subclasses`, activity_registration.py:23-33 (lightcurve_registration.py:23-33); `none`: `ValueError`. -/
def registerLoop (r : Registry M) : List (Cls M) → Option (Registry M)
  | [] => some r
  | c :: cs => if has r c.name then none else registerLoop (r ++ [(c.name, c)]) cs

/-- `register_activity_subclasses`, activity_registration.py:5-33; called at import, :46. -/
def register (cs : List (Cls M)) : Option (Registry M) := registerLoop [] (subclasses cs)

/-- The loop of `update_activity_subclasses`, activity_registration.py:40-42 (lightcurve_registration.py:40-42). -/
def updateLoop (r : Registry M) : List (Cls M) → Registry M
  | [] => r
  | c :: cs => updateLoop (if has r c.name then r else r ++ [(c.name, c)]) cs

/-- `update_activity_subclasses`, activity_registration.py:36-42. -/
def update (r : Registry M) (cs : List (Cls M)) : Registry M := updateLoop r (subclasses cs)

/-- What happens to a Python session: a class is defined, or the registry is updated (by the user, or at the start of a run, run.py:166-167). -/
inductive Event (M : Type)
  | define (c : Cls M)
  | update

/-- A Python session: the classes defined so far and the registry. -/
structure Session (M : Type) where
  classes : List (Cls M)
  registry : Registry M

def Session.step (s : Session M) : Event M → Session M
  | .define c => ⟨s.classes ++ [c], s.registry⟩
  | .update => ⟨s.classes, Addons.update s.registry s.classes⟩

/-- The session after these events. -/
def Session.after (s : Session M) (es : List (Event M)) : Session M := es.foldl Session.step s

/-- The session after the import of Sorcha, when the classes `cs` have been defined. -/
def start (cs : List (Cls M)) : Option (Session M) := (register cs).map fun r => ⟨cs, r⟩

/-- `lightcurveConfigs` and `activityConfigs`, sorchaConfigs.py:798-806, 831-839: the model to be used, or `none` if the program exits. -/
def choose (r : Registry M) (value : Option String) : Option (Option String) :=
  let choice := if value = some "none" then none else value
  match choice with
  | none => some none
  | some n => if has r n then some (some n) else none

/-- The ways a call fails, as uncaught Python exceptions. -/
inductive CallErr
  | arguments     -- TypeError: wrong number of arguments
  | method        -- AttributeError: no such method
  | missing       -- TypeError: `None` is not callable
deriving DecidableEq, Repr

/-- The use of the light curve model, PPCalculateApparentMagnitudeInFilter.py:135-139: the code that is called, or `none`. -/
def useLightCurve (r : Registry M) (choice : Option String) : Except CallErr (Option M) :=
  match choice with
  | none => .ok none
  | some n =>
    if n = "" then .ok none
    else
      match get r n with
      | none => .ok none
      | some c => if c.computeArgs = 1 then .ok (some c.code) else .error .arguments

/-- The use of the activity model, PPCalculateApparentMagnitudeInFilter.py:144-147 and PPCalculateSimpleCometaryMagnitude.py:40-44. -/
def useActivity (r : Registry M) (choice : Option String) : Except CallErr (Option M) :=
  match choice with
  | none => .ok none
  | some n =>
    if n = "" then .ok none
    else
      match get r n with
      | none => .ok none
      | some c => if c.computeArgs = 5 then .ok (some c.code) else .error .arguments

/-- The use of a model in the faint-object culling, PPFaintObjectCullingFilter.py:78-91: `maxBrightness` gets `args` arguments, one for a light curve
and five for an activity model. -/
def useInCulling (args : ℕ) (r : Registry M) (choice : Option String) : Except CallErr (Option M) :=
  match choice with
  | none => .ok none
  | some n =>
    if n = "" then .ok none
    else
      match get r n with
      | none => .error .missing
      | some c =>
        match c.maxArgs with
        | none => .error .method
        | some k => if k = args then .ok (some c.code) else .error .arguments

/-- The light curve for tests, identity_lightcurve.py:12-48. -/
def identityLightCurve (m : M) : Cls M := ⟨"identity", true, 1, none, m⟩

/-- The activity model for tests, identity_activity.py:11-52. -/
def identityActivity (m : M) : Cls M := ⟨"identity", true, 1, none, m⟩

end Sorcha.Addons
