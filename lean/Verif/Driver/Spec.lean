import Verif.Driver.Model

/-! # Specification: what the ephemeris generator should produce -/

namespace Sorcha.Driver.Spec

variable {K U R S V G C : Type} [Field K] [LinearOrder K]

/-- The library iterates a set over its elements, each once. -/
def Iterates (E : Env K U R S V G) : Prop := ∀ l, (E.order l).Perm l

/-- States of an integrator that calls can lead to from `s`. -/
inductive Reach (E : Env K U R S V G) (s : S) : S → Prop
  | start : Reach E s s
  | next {a : S} (t : K) (r : U) : Reach E s a → Reach E s (E.step a t r).2

/-- An integrator started in `s` answers each question the same however often it was asked before; `pos` are its answers. -/
def Answers (E : Env K U R S V G) (s : S) (pos : K → U → R) : Prop := ∀ a, Reach E s a → ∀ t r, (E.step a t r).1 = pos t r

/-- The direction of an object with answers `pos` at time `t`, as seen from the observatory. -/
def direction (E : Env K U R S V G) (pos : K → U → R) (t : K) : U := E.dir (pos (t - E.jdRef) (E.obs t))

/-- The three reference times around `τ`, and an object's directions then. -/
def around (E : Env K U R S V G) (τ : K) : K × K × K := (τ - E.interval, τ, τ + E.interval)
def directions (E : Env K U R S V G) (pos : K → U → R) (τ : K) : U × U × U :=
  (direction E pos (τ - E.interval), direction E pos τ, direction E pos (τ + E.interval))

/-- What the integrator answers for the visit. -/
def atVisit (E : Env K U R S V G) (pos : K → U → R) (w : Pointing.Visit V) : R := pos (E.jd w - E.jdRef) (E.rObs w)

/-- The object is found in visit `w` with the directions at the reference times around `τ`: it traverses a pixel of the field (of radius `fov`), and its interpolated
direction and its direction at the time of the visit are within `fov + buffer` of the centre. -/
def Found (E : Env K U R S V G) (pos : K → U → R) (w : Pointing.Visit V) (τ : K) : Prop :=
  (∃ p ∈ E.field w E.fov, p ∈ E.traversed (around E τ) (directions E pos τ)) ∧
    E.ang (E.interp (around E τ) (directions E pos τ) (E.jd w)) w < E.fov + E.buffer ∧ E.ang (E.dir (atVisit E pos w)) w < E.fov + E.buffer

/-- The row of object `k` for visit `w`. -/
def rowFor (E : Env K U R S V G) (k : String) (pos : K → U → R) (w : Pointing.Visit V) : Pointing.Obs G :=
  ⟨k, w.id, w.mid, E.geometry w (atVisit E pos w)⟩

end Sorcha.Driver.Spec
