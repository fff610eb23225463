import Mathlib.Algebra.Order.Field.Rat
import Mathlib.Data.Rat.Floor
import Mathlib.Data.List.Sort

/-!
# Model of the SSP linking code

Models `src/sorcha/modules/PPMiniDifi.py` (`hasTracklet`, `trackletsInNights`, `discoveryOpportunities`,
`linkObject`, `linkObservations`) and `src/sorcha/modules/PPLinkingFilter.py` (`PPLinkingFilter`).

Conventions used throughout this file.

* Floats are rationals (no rounding, no NaN in times or positions).
* The haversine separation is a parameter `sep` (modelled separately in `Verif/Geom`).
* `numpy.argsort` (default kind, not stable) is a parameter `sortT` of which only "sorted permutation" is ever used.
* `default_rng(seed)`, where the seed is a hash of the object's sorted RA values, is a parameter
  `draws : List ℚ → ℕ → ℚ` (RA values ↦ the stream of `uniform` numbers).
* `np.random.rand` inside the numba-compiled `discoveryOpportunities` is a parameter `w : ℕ → ℚ` (weights).
-/

namespace Sorcha.Linking

/-- One row handed to the linker.  PPMiniDifi.py:283-294 / PPLinkingFilter.py:67-75
(`diaSourceId`, `midPointTai`, `ra`, `decl`). -/
structure Obs where
  src : ℕ
  mjd : ℚ
  ra  : ℚ
  dec : ℚ
deriving DecidableEq, Repr

/-- The ways in which the linking code can raise. -/
inductive Err
  | notChronological   -- PPMiniDifi.py:88
  | nightBoundary      -- PPMiniDifi.py:312-314 (assert)
  | badWindow          -- PPMiniDifi.py:209 (shape mismatch when window = 0)
  | emptyMin           -- PPMiniDifi.py:205/343 (min / argmin of an empty array)
  | asterisk           -- PPMiniDifi.py:346-348 (assert)
  | encoding           -- PPLinkingFilter.py:77-80 (UnicodeEncodeError)
deriving DecidableEq, Repr

/-- The linking parameters as passed to `linkObject` (PPMiniDifi.py:246-248, PPLinkingFilter.py:84-95):
`maxdt` is `maximum_time` in days (the code converts days → minutes → days), `minlen` is the
separation threshold in the unit of `sep` (the code divides arcsec by 3600), `nightStart` is
`night_start_utc / 24`. -/
structure Cfg where
  maxdt : ℚ
  minlen : ℚ
  minObs : ℕ
  window : ℕ
  nlink : ℕ
  p : ℚ
  nightStart : ℚ
  sep : ℚ → ℚ → ℚ → ℚ → ℚ

/-- `np.all(mjd[:-1] <= mjd[1:])`, PPMiniDifi.py:87. -/
def chronological (mjd : List ℚ) : Bool :=
  (mjd.zip mjd.tail).all fun ab => decide (ab.1 ≤ ab.2)

/-- `hasTracklet`, PPMiniDifi.py:48-103.  The two nested `for` loops with an early `return True` are `any`. -/
def hasTracklet (c : Cfg) (obs : List Obs) : Except Err Bool :=
  if obs.length < c.minObs then .ok false
  else if !chronological (obs.map (·.mjd)) then .error .notChronological
  else if c.minObs = 1 then .ok true
  else .ok <| (List.range obs.length).any fun i => (List.range obs.length).any fun j =>
    match obs[i]?, obs[j]? with
    | some a, some b =>
      let diff := a.mjd - b.mjd
      if 0 < diff ∧ diff < c.maxdt then
        if c.minlen < c.sep a.ra a.dec b.ra b.dec then
          decide ((c.minObs : ℤ) ≤ (i + 1 : ℤ) - j)
        else false
      else false
    | _, _ => false

/-- `np.unique` of integers: the distinct values in increasing order. -/
def unique (xs : List ℤ) : List ℤ := xs.dedup.insertionSort (· ≤ ·)

/-- `np.searchsorted(a, v, side="right")` on a sorted array: the number of elements `≤ v`. -/
def searchRight (a : List ℤ) (v : ℤ) : ℕ := a.countP fun x => decide (x ≤ v)

/-- `np.searchsorted(a, v)` (side="left") on a sorted array: the number of elements `< v`. -/
def searchLeft (a : List ℤ) (v : ℤ) : ℕ := a.countP fun x => decide (x < v)

/-- Python slice `a[b:e]` for `0 ≤ b`, `0 ≤ e`. -/
def slice {α} (a : List α) (b e : ℕ) : List α := (a.take e).drop b

/-- The `for k, e in enumerate(i)` loop of `trackletsInNights`, PPMiniDifi.py:150-154, with the running lower
bound `b`. -/
def trackletLoop (c : Cfg) (obs : List Obs) : ℕ → List ℕ → Except Err (List Bool)
  | _, [] => .ok []
  | b, e :: es => do
    let h ← hasTracklet c (slice obs b e)
    let hs ← trackletLoop c obs e es
    return h :: hs

/-- `trackletsInNights`, PPMiniDifi.py:107-156. -/
def trackletsInNights (c : Cfg) (night : List ℤ) (obs : List Obs) : Except Err (List ℤ × List Bool) := do
  let nights := unique night
  let i := nights.map (searchRight night)
  let hasTrk ← trackletLoop c obs 0 i
  return (nights, hasTrk)

/-- `arr = np.zeros(n); arr[idx] = vals`, PPMiniDifi.py:206-207, 225-226. -/
def scatter {α} [Zero α] (n : ℕ) (idx : List ℕ) (vals : List α) : List α :=
  (idx.zip vals).foldl (fun a iv => a.set iv.1 iv.2) (List.replicate n 0)

/-- `arr.cumsum()` with running total, PPMiniDifi.py:208, 228. -/
def cumsumFrom {α} [Add α] (s : α) : List α → List α
  | [] => []
  | x :: xs => (s + x) :: cumsumFrom (s + x) xs

/-- `arr[window:] -= arr[:-window].copy()` for `1 ≤ window < len(arr)`, PPMiniDifi.py:209, 229. -/
def windowDiff {α} [Zero α] [Sub α] (w : ℕ) (a : List α) : List α :=
  a.mapIdx fun t x => if w ≤ t then x - a.getD (t - w) 0 else x

/-- `arr2[arr2 != 0] = rand(k)`, PPMiniDifi.py:227: the `k`-th non-zero entry gets the `k`-th number. -/
def fillNonzero (w : ℕ → ℚ) : ℕ → List ℚ → List ℚ
  | _, [] => []
  | k, x :: xs => if x ≠ 0 then w k :: fillNonzero w (k + 1) xs else x :: fillNonzero w k xs

/-- `a[1:] -= a[:-1].copy()`, PPMiniDifi.py:231. -/
def adjDiffFrom (prev : ℚ) : List ℚ → List ℚ
  | [] => []
  | x :: xs => (x - prev) :: adjDiffFrom x xs

/-- `nonzero()[0]` of a list of booleans: the indices of the true entries, increasing. -/
def nonzeroIdx (bs : List Bool) : List ℕ :=
  (List.range bs.length).filter fun i => bs.getD i false

/-- Boolean-mask indexing `a[mask]`. -/
def maskBy {α} (a : List α) (m : List Bool) : List α :=
  ((a.zip m).filter (·.2)).map (·.1)

/-- The body of the `nlink > 1` branch of `discoveryOpportunities`, PPMiniDifi.py:204-232. -/
def discWindow (nights : List ℤ) (has : List Bool) (window nlink : ℕ) (w : ℕ → ℚ) :
    Except Err (List ℤ) :=
  match nights.min?, nights.max? with
  | some n0, some nmax =>
    if window = 0 then .error .badWindow
    else
      let n1 : ℤ := nmax + window
      let nlen := (n1 - n0 + 1).toNat
      let idx := nights.map fun n => (n - n0).toNat
      let arr : List ℤ := scatter nlen idx (has.map fun b => if b then 1 else 0)
      let arr := windowDiff window (cumsumFrom 0 arr)
      let disc : List ℕ := nonzeroIdx (arr.map fun x => decide ((nlink : ℤ) ≤ x))
      let arr2 : List ℚ := scatter nlen idx (has.map fun b => if b then 1 else 0)
      let arr2 := fillNonzero w 0 arr2
      let arr2 := windowDiff window (cumsumFrom 0 arr2)
      let sel := disc.map fun d => arr2.getD d 0
      let sel := adjDiffFrom 0 sel
      .ok (maskBy (disc.map fun d : ℕ => (d : ℤ) + n0) (sel.map fun x => decide (x ≠ 0)))
  | _, _ => .error .emptyMin

/-- The discovery nights offered (`disc`), both branches of `discoveryOpportunities`, PPMiniDifi.py:194-236. -/
def offeredNights (nights : List ℤ) (has : List Bool) (window nlink : ℕ) (w : ℕ → ℚ) : Except Err (List ℤ) :=
  if 1 < nlink then discWindow nights has window nlink w
  else .ok (maskBy nights has)

/-- `discoveryOpportunities`, PPMiniDifi.py:160-243.  `u k` is the `k`-th number of `rng.uniform`;
the index `-1` of the code is `none`. -/
def discoveryOpportunities (nights : List ℤ) (has : List Bool) (window nlink : ℕ) (p : ℚ)
    (w : ℕ → ℚ) (u : ℕ → ℚ) : Except Err (Option ℕ × List ℤ) := do
  let disc ← offeredNights nights has window nlink w
  let discN := nonzeroIdx ((List.range disc.length).map fun k => decide (u k < p))
  return (discN.head?, disc)

/-- `tshift.astype(int)`: truncation towards zero. PPMiniDifi.py:310. -/
def truncInt (x : ℚ) : ℤ := if 0 ≤ x then ⌊x⌋ else ⌈x⌉

/-- Index of the first smallest element (`np.argmin`); `none` on an empty array (numpy raises). -/
def argmin? : List ℚ → Option ℕ
  | [] => none
  | x :: xs => match argmin? xs with
    | none => some 0
    | some k => if x ≤ xs.getD k 0 then some 0 else some (k + 1)

/-- What `linkObject` returns: `(discoveryObservationId, discoverySubmissionDate, discoveryChances)`;
a date of `none` stands for the NaN default. PPMiniDifi.py:296-298. -/
structure Link where
  obsId : ℕ
  date : Option ℤ
  chances : ℕ
deriving DecidableEq, Repr

/-- The default result. PPMiniDifi.py:296-298. -/
def Link.default : Link := ⟨0xFFFFFFFFFFFFFFFF, none, 0⟩

/-- `linkObject` after the `argsort`, PPMiniDifi.py:304-352. -/
def linkSorted (c : Cfg) (w : ℕ → ℚ) (draws : List ℚ → ℕ → ℚ) (obs : List Obs) : Except Err Link := do
  let tshift := obs.map fun o => o.mjd - c.nightStart
  let night := tshift.map truncInt
  let phased := tshift.map fun t => t - truncInt t
  if !phased.all (fun f => decide ((1 : ℚ) / 10 < f ∧ f < 9 / 10)) then throw .nightBoundary
  let (nights, hasTrk) ← trackletsInNights c night obs
  let (discIdx, discNights) ←
    discoveryOpportunities nights hasTrk c.window c.nlink c.p w (draws (obs.map (·.ra)))
  match discIdx with
  | none => return Link.default
  | some d =>
    match discNights[d]? with
    | none => return Link.default    -- unreachable: `d` indexes `discNights` (theorem `discIdx_lt`)
    | some date =>
      let i := searchLeft night (date - c.window + 1)
      let j := searchLeft night (date + 1)
      match argmin? ((slice obs i j).map (·.mjd)) with
      | none => throw .emptyMin
      | some k' =>
        match obs[i + k']? with
        | none => throw .emptyMin
        | some o =>
          if truncInt (o.mjd - c.nightStart) + c.window > date then
            return ⟨o.src, some date, discNights.length⟩
          else throw .asterisk

/-- `linkObject`, PPMiniDifi.py:246-352. -/
def linkObject (sortT : List Obs → List Obs) (c : Cfg) (w : ℕ → ℚ) (draws : List ℚ → ℕ → ℚ)
    (obs : List Obs) : Except Err Link :=
  if obs.length ≠ 0 then linkSorted c w draws (sortT obs) else .ok Link.default

/-- One row of the observation table as far as linking is concerned; `rest` stands for all other
columns, which are carried along. PPLinkingFilter.py:67-75. -/
structure Row (ρ : Type) where
  objId : String
  obs : Obs
  rest : ρ
deriving DecidableEq, Repr

/-- `linkObservations`, PPMiniDifi.py:355-449: stable argsort by object id, split at the first occurrence of each
object, link each group.  `np.unique` returns the ids in increasing order; group `k` consists of the rows of that
object in input order (stability).  The weights `w` may differ from object to object: `w id`. -/
def linkObservations {ρ} (sortT : List Obs → List Obs) (c : Cfg) (w : String → ℕ → ℚ)
    (draws : List ℚ → ℕ → ℚ) (rows : List (Row ρ)) : Except Err (List (String × Link)) :=
  let ids := (rows.map (·.objId)).dedup.insertionSort (· ≤ ·)
  ids.mapM fun id => do
    let l ← linkObject sortT c (w id) draws ((rows.filter fun r => r.objId == id).map (·.obs))
    return (id, l)

/-- A row of the output of `PPLinkingFilter`: the input row plus `object_linked` and `date_linked_MJD`
(`none` = NaN). PPLinkingFilter.py:100, 107-112. -/
structure OutRow (ρ : Type) where
  row : Row ρ
  linked : Bool
  date : Option ℤ
deriving DecidableEq, Repr

/-- `to_records` with an `S…` type for the object IDs, PPLinkingFilter.py:76-80: numpy turns them into ASCII bytes and
raises for an ID with another character. (Decoding the bytes, line 111, gives the IDs back; IDs that end in a zero
character are left out.) -/
def encodable (id : String) : Bool := id.toList.all fun c => decide (c.toNat < 128)

/-- `PPLinkingFilter`, PPLinkingFilter.py:5-115.  `sortOut` is `sort_values("fieldMJD_TAI")` (any sorted
permutation).  `pd.merge(..., on="ObjID")` is the inner join with the per-object results. -/
def linkingFilter {ρ} (sortT : List Obs → List Obs) (sortOut : List (OutRow ρ) → List (OutRow ρ))
    (c : Cfg) (w : String → ℕ → ℚ) (draws : List ℚ → ℕ → ℚ) (dropUnlinked : Bool)
    (rows : List (Row ρ)) : Except Err (List (OutRow ρ)) := do
  if !rows.all (fun r => encodable r.objId) then throw .encoding
  let obj ← linkObservations sortT c w draws rows
  let objsFound := (obj.filter fun r => r.2.date.isSome).map (·.1)
  let flagged := rows.map fun r => (r, objsFound.contains r.objId)
  let kept := if dropUnlinked then flagged.filter (·.2) else flagged
  let merged := kept.flatMap fun rb =>
    (obj.filter fun o => o.1 == rb.1.objId).map fun o => (⟨rb.1, rb.2, o.2.date⟩ : OutRow ρ)
  return sortOut merged

end Sorcha.Linking
