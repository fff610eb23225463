import Verif.Log.Model

/-!
# What the settings in the log should tell

Independent of how the lines are made: when two configurations agree in what the log is meant to show.
-/

namespace Sorcha.Log.Spec

/-- `str` gives different texts for different numbers, and never "None". -/
structure Faithful (str : Str) : Prop where
  fl : Function.Injective str.fl
  int : Function.Injective str.int
  fls : Function.Injective str.fls
  flNone : ∀ x, str.fl x ≠ "None"
  flsNone : ∀ l, str.fls l ≠ "None"

/-- A name without blanks. -/
def Word (s : String) : Prop := s ≠ "" ∧ ' ' ∉ s.toList

/-- No number, or zero: what Python takes for "not given". -/
def Idle (e : Option Fl) : Prop := e = none ∨ e = some (.fin 0)

/-- The same number, or none on both sides. -/
def SameNumber (e e' : Option Fl) : Prop := e = e' ∨ Idle e ∧ Idle e'

/-- The same text, or none on both sides. -/
def SameText (s s' : Option String) : Prop := s = s' ∨ (s = none ∨ s = some "") ∧ (s' = none ∨ s' = some "")

/-- The same number of decimals, or none on both sides. -/
def SameDecimals (d d' : Option ℤ) : Prop := d = d' ∨ (d = none ∨ d = some 0) ∧ (d' = none ∨ d' = some 0)

/-- The same camera, as far as the log shows it. -/
inductive SameCamera : Config.Fov → Config.Fov → Prop
  | footprint {p p' : Option String} {e e' : Option Fl} : SameText p p' → SameNumber e e' → SameCamera (.footprint p e) (.footprint p' e')
  | circle {f f' r r' : Option Fl} : SameNumber f f' → (Idle f → SameNumber r r') → SameCamera (.circle f r) (.circle f' r')
  | visits {q q' : String} : SameCamera (.visits q) (.visits q')
  | none : SameCamera .none .none

/-- Output columns that can be read back from a text: a single word, or two or more words. -/
def Clear : Config.Columns → Prop
  | .named s => Word s
  | .listed l => 2 ≤ l.length ∧ ∀ w ∈ l, Word w

/-- The settings of two runs agree as far as the log shows them. -/
structure Told (c c' : Config.Cfg) : Prop where
  input : c.input = c'.input
  simulation : c.input.ephemeridesType = "ar" → c.simulation = c'.simulation
  filters : c.filters = c'.filters
  phase : c.phase = c'.phase
  trailing : c.expert.trailing.on = c'.expert.trailing.on
  randomization : c.expert.randomization.on = c'.expert.randomization.on
  vignetting : c.expert.vignetting.on = c'.expert.vignetting.on
  camera : SameCamera c.fov c'.fov
  saturation : c.saturation.on.on = c'.saturation.on.on ∧ (c.saturation.on.on = true → c.saturation.limits = c'.saturation.limits)
  snrLimit : c.expert.snrLimit = c'.expert.snrLimit
  magLimit : c.expert.magLimit = c'.expert.magLimit
  defaultSnrCut : c.expert.defaultSnrCut = c'.expert.defaultSnrCut
  fading : c.fading = c'.fading ∨ ∃ t t', c.fading = .des t ∧ c'.fading = .des t'
  linking : c.linking.ssp = c'.linking.ssp ∧ (c.linking.ssp ≠ none → c.linking.dropUnlinked = c'.linking.dropUnlinked)
  lightcurve : SameText c.lightcurve c'.lightcurve
  activity : c.activity = c'.activity ∨ (∃ m m', m ≠ "comet" ∧ m' ≠ "comet" ∧ c.activity = some m ∧ c'.activity = some m')
  format : c.output.format = c'.output.format
  columns : Clear c.output.columns → Clear c'.output.columns → c.output.columns = c'.output.columns
  posDecimals : SameDecimals c.output.posDecimals c'.output.posDecimals
  magDecimals : SameDecimals c.output.magDecimals c'.output.magDecimals

/-- The command lines of two runs agree as far as the log shows them. -/
structure ToldArgs (a a' : Args) : Prop where
  configfile : a.configfile = a'.configfile
  paramsinput : a.paramsinput = a'.paramsinput
  orbinfile : a.orbinfile = a'.orbinfile
  inputEphemeris : SameText a.inputEphemeris a'.inputEphemeris
  outputEphemeris : SameText a.outputEphemeris a'.outputEphemeris
  survey : a.survey = a'.survey
  pointing : a.pointing = a'.pointing
  main : a.main = a'.main

/-- What the log does not show of the camera agrees too: the radius beside a fill factor, and whether an edge threshold is zero or not given. -/
structure SameHidden (v v' : Config.Fov) : Prop where
  radius : ∀ f r f' r', v = .circle f r → v' = .circle f' r' → SameNumber r r'
  edge : ∀ p e p' e', v = .footprint p e → v' = .footprint p' e' → (e = none ↔ e' = none)

/-- The names of the auxiliary files agree, those of the observatory codes left aside. -/
structure ToldAux (x x' : Aux) : Prop where
  leapSeconds : x.leapSeconds = x'.leapSeconds
  earthHistorical : x.earthHistorical = x'.earthHistorical
  earthPredict : x.earthPredict = x'.earthPredict
  orientation : x.orientation = x'.orientation
  planets : x.planets = x'.planets
  highPrecision : x.highPrecision = x'.highPrecision
  jplPlanets : x.jplPlanets = x'.jplPlanets
  jplSmall : x.jplSmall = x'.jplSmall
  metaKernel : x.metaKernel = x'.metaKernel

end Sorcha.Log.Spec
