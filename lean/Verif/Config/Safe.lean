import Verif.Config.Props
import Verif.Linking.Props

/-!
# An accepted linking section makes the linking well-defined
-/

namespace Sorcha.Config.Props

open Sorcha.Config Sorcha.Config.Spec

/-- **C38** With an accepted LINKINGFILTER section, linking an object whose observations are well inside the nights does not stop, whatever the
random draws: the window and number of tracklets are at least one. -/
theorem C38_linking_safe (py : Py) (survey : String) (s : Sect) (h : (s.map Prod.fst).Nodup) (c : Linking) (hc : linking py survey s = .ok c) (k : Ssp)
    (hk : c.ssp = some k) (cfg : Sorcha.Linking.Cfg) (hw : (cfg.window : Int) = k.window) (hn : (cfg.nlink : Int) = k.nTracklets)
    (sortT : List Sorcha.Linking.Obs → List Sorcha.Linking.Obs) (hsort : Sorcha.Linking.Spec.Sorts sortT) (w : ℕ → ℚ) (draws : List ℚ → ℕ → ℚ)
    (obs : List Sorcha.Linking.Obs) (ho : Sorcha.Linking.Spec.WellPhased cfg obs) : ∃ L, Sorcha.Linking.linkObject sortT cfg w draws obs = .ok L := by
  have hl := (C38_linking py survey s h c).1 hc
  rcases hl.ssp with ⟨k', hk', ho', -⟩ | ⟨hno, -⟩
  · rw [hk] at hk'
    cases hk'
    have h1 : 1 ≤ k.window := ho'.windowB
    have h2 : 1 ≤ k.nTracklets := ho'.trackletsB
    exact (Sorcha.Linking.C04_linkObject_total sortT hsort cfg w draws obs (by omega) (by omega)).1 ho
  · rw [hk] at hno; cases hno

end Sorcha.Config.Props
