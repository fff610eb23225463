import Verif.Setup.StartProps

/-!
# C69 and C70: what goes wrong, and cases that meet the hypotheses
-/

namespace Sorcha.Setup.Props

open Spec (Proper Plain Downloaded kept codesAfter kernelFile History)

/-- C69 (silent) fails: when a download does not succeed, the exception is lost. If, say, the file of the planets is the only one missing and cannot be
downloaded, the command ends normally all the same; it only prints the name of the file. -/
theorem C69_silent_fails {a : Aux} {nets : Nets} {unpack : List Char → List Char} {dir : List Char} {c c' : Cache} {e : End} (hp : Proper a)
    (hd : Plain a dir) (hc : c a.jplPlanets = none) (hall : ∀ f ∈ a.dataFileList, f ≠ a.jplPlanets → c f ≠ none)
    (hn1 : nets.download a.jplPlanets = none) (hn2 : nets.build a.jplPlanets = none) (h : Bootstrap a nets unpack dir false c e c') (hk : e ≠ .killed) :
    c' a.jplPlanets = none ∧ ∃ m, e = .normal m ∧ a.jplPlanets ∈ m := by
  have hj : Downloaded a a.jplPlanets := runFiles_downloaded hp _ (by simp [runFiles])
  have hlost : c' a.jplPlanets = none := by
    rcases plain_states hp hd h with rfl | ⟨s, t, hr, rfl, ht⟩
    · exact hc
    · rcases (after_begin hp hd hr ht).2.1 _ hj with h' | ⟨-, h' | h'⟩
      · rw [h', hc]
      · rw [h', hn1]
      · rw [h', hn2]
  refine ⟨hlost, ?_⟩
  rcases ended h hk with ⟨-, hm, -⟩ | ⟨h', -⟩ | ⟨c₁, s, hb, hr, hf, rfl, he⟩
  · exact absurd hc ((missing_nil c).1 hm _ hj.1)
  · cases h'
  · cases begins_false hb
    rcases he with ⟨-, he⟩ | ⟨⟨er, he⟩, -⟩
    · exact ⟨_, he, (missing_iff _ _).2 ⟨hj.1, hlost⟩⟩
    · have hok := (buildMeta_spec (a := a) (net := nets.build) hp hd s.cache).2.2 fun k hk => .inl (by
        have hkd := (toDownload_iff hp k).1 (kernels_downloaded a k hk)
        have hne : k ≠ a.jplPlanets := by
          have hn := hp.nodup
          simp only [Aux.dataFileList, List.nodup_cons, List.mem_cons, not_or, List.not_mem_nil] at hn
          simp only [Aux.kernels, List.mem_cons, List.not_mem_nil, or_false] at hk
          rcases hk with rfl | rfl | rfl | rfl | rfl | rfl <;> simp_all [eq_comm]
        obtain ⟨x, hx⟩ := Option.ne_none_iff_exists'.1 (hall k hkd.1 hne)
        rw [(finished_cache hp hr hf).1 k hkd, kept_some hx]
        simp)
      rw [hok] at he
      cases he

/-- A network that gives every file. -/
def works : Net := fun f => some f.toList

/-- The same in all three parts of the command. -/
def allWork : Nets := ⟨works, works, works⟩

/-- The usual directory. -/
def userDir : List Char := "/home/user/.cache/sorcha".toList

/-- C69 (truncated) fails: a bootstrap killed while the observatory codes are unpacked leaves only a beginning of them; all later bootstraps that are not
forced keep it, although they end normally and report nothing. -/
theorem C69_truncated_fails : ∃ (c₁ : Cache), Bootstrap {} allWork id userDir false (fun _ => none) .killed c₁ ∧
    (∃ e c₂, e ≠ .killed ∧ Bootstrap {} allWork id userDir false c₁ e c₂) ∧
    ∀ e c₂, Bootstrap {} allWork id userDir false c₁ e c₂ → e ≠ .killed →
      e = .normal [] ∧ c₂ "ObsCodes.json.gz" = some "ObsCodes.json.gz".toList ∧ c₂ "ObsCodes.json" = some [] := by
  let s0 : Par := ⟨fun _ => none, fun _ => .waiting⟩
  let s1 := advance {} works id "ObsCodes.json.gz" s0
  let s2 := advance {} works id "ObsCodes.json.gz" s1
  have hz : "ObsCodes.json.gz" ∈ ({} : Aux).toDownload := by decide
  have hr : Runs {} works id s0 s2 := .step _ (.step _ .start hz) hz
  have h1 : s2.cache "ObsCodes.json.gz" = some "ObsCodes.json.gz".toList := by decide +kernel
  have h2 : s2.cache "ObsCodes.json" = some [] := by decide +kernel
  have h3 : s2.cache "de440s.bsp" = none := by decide +kernel
  have hmiss : missing {} (fun _ => none) ≠ [] := by decide
  refine ⟨s2.cache, .downloadKilled (.inr ⟨rfl, hmiss, rfl⟩) hr, ?_, ?_⟩
  · obtain ⟨e, c₂, he, hb⟩ := C69_ends {} allWork id userDir false s2.cache
    exact ⟨e, c₂, he, hb⟩
  · intro e c₂ h hk
    obtain ⟨k1, k2, k3, -, -, -⟩ := C69_complete proper_default plain_default h hk ⟨"de440s.bsp", by decide, h3⟩ fun f _ _ => by simp [allWork, works]
    refine ⟨k1, ?_, ?_⟩
    · have := k2 "ObsCodes.json.gz" ((toDownload_iff proper_default _).1 hz)
      rw [this]
      exact kept_some h1
    · have h1' : s2.cache ({} : Aux).observatoryCodesCompressed = some "ObsCodes.json.gz".toList := h1
      have h2' : s2.cache ({} : Aux).observatoryCodes = some [] := h2
      change c₂ ({} : Aux).observatoryCodes = some []
      rw [k3]
      simp only [codesAfter, h1', h2']

/-- C70 (stale) fails: the meta-kernel is not made anew when the configured names of the kernels change: a run that is to use the new leap seconds gives SPICE
the meta-kernel with the old ones. -/
theorem C70_stale_fails : ∃ l c, startRun {} works id userDir (fun _ => none) = .ok (l, c) ∧
    ∃ l' c', startRun { leapSeconds := "naif0013.tls" } works id userDir c = .ok (l', c') ∧ l'.metaKernel = kernelFile {} userDir ∧
      l'.metaKernel ≠ kernelFile { leapSeconds := "naif0013.tls" } userDir := by
  have hp' : Proper { leapSeconds := "naif0013.tls" } := ⟨by decide +kernel, by decide +kernel, by decide +kernel⟩
  have hd' : Plain { leapSeconds := "naif0013.tls" } userDir := by
    refine ⟨by decide, ?_⟩
    intro k hk x y h
    have hsub : userDir <:+: '/' :: k.toList := ⟨x, y, h.symm⟩
    have hex : ∀ k ∈ [({ leapSeconds := "naif0013.tls" } : Aux).leapSeconds, ({} : Aux).earthHistorical, ({} : Aux).earthPredict,
        ({} : Aux).orientationConstants, ({} : Aux).planetEphemeris, ({} : Aux).earthHighPrecision], ¬ userDir <:+: '/' :: k.toList := by
      decide +kernel
    exact hex k hk hsub
  obtain ⟨⟨l, c⟩, h⟩ := (C70_starts (net := works) (unpack := id) (c := fun _ => none) proper_default plain_default).2
    ⟨fun f _ => .inr (by simp [works]), .inr (.inr (by simp [works]))⟩
  obtain ⟨⟨l', c'⟩, h'⟩ := (C70_starts (net := works) (unpack := id) (c := c) hp' hd').2
    ⟨fun f _ => .inr (by simp [works]), .inr (.inr (by simp [works]))⟩
  refine ⟨l, c, h, l', c', h', ?_⟩
  have hm : c ({} : Aux).metaKernel = some (kernelFile {} userDir) := by
    obtain ⟨-, ⟨h2, h2'⟩, -⟩ := (startRun_spec proper_default plain_default _).1 l c h
    rcases h2' with ⟨-, h2'⟩ | h2'
    · rw [h2, h2']
      rfl
    · cases h2'
  have hl : l'.metaKernel = kernelFile {} userDir := by
    obtain ⟨-, -, h3, -⟩ := C70_loads hp' hd' h'
    rw [h3]
    change (c ({} : Aux).metaKernel).getD _ = _
    rw [hm]
    rfl
  refine ⟨hl, ?_⟩
  rw [hl]
  decide +kernel

/-! ## Concrete cases -/

/-- A cache with all data files. -/
def fullCache : Cache := fun f => if f ∈ ({} : Aux).dataFileList then some "old".toList else none

theorem fullCache_full : ∀ f ∈ ({} : Aux).dataFileList, fullCache f ≠ none := by
  intro f hf
  simp [fullCache, hf]

/-- C69 (schedule, no deadlock): the nine downloads can be run to their end from the empty cache. -/
example : ∃ s, Runs {} works id ⟨fun _ => none, fun _ => .waiting⟩ s ∧ Finished {} s ∧ s.cache "ObsCodes.json" = some "ObsCodes.json.gz".toList := by
  obtain ⟨s, -, h1, h2⟩ := C69_progress (a := {}) (net := works) (unpack := id) (c := fun _ => none) .start
  refine ⟨s, h1, h2, ?_⟩
  have := (C69_schedule proper_default h1 h2).2.1
  change s.cache ({} : Aux).observatoryCodes = _
  rw [this]
  rfl

/-- C69 (complete): a bootstrap of the empty cache. -/
example : ∃ c', Bootstrap {} allWork id userDir false (fun _ => none) (.normal []) c' ∧ c' "de440s.bsp" = some "de440s.bsp".toList ∧
    c' "meta_kernel.txt" = some (kernelFile {} userDir) := by
  obtain ⟨e, c', hk, h⟩ := C69_ends {} allWork id userDir false (fun _ => none)
  obtain ⟨rfl, h2, h3, h4, -⟩ := C69_complete proper_default plain_default h hk ⟨"de440s.bsp", by decide, rfl⟩ fun f _ _ => by simp [allWork, works]
  exact ⟨c', h, by rw [h2 "de440s.bsp" (by rw [← toDownload_iff proper_default]; decide)]; rfl, h4⟩

/-- C69 (keeps): one file is missing; the planets are kept though the network has a new file of that name. -/
example : ∃ c', Bootstrap {} allWork id userDir false (fullCache.remove "naif0012.tls") (.normal []) c' ∧
    c' "linux_p1550p2650.440" = some "old".toList ∧ c' "naif0012.tls" = some "naif0012.tls".toList := by
  obtain ⟨e, c', hk, h⟩ := C69_ends {} allWork id userDir false (fullCache.remove "naif0012.tls")
  obtain ⟨rfl, h2, -⟩ := C69_complete proper_default plain_default h hk ⟨"naif0012.tls", by decide, by decide⟩ fun f _ _ => by simp [allWork, works]
  refine ⟨c', h, C69_keeps proper_default plain_default h (by decide) (by decide) (by decide), ?_⟩
  rw [h2 "naif0012.tls" (by rw [← toDownload_iff proper_default]; decide)]
  decide +kernel

/-- C69 (forced): a forced bootstrap of the full cache. -/
example : ∃ c', Bootstrap {} allWork id userDir true fullCache (.normal []) c' ∧ c' "linux_p1550p2650.440" = some "linux_p1550p2650.440".toList := by
  obtain ⟨e, c', hk, h⟩ := C69_ends {} allWork id userDir true fullCache
  obtain ⟨rfl, h2, -⟩ := C69_force proper_default plain_default h hk fullCache_full fun f _ => by simp [allWork, works]
  exact ⟨c', h, by rw [h2 _ (by rw [← toDownload_iff proper_default]; decide)]; rfl⟩

/-- C69 (forced) fails: a forced bootstrap of the empty cache with a working network ends with an exception. -/
example : ∃ c', Bootstrap {} allWork id userDir true (fun _ => none) .raised c' := by
  obtain ⟨e, c', hk, h⟩ := C69_ends {} allWork id userDir true (fun _ => none)
  cases e with
  | killed => exact absurd rfl hk
  | raised => exact ⟨c', h⟩
  | normal m => exact absurd h (C69_force_fails proper_default (.inl rfl))

/-- C69 (recovery): a bootstrap killed at once, another forced one that raises, then a good one. -/
example : ∃ c e c', History {} id (fun _ _ => True) (fun _ => none) c ∧ Bootstrap {} allWork id userDir false c e c' ∧ e = .normal [] := by
  obtain ⟨e, c, hk, h⟩ := C69_ends {} allWork id userDir true (fun _ => none)
  obtain ⟨e', c', hk', h'⟩ := C69_ends {} allWork id userDir false c
  have hh : History {} id (fun _ _ => True) (fun _ => none) c := .next userDir true allWork (.next userDir false allWork .start plain_default (fun _ _ _ => trivial)
    .early) plain_default (fun _ _ _ => trivial) h
  exact ⟨c, e', c', hh, h', (C69_recovers proper_default plain_default hh h' hk' fun f _ _ => ⟨f.toList, rfl, trivial⟩).1⟩

/-- C70 (offline): with the full cache a run starts without network. -/
example : ∃ l, startRun {} (fun _ => none) id userDir fullCache = .ok (l, fullCache) ∧ l.planets = "old".toList := by
  obtain ⟨l, h1, -, h2, -⟩ := C70_offline (unpack := id) proper_default plain_default fullCache_full (fun _ => none)
  refine ⟨l, h1, ?_⟩
  have : fullCache ({} : Aux).jplPlanets = some "old".toList := by decide
  rw [this] at h2
  injection h2 with h2
  exact h2.symm

/-- C70 (same data): a first run downloads the files, a second one without network loads the same. -/
example : ∃ l c, startRun {} works id userDir (fun _ => none) = .ok (l, c) ∧ startRun {} (fun _ => none) id userDir c = .ok (l, c) := by
  obtain ⟨⟨l, c⟩, h⟩ := (C70_starts (net := works) (unpack := id) (c := fun _ => none) proper_default plain_default).2
    ⟨fun f _ => .inr (by simp [works]), .inr (.inr (by simp [works]))⟩
  exact ⟨l, c, h, C70_same proper_default plain_default h _⟩

/-- C70 (starts): without network and cache no run starts. -/
example : ¬ ∃ r, startRun {} (fun _ => none) id userDir (fun _ => none) = .ok r := by
  intro h
  obtain ⟨h, -⟩ := (C70_starts proper_default plain_default).1 h
  rcases h "naif0012.tls" (by decide) with h | h <;> exact h rfl

end Sorcha.Setup.Props
