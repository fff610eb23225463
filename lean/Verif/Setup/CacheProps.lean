import Verif.Setup.CacheRuns

/-!
# C69: `sorcha bootstrap`
-/

namespace Sorcha.Setup.Props

open Spec (Proper Plain Downloaded kept codesAfter kernelFile History)

variable {a : Aux} {nets : Nets} {unpack : List Char → List Char} {dir : List Char} {force : Bool} {c c' : Cache} {e : End}

/-- The default names are proper. -/
theorem proper_default : Proper {} := ⟨by decide +kernel, by decide +kernel, by decide +kernel⟩

/-- A usual directory is plain. -/
theorem plain_default : Plain {} "/home/user/.cache/sorcha".toList := by
  refine ⟨by decide, ?_⟩
  intro k hk x y h
  have hl := congrArg List.length h
  have : 24 ≤ ('/' :: k.toList).length := by
    rw [hl]
    simp only [List.length_append]
    have : "/home/user/.cache/sorcha".toList.length = 24 := by decide
    omega
  have hsub : "/home/user/.cache/sorcha".toList <:+: '/' :: k.toList := ⟨x, y, h.symm⟩
  have hex : ∀ k ∈ [({} : Aux).leapSeconds, ({} : Aux).earthHistorical, ({} : Aux).earthPredict, ({} : Aux).orientationConstants,
      ({} : Aux).planetEphemeris, ({} : Aux).earthHighPrecision], ¬ "/home/user/.cache/sorcha".toList <:+: '/' :: k.toList := by
    decide +kernel
  exact hex k hk hsub

/-- C69 (schedule): however the parallel downloads are interleaved, the cache afterwards is the same, namely: each file to download is the one that was there
or else the one the network gave, the observatory codes are those that were there or the ones unpacked from the archive, and nothing else has changed. -/
theorem C69_schedule {net : Net} (hp : Proper a) {s : Par} (h : Runs a net unpack ⟨c, fun _ => .waiting⟩ s) (hf : Finished a s) :
    (∀ f, Downloaded a f → s.cache f = kept net c f) ∧ s.cache a.observatoryCodes = codesAfter a unpack net c ∧
    (∀ f, ¬ Downloaded a f → f ≠ a.observatoryCodes → s.cache f = c f) ∧
    ∀ t : Par, Runs a net unpack ⟨c, fun _ => .waiting⟩ t → Finished a t → t.cache = s.cache := by
  obtain ⟨h1, h2, h3⟩ := finished_cache hp h hf
  refine ⟨h1, h2, h3, ?_⟩
  intro t ht hft
  obtain ⟨g1, g2, g3⟩ := finished_cache hp ht hft
  funext f
  by_cases hd : Downloaded a f
  · rw [h1 f hd, g1 f hd]
  · by_cases hu : f = a.observatoryCodes
    · rw [hu, h2, g2]
    · rw [h3 f hd hu, g3 f hd hu]

/-- C69 (no deadlock): from whatever state the downloads have reached, all of them can still be finished. -/
theorem C69_progress {net : Net} {s : Par} (h : Runs a net unpack ⟨c, fun _ => .waiting⟩ s) :
    ∃ t, Runs a net unpack s t ∧ Runs a net unpack ⟨c, fun _ => .waiting⟩ t ∧ Finished a t := by
  obtain ⟨t, h1, h2⟩ := finish_all (a := a) (net := net) (unpack := unpack) s
  exact ⟨t, h1, runs_trans h h1, h2⟩

theorem missing_iff (c : Cache) (f : String) : f ∈ missing a c ↔ f ∈ a.dataFileList ∧ c f = none := by
  simp [missing]

theorem missing_nil (c : Cache) : missing a c = [] ↔ ∀ f ∈ a.dataFileList, c f ≠ none := by
  rw [List.eq_nil_iff_forall_not_mem]
  constructor
  · intro h f hf hn
    exact h f ((missing_iff c f).2 ⟨hf, hn⟩)
  · intro h f hf
    obtain ⟨h1, h2⟩ := (missing_iff c f).1 hf
    exact h f h1 h2

/-- C69 (nothing to do): if all files are there, the command does nothing unless forced. -/
theorem C69_idle (h : Bootstrap a nets unpack dir false c e c') (hall : ∀ f ∈ a.dataFileList, c f ≠ none) :
    c' = c ∧ (e = .killed ∨ e = .normal []) := by
  have hm := (missing_nil (a := a) c).2 hall
  have hnb : ∀ d, ¬ Begins a nets false c d := by
    rintro d (⟨h, -⟩ | ⟨-, h, -⟩)
    · cases h
    · exact h hm
  cases h with
  | early => exact ⟨rfl, .inl rfl⟩
  | found => exact ⟨rfl, .inr rfl⟩
  | removeKilled hf => cases hf
  | removeRaised hf => cases hf
  | downloadKilled hb => exact absurd hb (hnb _)
  | buildKilled hb => exact absurd hb (hnb _)
  | buildRaised hb => exact absurd hb (hnb _)
  | built hb => exact absurd hb (hnb _)

theorem begins_false {c₁ : Cache} (h : Begins a nets false c c₁) : c₁ = c := by
  rcases h with ⟨h, -⟩ | ⟨-, -, h⟩
  · cases h
  · exact h

/-- The data files: downloaded, made or unpacked. -/
theorem data_cases (hp : Proper a) {f : String} (h : f ∈ a.dataFileList) : Downloaded a f ∨ f = a.metaKernel ∨ f = a.observatoryCodes := by
  by_cases h1 : f = a.metaKernel
  · exact .inr (.inl h1)
  · by_cases h2 : f = a.observatoryCodes
    · exact .inr (.inr h2)
    · exact .inl ⟨h, h1, h2⟩

theorem meta_data (a : Aux) : a.metaKernel ∈ a.dataFileList := by simp [Aux.dataFileList]

theorem codes_data (a : Aux) : a.observatoryCodes ∈ a.dataFileList := by simp [Aux.dataFileList]

theorem gz_spec (hp : Proper a) : Downloaded a a.observatoryCodesCompressed := (toDownload_iff hp _).1 (gz_downloaded a)

/-- The codes while they are unpacked. -/
theorem codes_states {net : Net} (hp : Proper a) {s : Par} (h : Runs a net unpack ⟨c, fun _ => .waiting⟩ s) :
    s.cache a.observatoryCodes = c a.observatoryCodes ∨
    ((c a.observatoryCodesCompressed = none ∨ c a.observatoryCodes = none) ∧
      ∃ x part, kept net c a.observatoryCodesCompressed = some x ∧ part <+: unpack x ∧ s.cache a.observatoryCodes = some part) := by
  have hi := inv_runs hp h
  rcases hst : s.stage a.observatoryCodesCompressed with _ | ⟨t, k⟩ | _
  · exact .inl (hi.codesWaiting hst)
  · obtain ⟨h1, h2, h3, ⟨x, hx, rfl⟩, h5⟩ := hi.codesWriting t k hst
    rcases h5 with ⟨-, h5⟩ | ⟨-, h5⟩
    · exact .inl h5
    · exact .inr ⟨h3, x, _, hx, List.take_prefix _ _, h5⟩
  · have := hi.codesDone hst
    rw [this]
    rcases hg : c a.observatoryCodesCompressed with _ | x
    · rcases hn : net a.observatoryCodesCompressed with _ | x
      · left
        simp only [codesAfter, hg, hn]
      · right
        refine ⟨.inl rfl, x, unpack x, by rw [kept_none hg, hn], List.prefix_rfl, ?_⟩
        simp only [codesAfter, hg, hn]
    · rcases hu : c a.observatoryCodes with _ | y
      · right
        refine ⟨.inr rfl, x, unpack x, kept_some hg, List.prefix_rfl, ?_⟩
        simp only [codesAfter, hg, hu]
      · left
        simp only [codesAfter, hg, hu]

/-- A file to download, while the downloads run. -/
theorem file_states {net : Net} (hp : Proper a) {s : Par} (h : Runs a net unpack ⟨c, fun _ => .waiting⟩ s) {f : String} (hd : Downloaded a f) :
    s.cache f = c f ∨ (c f = none ∧ s.cache f = net f) := by
  have hi := inv_runs hp h
  have hm := (toDownload_iff hp f).2 hd
  by_cases hst : s.stage f = .waiting
  · exact .inl (hi.waiting f hm hst)
  · have := hi.fetched f hm hst
    rcases hc : c f with _ | x
    · exact .inr ⟨rfl, by rw [this, kept_none hc]⟩
    · exact .inl (by rw [this, kept_some hc])

/-- All files while the downloads run, and while the meta-kernel is made. -/
theorem after_begin (hp : Proper a) (hd : Plain a dir) {s : Par} {t : Cache} (h : Runs a nets.download unpack ⟨c, fun _ => .waiting⟩ s)
    (ht : t = s.cache ∨ t ∈ (buildMeta a nets.build dir s.cache).passed ∨ t = (buildMeta a nets.build dir s.cache).cache) :
    (∀ f, f ∉ a.dataFileList → t f = c f) ∧
    (∀ f, Downloaded a f → t f = c f ∨ (c f = none ∧ (t f = nets.download f ∨ t f = nets.build f))) ∧
    (t a.observatoryCodes = c a.observatoryCodes ∨
      ((c a.observatoryCodesCompressed = none ∨ c a.observatoryCodes = none) ∧
        ∃ x part, kept nets.download c a.observatoryCodesCompressed = some x ∧ part <+: unpack x ∧ t a.observatoryCodes = some part)) ∧
    (t a.metaKernel = c a.metaKernel ∨ ∃ part, part <+: kernelFile a dir ∧ t a.metaKernel = some part) := by
  have hmd : ¬ Downloaded a a.metaKernel := fun h => h.2.1 rfl
  have hmeta : s.cache a.metaKernel = c a.metaKernel :=
    (inv_runs hp h).outside _ (meta_not_downloaded hp) (meta_ne_codes hp)
  have hout : ∀ f, f ∉ a.dataFileList → s.cache f = c f := fun f hf =>
    (inv_runs hp h).outside f (fun h' => hf (download_sub a f h')) (fun h' => hf (h' ▸ codes_data a))
  have hcodes := codes_states hp h
  have base : t = s.cache ∨ ((t = s.cache ∨ ∃ part, part <+: kernelFile a dir ∧ t a.metaKernel = some part) ∧
      ∀ f, f ≠ a.metaKernel → t f = s.cache f ∨ (s.cache f = none ∧ f ∈ a.toDownload ∧ t f = nets.build f)) := by
    rcases ht with h | h
    · exact .inl h
    · exact .inr ((buildMeta_spec hp hd s.cache).1 t h)
  rcases base with rfl | ⟨b1, b2⟩
  · refine ⟨hout, fun f hf => ?_, hcodes, .inl hmeta⟩
    rcases file_states hp h hf with h' | ⟨h1, h2⟩
    · exact .inl h'
    · exact .inr ⟨h1, .inl h2⟩
  · refine ⟨?_, ?_, ?_, ?_⟩
    · intro f hf
      rcases b2 f (fun h' => hf (h' ▸ meta_data a)) with h' | ⟨-, h', -⟩
      · rw [h', hout f hf]
      · exact absurd (download_sub a f h') hf
    · intro f hf
      have hs := file_states hp h hf
      rcases b2 f (fun h' => hmd (h' ▸ hf)) with h' | ⟨h1, -, h2⟩
      · rw [h']
        rcases hs with hs | ⟨hs, hs'⟩
        · exact .inl hs
        · exact .inr ⟨hs, .inl hs'⟩
      · refine .inr ⟨?_, .inr h2⟩
        rcases hs with hs | ⟨hs, -⟩
        · rw [← hs, h1]
        · exact hs
    · have hu : t a.observatoryCodes = s.cache a.observatoryCodes := by
        rcases b2 a.observatoryCodes (meta_ne_codes hp).symm with h' | ⟨-, h', -⟩
        · exact h'
        · exact absurd h' (codes_not_downloaded hp)
      rw [hu]
      exact hcodes
    · rcases b1 with b1 | b1
      · left
        rw [b1, hmeta]
      · exact .inr b1

/-- What a bootstrap that is not forced leaves, whenever it is ended. -/
theorem plain_states (hp : Proper a) (hd : Plain a dir) (h : Bootstrap a nets unpack dir false c e c') :
    c' = c ∨ ∃ s t, Runs a nets.download unpack ⟨c, fun _ => .waiting⟩ s ∧ c' = t ∧
      (t = s.cache ∨ t ∈ (buildMeta a nets.build dir s.cache).passed ∨ t = (buildMeta a nets.build dir s.cache).cache) := by
  cases h with
  | early => exact .inl rfl
  | found => exact .inl rfl
  | removeKilled hf => cases hf
  | removeRaised hf => cases hf
  | downloadKilled hb h =>
    cases begins_false hb
    exact .inr ⟨_, _, h, rfl, .inl rfl⟩
  | buildKilled hb h _ ht =>
    cases begins_false hb
    exact .inr ⟨_, _, h, rfl, .inr (.inl ht)⟩
  | buildRaised hb h _ _ =>
    cases begins_false hb
    exact .inr ⟨_, _, h, rfl, .inr (.inr rfl)⟩
  | built hb h _ _ =>
    cases begins_false hb
    exact .inr ⟨_, _, h, rfl, .inr (.inr rfl)⟩

/-- C69 (keeps): a bootstrap that is not forced changes no file that is there, whenever it is ended and whatever the network does; only the meta-kernel is
made anew, and the observatory codes are unpacked anew if the archive has to be downloaded. -/
theorem C69_keeps (hp : Proper a) (hd : Plain a dir) (h : Bootstrap a nets unpack dir false c e c') {f : String} {x : List Char} (hx : c f = some x)
    (hm : f ≠ a.metaKernel) (hu : f = a.observatoryCodes → c a.observatoryCodesCompressed ≠ none) : c' f = some x := by
  rcases plain_states hp hd h with rfl | ⟨s, t, hr, rfl, ht⟩
  · exact hx
  · obtain ⟨h1, h2, h3, -⟩ := after_begin hp hd hr ht
    by_cases hdata : f ∈ a.dataFileList
    · rcases data_cases hp hdata with hf | hf | hf
      · rcases h2 f hf with h' | ⟨h', -⟩
        · rw [h', hx]
        · rw [hx] at h'
          cases h'
      · exact absurd hf hm
      · subst hf
        rcases h3 with h' | ⟨h' | h', -⟩
        · rw [h', hx]
        · exact absurd h' (hu rfl)
        · rw [hx] at h'
          cases h'
    · rw [h1 f hdata, hx]

/-- How a bootstrap can end normally or with an exception. -/
theorem ended (h : Bootstrap a nets unpack dir force c e c') (hk : e ≠ .killed) :
    (force = false ∧ missing a c = [] ∧ e = .normal [] ∧ c' = c) ∨
    (force = true ∧ (∃ er, (removeAll a nets.remove a.dataFileList c).result = .error er) ∧ e = .raised) ∨
    ∃ c₁ s, Begins a nets force c c₁ ∧ Runs a nets.download unpack ⟨c₁, fun _ => .waiting⟩ s ∧ Finished a s ∧
      c' = (buildMeta a nets.build dir s.cache).cache ∧
      (((buildMeta a nets.build dir s.cache).result = .ok () ∧ e = .normal (missing a c')) ∨
        ((∃ er, (buildMeta a nets.build dir s.cache).result = .error er) ∧ e = .raised)) := by
  cases h with
  | early => exact absurd rfl hk
  | found h1 h2 => exact .inl ⟨h1, h2, rfl, rfl⟩
  | removeKilled => exact absurd rfl hk
  | removeRaised h1 h2 => exact .inr (.inl ⟨h1, ⟨_, h2⟩, rfl⟩)
  | downloadKilled => exact absurd rfl hk
  | buildKilled => exact absurd rfl hk
  | buildRaised hb h hf he => exact .inr (.inr ⟨_, _, hb, h, hf, rfl, .inr ⟨⟨_, he⟩, rfl⟩⟩)
  | built hb h hf ho => exact .inr (.inr ⟨_, _, hb, h, hf, rfl, .inl ⟨ho, rfl⟩⟩)

/-- The end of the downloads and of the meta-kernel, with a working network. -/
theorem after_downloads (hp : Proper a) (hd : Plain a dir) {s : Par} (h : Runs a nets.download unpack ⟨c, fun _ => .waiting⟩ s) (hf : Finished a s)
    (hn : ∀ f, Downloaded a f → c f = none → nets.download f ≠ none) :
    (buildMeta a nets.build dir s.cache).result = .ok () ∧
    (∀ f, Downloaded a f → (buildMeta a nets.build dir s.cache).cache f = kept nets.download c f) ∧
    (buildMeta a nets.build dir s.cache).cache a.observatoryCodes = codesAfter a unpack nets.download c ∧
    (buildMeta a nets.build dir s.cache).cache a.metaKernel = some (kernelFile a dir) ∧
    ∀ f, f ∉ a.dataFileList → (buildMeta a nets.build dir s.cache).cache f = c f := by
  obtain ⟨f1, f2, f3⟩ := finished_cache hp h hf
  obtain ⟨b1, b2, b3⟩ := buildMeta_spec (a := a) (net := nets.build) hp hd s.cache
  have hkept : ∀ f, Downloaded a f → kept nets.download c f ≠ none := by
    intro f hf
    rcases hc : c f with _ | x
    · rw [kept_none hc]
      exact hn f hf hc
    · rw [kept_some hc]
      simp
  have hok := b3 fun k hk => .inl (by
    have := (toDownload_iff hp k).1 (kernels_downloaded a k hk)
    rw [f1 k this]
    exact hkept k this)
  have hb := (b1 _ (.inr rfl)).2
  refine ⟨hok, ?_, ?_, (b2 hok).1, ?_⟩
  · intro f hf
    rcases hb f hf.2.1 with h' | ⟨h', -⟩
    · rw [h', f1 f hf]
    · rw [f1 f hf] at h'
      exact absurd h' (hkept f hf)
  · rcases hb _ (meta_ne_codes hp).symm with h' | ⟨-, h', -⟩
    · rw [h', f2]
    · exact absurd h' (codes_not_downloaded hp)
  · intro f hf'
    rcases hb f (fun h' => hf' (h' ▸ meta_data a)) with h' | ⟨-, h', -⟩
    · rw [h', f3 f (fun h => hf' h.1) (fun h' => hf' (h' ▸ codes_data a))]
    · exact absurd (download_sub a f h') hf'

theorem codesAfter_some (hp : Proper a) {net : Net} (hn : c a.observatoryCodesCompressed = none → net a.observatoryCodesCompressed ≠ none) :
    codesAfter a unpack net c ≠ none := by
  rcases hg : c a.observatoryCodesCompressed with _ | x
  · rcases hnn : net a.observatoryCodesCompressed with _ | y
    · exact absurd hnn (hn hg)
    · simp [codesAfter, hg, hnn]
  · rcases hu : c a.observatoryCodes with _ | y
    · simp [codesAfter, hg, hu]
    · simp [codesAfter, hg, hu]

/-- C69 (complete): if some file is missing and the network gives each missing file that is downloaded, then a bootstrap that is not killed ends normally, finds
nothing missing and leaves a complete cache: the files that were there and the downloaded ones, the observatory codes, the meta-kernel of this directory, and
every other file as it was. -/
theorem C69_complete (hp : Proper a) (hd : Plain a dir) (h : Bootstrap a nets unpack dir false c e c') (hk : e ≠ .killed)
    (hmiss : ∃ f ∈ a.dataFileList, c f = none) (hn : ∀ f, Downloaded a f → c f = none → nets.download f ≠ none) :
    e = .normal [] ∧ (∀ f, Downloaded a f → c' f = kept nets.download c f) ∧ c' a.observatoryCodes = codesAfter a unpack nets.download c ∧
    c' a.metaKernel = some (kernelFile a dir) ∧ (∀ f ∈ a.dataFileList, c' f ≠ none) ∧ ∀ f, f ∉ a.dataFileList → c' f = c f := by
  rcases ended h hk with ⟨-, hm, -⟩ | ⟨h', -⟩ | ⟨c₁, s, hb, hr, hf, rfl, he⟩
  · obtain ⟨f, hf, hc⟩ := hmiss
    exact absurd hc ((missing_nil c).1 hm f hf)
  · cases h'
  · cases begins_false hb
    obtain ⟨g1, g2, g3, g4, g5⟩ := after_downloads hp hd hr hf hn
    have hall : ∀ f ∈ a.dataFileList, (buildMeta a nets.build dir s.cache).cache f ≠ none := by
      intro f hf
      rcases data_cases hp hf with h' | h' | h'
      · rw [g2 f h']
        rcases hc : c f with _ | x
        · rw [kept_none hc]
          exact hn f h' hc
        · rw [kept_some hc]
          simp
      · rw [h', g4]
        simp
      · rw [h', g3]
        exact codesAfter_some hp (hn _ (gz_spec hp))
    refine ⟨?_, g2, g3, g4, hall, g5⟩
    rcases he with ⟨-, he⟩ | ⟨⟨er, he⟩, -⟩
    · rw [he, (missing_nil _).2 hall]
    · rw [g1] at he
      cases he

/-- C69 (possible): the command can always come to an end, whatever the network does. -/
theorem C69_ends (a : Aux) (nets : Nets) (unpack : List Char → List Char) (dir : List Char) (force : Bool) (c : Cache) :
    ∃ e c', e ≠ .killed ∧ Bootstrap a nets unpack dir force c e c' := by
  have go : ∀ c₁, Begins a nets force c c₁ → ∃ e c', e ≠ .killed ∧ Bootstrap a nets unpack dir force c e c' := by
    intro c₁ hb
    obtain ⟨s, hs, hf⟩ := finish_all (a := a) (net := nets.download) (unpack := unpack) ⟨c₁, fun _ => .waiting⟩
    rcases hr : (buildMeta a nets.build dir s.cache).result with er | u
    · exact ⟨_, _, by simp, .buildRaised hb hs hf hr⟩
    · exact ⟨_, _, by simp, .built hb hs hf hr⟩
  cases force with
  | true =>
    rcases hr : (removeAll a nets.remove a.dataFileList c).result with er | u
    · exact ⟨_, _, by simp, .removeRaised rfl hr⟩
    · exact go _ (.inl ⟨rfl, hr, rfl⟩)
  | false =>
    by_cases hm : missing a c = []
    · exact ⟨_, _, by simp, .found rfl hm⟩
    · exact go _ (.inr ⟨rfl, hm, rfl⟩)

/-- C69 (report): when the command ends normally, the files it names as missing are exactly the data files that are not there; the meta-kernel and the
kernels that it names are never among them. -/
theorem C69_report (hp : Proper a) (hd : Plain a dir) {m : List String} (h : Bootstrap a nets unpack dir force c (.normal m) c') :
    (∀ f, f ∈ m ↔ f ∈ a.dataFileList ∧ c' f = none) ∧
    ∀ f ∈ [a.metaKernel, a.leapSeconds, a.earthHistorical, a.earthPredict, a.orientationConstants, a.planetEphemeris, a.earthHighPrecision],
      f ∉ m ∧ c' f ≠ none := by
  rcases ended h (by simp) with ⟨-, hm, he, rfl⟩ | ⟨-, -, he⟩ | ⟨c₁, s, hb, hr, hf, rfl, ⟨ho, he⟩ | ⟨-, he⟩⟩
  · injection he with he
    subst he
    have := (missing_nil _).1 hm
    refine ⟨fun f => ⟨by simp, fun ⟨h1, h2⟩ => absurd h2 (this f h1)⟩, fun f hf => ⟨by simp, this f ?_⟩⟩
    simp only [List.mem_cons, List.not_mem_nil, or_false] at hf
    simp only [Aux.dataFileList, List.mem_cons, List.not_mem_nil, or_false]
    rcases hf with rfl | rfl | rfl | rfl | rfl | rfl | rfl <;> simp
  · cases he
  · injection he with he
    subst he
    have hkey : ∀ f ∈ [a.metaKernel, a.leapSeconds, a.earthHistorical, a.earthPredict, a.orientationConstants, a.planetEphemeris, a.earthHighPrecision],
        (buildMeta a nets.build dir s.cache).cache f ≠ none := by
      intro f hf
      obtain ⟨h1, h2⟩ := (buildMeta_spec hp hd s.cache).2.1 ho
      rcases List.mem_cons.1 hf with rfl | hf
      · rw [h1]
        simp
      · exact h2 f hf
    exact ⟨fun f => missing_iff _ f, fun f hf => ⟨fun h' => hkey f hf ((missing_iff _ f).1 h').2, hkey f hf⟩⟩
  · cases he

/-- C69 (others): no bootstrap touches any file but the eleven data files, whenever it is ended. -/
theorem C69_others (hp : Proper a) (hd : Plain a dir) (h : Bootstrap a nets unpack dir force c e c') {f : String} (hf : f ∉ a.dataFileList) :
    c' f = c f := by
  have hb : ∀ c₁, Begins a nets force c c₁ → c₁ f = c f := by
    rintro c₁ (⟨-, -, rfl⟩ | ⟨-, -, rfl⟩)
    · exact removeAll_other _ _ _ (.inr rfl) f hf
    · rfl
  cases h with
  | early => rfl
  | found => rfl
  | removeKilled _ h => exact removeAll_other _ _ _ (.inl h) f hf
  | removeRaised _ h => exact removeAll_other _ _ _ (.inr rfl) f hf
  | downloadKilled hb' h => exact ((after_begin (nets := nets) hp hd h (.inl rfl)).1 f hf).trans (hb _ hb')
  | buildKilled hb' h _ ht => exact ((after_begin (nets := nets) hp hd h (.inr (.inl ht))).1 f hf).trans (hb _ hb')
  | buildRaised hb' h _ _ => exact ((after_begin (nets := nets) hp hd h (.inr (.inr rfl))).1 f hf).trans (hb _ hb')
  | built hb' h _ _ => exact ((after_begin (nets := nets) hp hd h (.inr (.inr rfl))).1 f hf).trans (hb _ hb')

/-- What one bootstrap can leave in place of a file to download. -/
theorem one_step (hp : Proper a) (hd : Plain a dir) (h : Bootstrap a nets unpack dir force c e c') {f : String} (hf : Downloaded a f) :
    c' f = c f ∨ c' f = none ∨ c' f = nets.remove f ∨ c' f = nets.download f ∨ c' f = nets.build f := by
  have rem : ∀ s, s ∈ (removeAll a nets.remove a.dataFileList c).passed ∨ s = (removeAll a nets.remove a.dataFileList c).cache →
      s f = c f ∨ s f = none ∨ s f = nets.remove f := by
    intro s hs
    rcases (removeAll_spec (a := a) (net := nets.remove) _ hp.nodup c).1 s hs f with h | h | ⟨-, h⟩
    · exact .inl h
    · exact .inr (.inl h)
    · exact .inr (.inr h)
  have hb : ∀ c₁, Begins a nets force c c₁ → c₁ f = c f ∨ c₁ f = none ∨ c₁ f = nets.remove f := by
    rintro c₁ (⟨-, -, rfl⟩ | ⟨-, -, rfl⟩)
    · exact rem _ (.inr rfl)
    · exact .inl rfl
  have fin : ∀ c₁ t : Cache, Begins a nets force c c₁ → (t f = c₁ f ∨ (c₁ f = none ∧ (t f = nets.download f ∨ t f = nets.build f))) →
      t f = c f ∨ t f = none ∨ t f = nets.remove f ∨ t f = nets.download f ∨ t f = nets.build f := by
    intro c₁ t h1 h2
    rcases h2 with h2 | ⟨-, h2 | h2⟩
    · rw [h2]
      rcases hb c₁ h1 with h | h | h
      · exact .inl h
      · exact .inr (.inl h)
      · exact .inr (.inr (.inl h))
    · exact .inr (.inr (.inr (.inl h2)))
    · exact .inr (.inr (.inr (.inr h2)))
  have rem' : ∀ s, s ∈ (removeAll a nets.remove a.dataFileList c).passed ∨ s = (removeAll a nets.remove a.dataFileList c).cache →
      s f = c f ∨ s f = none ∨ s f = nets.remove f ∨ s f = nets.download f ∨ s f = nets.build f := by
    intro s hs
    rcases rem s hs with h | h | h
    · exact .inl h
    · exact .inr (.inl h)
    · exact .inr (.inr (.inl h))
  cases h with
  | early => exact .inl rfl
  | found => exact .inl rfl
  | removeKilled _ h => exact rem' _ (.inl h)
  | removeRaised _ h => exact rem' _ (.inr rfl)
  | downloadKilled hb' h => exact fin _ _ hb' ((after_begin (nets := nets) hp hd h (.inl rfl)).2.1 f hf)
  | buildKilled hb' h _ ht => exact fin _ _ hb' ((after_begin (nets := nets) hp hd h (.inr (.inl ht))).2.1 f hf)
  | buildRaised hb' h _ _ => exact fin _ _ hb' ((after_begin (nets := nets) hp hd h (.inr (.inr rfl))).2.1 f hf)
  | built hb' h _ _ => exact fin _ _ hb' ((after_begin (nets := nets) hp hd h (.inr (.inr rfl))).2.1 f hf)

/-- What one bootstrap can leave in place of the observatory codes and of the meta-kernel. -/
theorem one_step_made (hp : Proper a) (hd : Plain a dir) (h : Bootstrap a nets unpack dir force c e c') :
    (c' a.observatoryCodes = c a.observatoryCodes ∨ c' a.observatoryCodes = none ∨
      ∃ x part, (c a.observatoryCodesCompressed = some x ∨ nets.remove a.observatoryCodesCompressed = some x ∨
        nets.download a.observatoryCodesCompressed = some x) ∧ part <+: unpack x ∧ c' a.observatoryCodes = some part) ∧
    (c' a.metaKernel = c a.metaKernel ∨ c' a.metaKernel = none ∨ ∃ part, part <+: kernelFile a dir ∧ c' a.metaKernel = some part) := by
  have rem : ∀ s, s ∈ (removeAll a nets.remove a.dataFileList c).passed ∨ s = (removeAll a nets.remove a.dataFileList c).cache →
      ∀ f, f = a.observatoryCodes ∨ f = a.metaKernel → s f = c f ∨ s f = none := by
    intro s hs f hf
    rcases (removeAll_spec (a := a) (net := nets.remove) _ hp.nodup c).1 s hs f with h | h | ⟨h, -⟩
    · exact .inl h
    · exact .inr h
    · rcases hf with rfl | rfl
      · exact absurd h (codes_not_downloaded hp)
      · exact absurd h (meta_not_downloaded hp)
  have remGz : ∀ s, s ∈ (removeAll a nets.remove a.dataFileList c).passed ∨ s = (removeAll a nets.remove a.dataFileList c).cache →
      s a.observatoryCodesCompressed = c a.observatoryCodesCompressed ∨ s a.observatoryCodesCompressed = none ∨
      s a.observatoryCodesCompressed = nets.remove a.observatoryCodesCompressed := by
    intro s hs
    rcases (removeAll_spec (a := a) (net := nets.remove) _ hp.nodup c).1 s hs a.observatoryCodesCompressed with h | h | ⟨-, h⟩
    · exact .inl h
    · exact .inr (.inl h)
    · exact .inr (.inr h)
  have hb : ∀ c₁ : Cache, Begins a nets force c c₁ → (∀ f, f = a.observatoryCodes ∨ f = a.metaKernel → c₁ f = c f ∨ c₁ f = none) ∧
      (c₁ a.observatoryCodesCompressed = c a.observatoryCodesCompressed ∨ c₁ a.observatoryCodesCompressed = none ∨
        c₁ a.observatoryCodesCompressed = nets.remove a.observatoryCodesCompressed) := by
    rintro c₁ (⟨-, -, rfl⟩ | ⟨-, -, rfl⟩)
    · exact ⟨rem _ (.inr rfl), remGz _ (.inr rfl)⟩
    · exact ⟨fun _ _ => .inl rfl, .inl rfl⟩
  have both : ∀ s : Cache, (∀ f, f = a.observatoryCodes ∨ f = a.metaKernel → s f = c f ∨ s f = none) →
      (s a.observatoryCodes = c a.observatoryCodes ∨ s a.observatoryCodes = none ∨
        ∃ x part, (c a.observatoryCodesCompressed = some x ∨ nets.remove a.observatoryCodesCompressed = some x ∨
          nets.download a.observatoryCodesCompressed = some x) ∧ part <+: unpack x ∧ s a.observatoryCodes = some part) ∧
      (s a.metaKernel = c a.metaKernel ∨ s a.metaKernel = none ∨ ∃ part, part <+: kernelFile a dir ∧ s a.metaKernel = some part) := by
    intro s hs
    refine ⟨?_, ?_⟩
    · rcases hs _ (.inl rfl) with h | h
      · exact .inl h
      · exact .inr (.inl h)
    · rcases hs _ (.inr rfl) with h | h
      · exact .inl h
      · exact .inr (.inl h)
  have fin : ∀ (c₁ : Cache) (s : Par) (t : Cache), Begins a nets force c c₁ → Runs a nets.download unpack ⟨c₁, fun _ => .waiting⟩ s →
      (t = s.cache ∨ t ∈ (buildMeta a nets.build dir s.cache).passed ∨ t = (buildMeta a nets.build dir s.cache).cache) →
      (t a.observatoryCodes = c a.observatoryCodes ∨ t a.observatoryCodes = none ∨
        ∃ x part, (c a.observatoryCodesCompressed = some x ∨ nets.remove a.observatoryCodesCompressed = some x ∨
          nets.download a.observatoryCodesCompressed = some x) ∧ part <+: unpack x ∧ t a.observatoryCodes = some part) ∧
      (t a.metaKernel = c a.metaKernel ∨ t a.metaKernel = none ∨ ∃ part, part <+: kernelFile a dir ∧ t a.metaKernel = some part) := by
    intro c₁ s t h1 h2 h3
    obtain ⟨-, -, k1, k2⟩ := after_begin hp hd h2 h3
    obtain ⟨b1, b2⟩ := hb c₁ h1
    refine ⟨?_, ?_⟩
    · rcases k1 with k1 | ⟨-, x, part, hx, hpart, ht⟩
      · rw [k1]
        rcases b1 _ (.inl rfl) with h | h
        · exact .inl h
        · exact .inr (.inl h)
      · refine .inr (.inr ⟨x, part, ?_, hpart, ht⟩)
        rcases hc : c₁ a.observatoryCodesCompressed with _ | y
        · rw [kept_none hc] at hx
          exact .inr (.inr hx)
        · rw [kept_some hc] at hx
          injection hx with hx
          subst hx
          rw [hc] at b2
          rcases b2 with b2 | b2 | b2
          · exact .inl b2.symm
          · cases b2
          · exact .inr (.inl b2.symm)
    · rcases k2 with k2 | k2
      · rw [k2]
        rcases b1 _ (.inr rfl) with h | h
        · exact .inl h
        · exact .inr (.inl h)
      · exact .inr (.inr k2)
  cases h with
  | early => exact ⟨.inl rfl, .inl rfl⟩
  | found => exact ⟨.inl rfl, .inl rfl⟩
  | removeKilled _ h => exact both _ (rem _ (.inl h))
  | removeRaised _ h => exact both _ (rem _ (.inr rfl))
  | downloadKilled hb' h => exact fin _ _ _ hb' h (.inl rfl)
  | buildKilled hb' h _ ht => exact fin _ _ _ hb' h (.inr (.inl ht))
  | buildRaised hb' h _ _ => exact fin _ _ _ hb' h (.inr (.inr rfl))
  | built hb' h _ _ => exact fin _ _ _ hb' h (.inr (.inr rfl))

/-- C69 (whole files): after any number of bootstraps, forced or not, each killed at any moment or not, with any network, every downloaded file that is in the
cache is one that was there at first or one that the network gave as a whole. The observatory codes and the meta-kernel, which are written in place, may be
only a beginning of what they should be. -/
theorem C69_whole (hp : Proper a) {served : String → List Char → Prop} (h : History a unpack served c c') :
    (∀ f x, Downloaded a f → c' f = some x → c f = some x ∨ served f x) ∧
    (∀ y, c' a.observatoryCodes = some y → c a.observatoryCodes = some y ∨
      ∃ x, (c a.observatoryCodesCompressed = some x ∨ served a.observatoryCodesCompressed x) ∧ y <+: unpack x) ∧
    ∀ y, c' a.metaKernel = some y → c a.metaKernel = some y ∨ ∃ dir, y <+: kernelFile a dir := by
  induction h with
  | start => exact ⟨fun f x _ h => .inl h, fun y h => .inl h, fun y h => .inl h⟩
  | next dir force nets _ hd hn hb ih =>
    obtain ⟨i1, i2, i3⟩ := ih
    refine ⟨?_, ?_, ?_⟩
    · intro f x hf hx
      rcases one_step hp hd hb hf with h | h | h | h | h
      · exact i1 f x hf (h ▸ hx)
      · rw [hx] at h
        cases h
      · exact .inr (hn f x (.inl (h ▸ hx)))
      · exact .inr (hn f x (.inr (.inl (h ▸ hx))))
      · exact .inr (hn f x (.inr (.inr (h ▸ hx))))
    · intro y hy
      rcases (one_step_made hp hd hb).1 with h | h | ⟨x, part, hx, hpart, h⟩
      · exact i2 y (h ▸ hy)
      · rw [hy] at h
        cases h
      · rw [hy] at h
        injection h with h
        subst h
        refine .inr ⟨x, ?_, hpart⟩
        rcases hx with hx | hx | hx
        · exact i1 _ x (gz_spec hp) hx
        · exact .inr (hn _ x (.inl hx))
        · exact .inr (hn _ x (.inr (.inl hx)))
    · intro y hy
      rcases (one_step_made hp hd hb).2 with h | h | ⟨part, hpart, h⟩
      · exact i3 y (h ▸ hy)
      · rw [hy] at h
        cases h
      · rw [hy] at h
        injection h with h
        subst h
        exact .inr ⟨dir, hpart⟩

/-- C69 (recovery): whatever happened to a cache that was empty at first, one more bootstrap that is not killed, with a network that gives the missing
files, completes it; every downloaded file is then one that the network gave as a whole. -/
theorem C69_recovers (hp : Proper a) (hd : Plain a dir) {served : String → List Char → Prop} (hh : History a unpack served (fun _ => none) c)
    (h : Bootstrap a nets unpack dir false c e c') (hk : e ≠ .killed) (hn : ∀ f, Downloaded a f → c f = none → ∃ x, nets.download f = some x ∧ served f x) :
    e = .normal [] ∧ (∀ f ∈ a.dataFileList, c' f ≠ none) ∧ ∀ f, Downloaded a f → ∃ x, c' f = some x ∧ served f x := by
  have hw : ∀ f x, Downloaded a f → c f = some x → served f x := by
    intro f x hf hx
    rcases (C69_whole hp hh).1 f x hf hx with h | h
    · cases h
    · exact h
  have hn' : ∀ f, Downloaded a f → c f = none → nets.download f ≠ none := by
    intro f hf hc
    obtain ⟨x, hx, -⟩ := hn f hf hc
    rw [hx]
    simp
  by_cases hm : ∃ f ∈ a.dataFileList, c f = none
  · obtain ⟨h1, h2, -, -, h5, -⟩ := C69_complete hp hd h hk hm hn'
    refine ⟨h1, h5, ?_⟩
    intro f hf
    rw [h2 f hf]
    rcases hc : c f with _ | x
    · rw [kept_none hc]
      exact hn f hf hc
    · rw [kept_some hc]
      exact ⟨x, rfl, hw f x hf hc⟩
  · push Not at hm
    obtain ⟨rfl, he⟩ := C69_idle h hm
    refine ⟨he.resolve_left hk, hm, ?_⟩
    intro f hf
    rcases hc : c' f with _ | x
    · exact absurd hc (hm f hf.1)
    · exact ⟨x, rfl, hw f x hf hc⟩

/-- C69 (forced): a forced bootstrap of a complete cache that is not killed, with a network that gives all files, ends normally and leaves a cache in which
every data file is new. -/
theorem C69_force (hp : Proper a) (hd : Plain a dir) (h : Bootstrap a nets unpack dir true c e c') (hk : e ≠ .killed)
    (hall : ∀ f ∈ a.dataFileList, c f ≠ none) (hn : ∀ f, Downloaded a f → nets.download f ≠ none) :
    e = .normal [] ∧ (∀ f, Downloaded a f → c' f = nets.download f) ∧
    (∃ x, nets.download a.observatoryCodesCompressed = some x ∧ c' a.observatoryCodes = some (unpack x)) ∧
    c' a.metaKernel = some (kernelFile a dir) := by
  obtain ⟨-, r2, r3⟩ := removeAll_spec (a := a) (net := nets.remove) _ hp.nodup c
  have hrok := r3 fun f hf => .inl (hall f hf)
  obtain ⟨q1, -, -⟩ := r2 hrok
  rcases ended h hk with ⟨h', -⟩ | ⟨-, ⟨er, her⟩, -⟩ | ⟨c₁, s, hb, hr, hf, rfl, he⟩
  · cases h'
  · rw [hrok] at her
    cases her
  · rcases hb with ⟨-, -, rfl⟩ | ⟨h', -⟩
    · obtain ⟨g1, g2, g3, g4, g5⟩ := after_downloads hp hd hr hf fun f hf _ => hn f hf
      have g2' : ∀ f, Downloaded a f → (buildMeta a nets.build dir s.cache).cache f = nets.download f := by
        intro f hf
        rw [g2 f hf, kept_none (q1 f hf.1)]
      obtain ⟨x, hx⟩ := Option.ne_none_iff_exists'.1 (hn _ (gz_spec hp))
      have g3' : (buildMeta a nets.build dir s.cache).cache a.observatoryCodes = some (unpack x) := by
        rw [g3]
        simp only [codesAfter, q1 _ (gz_spec hp).1, hx]
      refine ⟨?_, g2', ⟨x, hx, g3'⟩, g4⟩
      rcases he with ⟨-, he⟩ | ⟨⟨er, he⟩, -⟩
      · rw [he]
        congr 1
        rw [missing_nil]
        intro f hf
        rcases data_cases hp hf with h' | h' | h'
        · rw [g2' f h']
          exact hn f h'
        · rw [h', g4]
          simp
        · rw [h', g3']
          simp
      · rw [g1] at he
        cases he
    · cases h'

/-- C69 (forced) fails for a cache without meta-kernel or without observatory codes, so also for an empty one: the command never ends normally, whatever the
network does, since it first fetches each file that it is about to remove and these two cannot be downloaded. -/
theorem C69_force_fails (hp : Proper a) (hc : c a.metaKernel = none ∨ c a.observatoryCodes = none) {m : List String} :
    ¬ Bootstrap a nets unpack dir true c (.normal m) c' := by
  intro h
  obtain ⟨-, r2, -⟩ := removeAll_spec (a := a) (net := nets.remove) _ hp.nodup c
  have hno : (removeAll a nets.remove a.dataFileList c).result ≠ .ok () := by
    intro hok
    obtain ⟨-, -, q⟩ := r2 hok
    rcases hc with hc | hc
    · rcases q _ (meta_data a) with h' | ⟨h', -⟩
      · exact h' hc
      · exact meta_not_downloaded hp h'
    · rcases q _ (codes_data a) with h' | ⟨h', -⟩
      · exact h' hc
      · exact codes_not_downloaded hp h'
  rcases ended h (by simp) with ⟨h', -⟩ | ⟨-, -, h'⟩ | ⟨c₁, s, hb, -⟩
  · cases h'
  · cases h'
  · rcases hb with ⟨-, h', -⟩ | ⟨h', -⟩
    · exact hno h'
    · cases h'

/-- C69 (forced) fails without network: a forced bootstrap of a complete cache that is not killed removes all files and then ends with an exception; the
downloaded files are lost. -/
theorem C69_offline_fails (hp : Proper a) (hd : Plain a dir) (hall : ∀ f ∈ a.dataFileList, c f ≠ none) (hn1 : ∀ f, nets.download f = none)
    (hn2 : ∀ f, nets.build f = none) (h : Bootstrap a nets unpack dir true c e c') (hk : e ≠ .killed) :
    e = .raised ∧ ∀ f, Downloaded a f → c' f = none := by
  obtain ⟨-, r2, r3⟩ := removeAll_spec (a := a) (net := nets.remove) _ hp.nodup c
  have hrok := r3 fun f hf => .inl (hall f hf)
  obtain ⟨q1, -, -⟩ := r2 hrok
  rcases ended h hk with ⟨h', -⟩ | ⟨-, ⟨er, her⟩, -⟩ | ⟨c₁, s, hb, hr, hf, rfl, he⟩
  · cases h'
  · rw [hrok] at her
    cases her
  · rcases hb with ⟨-, -, rfl⟩ | ⟨h', -⟩
    · obtain ⟨-, k, -, -⟩ := after_begin (t := (buildMeta a nets.build dir s.cache).cache) hp hd hr (.inr (.inr rfl))
      have hlost : ∀ f, Downloaded a f → (buildMeta a nets.build dir s.cache).cache f = none := by
        intro f hf
        rcases k f hf with h' | ⟨-, h' | h'⟩
        · rw [h', q1 f hf.1]
        · rw [h', hn1]
        · rw [h', hn2]
      refine ⟨?_, hlost⟩
      rcases he with ⟨ho, -⟩ | ⟨-, he⟩
      · have hls : a.leapSeconds ∈ a.kernels := by simp [Aux.kernels]
        exact absurd (hlost _ ((toDownload_iff hp _).1 (kernels_downloaded a _ hls)))
          (((buildMeta_spec (a := a) (net := nets.build) hp hd s.cache).2.1 ho).2 _ hls)
      · exact he
    · cases h'

end Sorcha.Setup.Props
