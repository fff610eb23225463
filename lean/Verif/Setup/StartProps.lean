import Verif.Setup.CacheProps

/-!
# C70: the data files a run loads
-/

namespace Sorcha.Setup.Props

open Spec (Proper Plain Downloaded kept codesAfter kernelFile History)

variable {a : Aux} {net : Net} {unpack : List Char → List Char} {dir : List Char} {c c' : Cache}

theorem fetch_kept {f : String} (h : fetch a net f c = .ok c') : c' f = kept net c f ∧ c' f ≠ none ∧ ∀ g, g ≠ f → c' g = c g := by
  rcases fetch_cases (a := a) (net := net) f c with ⟨x, hx, hfe⟩ | ⟨hx, hm, y, hy, hfe⟩ | ⟨hx, hm, hfe⟩
  · rw [hfe] at h
    injection h with h
    subst h
    exact ⟨by rw [hx, kept_some hx], by rw [hx]; simp, fun _ _ => rfl⟩
  · rw [hfe] at h
    injection h with h
    subst h
    exact ⟨by rw [cput_same, kept_none hx, hy], by rw [cput_same]; simp, fun g hg => cput_other _ _ hg⟩
  · rw [hfe] at h
    cases h

theorem fetch_works {f : String} (h : c f ≠ none ∨ (f ∈ a.toDownload ∧ net f ≠ none)) : ∃ c', fetch a net f c = .ok c' := by
  rcases fetch_cases (a := a) (net := net) f c with ⟨x, hx, hfe⟩ | ⟨hx, hm, y, hy, hfe⟩ | ⟨hx, hm, hfe⟩
  · exact ⟨_, hfe⟩
  · exact ⟨_, hfe⟩
  · rcases h with h | ⟨h1, h2⟩
    · exact absurd hx h
    · exact absurd (hm h1) h2

theorem fetchAll_spec (l : List String) (c : Cache) :
    (∀ c', fetchAll a net l c = .ok c' → (∀ f ∈ l, c' f = kept net c f ∧ c' f ≠ none) ∧ ∀ f, f ∉ l → c' f = c f) ∧
    ((∀ f ∈ l, c f ≠ none ∨ (f ∈ a.toDownload ∧ net f ≠ none)) → ∃ c', fetchAll a net l c = .ok c') := by
  induction l generalizing c with
  | nil =>
    refine ⟨?_, fun _ => ⟨c, rfl⟩⟩
    intro c' h
    injection h with h
    subst h
    exact ⟨by simp, fun _ _ => rfl⟩
  | cons k ks ih =>
    refine ⟨?_, ?_⟩
    · intro c' h
      rw [fetchAll] at h
      rcases hfe : fetch a net k c with er | c₁
      · rw [hfe] at h
        cases h
      · rw [hfe] at h
        obtain ⟨h1, h2⟩ := (ih c₁).1 c' h
        obtain ⟨f1, f2, f3⟩ := fetch_kept hfe
        have hk : c' k = c₁ k := by
          by_cases hks : k ∈ ks
          · rw [(h1 k hks).1]
            rcases hc : c₁ k with _ | x
            · exact absurd hc f2
            · exact kept_some hc
          · exact h2 k hks
        refine ⟨?_, ?_⟩
        · intro f hf
          by_cases e : f = k
          · subst e
            rw [hk]
            exact ⟨f1, f2⟩
          · obtain ⟨g1, g2⟩ := h1 f ((List.mem_cons.1 hf).resolve_left e)
            refine ⟨?_, g2⟩
            rw [g1, kept, kept, f3 f e]
        · intro f hf
          have : f ≠ k := fun h => hf (by rw [h]; simp)
          rw [h2 f fun h => hf (List.mem_cons_of_mem _ h), f3 f this]
    · intro h
      obtain ⟨c₁, hc₁⟩ := fetch_works (h k (by simp))
      obtain ⟨f1, f2, f3⟩ := fetch_kept hc₁
      rw [fetchAll, hc₁]
      refine (ih c₁).2 fun f hf => ?_
      by_cases e : f = k
      · subst e
        exact .inl f2
      · rw [f3 f e]
        exact h f (List.mem_cons_of_mem _ hf)

/-- The eight downloaded files that every run with generated ephemerides uses. -/
def runFiles (a : Aux) : List String :=
  [a.jplPlanets, a.jplSmallBodies, a.leapSeconds, a.earthHistorical, a.earthPredict, a.orientationConstants, a.planetEphemeris, a.earthHighPrecision]

theorem runFiles_downloaded (hp : Proper a) : ∀ f ∈ runFiles a, Downloaded a f := by
  intro f hf
  rw [← toDownload_iff hp]
  simp only [runFiles, List.mem_cons, List.not_mem_nil, or_false] at hf
  simp only [Aux.toDownload, List.mem_cons, List.not_mem_nil, or_false]
  rcases hf with rfl | rfl | rfl | rfl | rfl | rfl | rfl | rfl <;> simp

theorem gz_not_run (hp : Proper a) : a.observatoryCodesCompressed ∉ runFiles a := by
  have hn := hp.nodup
  simp only [Aux.dataFileList, List.nodup_cons, List.mem_cons, not_or, List.not_mem_nil] at hn
  simp only [runFiles, List.mem_cons, List.not_mem_nil, or_false, not_or]
  refine ⟨?_, ?_, ?_, ?_, ?_, ?_, ?_, ?_⟩ <;> simp_all [eq_comm]

theorem kept_ne {f : String} (h : c f ≠ none ∨ net f ≠ none) : kept net c f ≠ none := by
  rcases hc : c f with _ | x
  · rw [kept_none hc]
    exact h.resolve_left fun h' => h' hc
  · rw [kept_some hc]
    simp

theorem ne_kept {f : String} (h : kept net c f ≠ none) : c f ≠ none ∨ net f ≠ none := by
  rcases hc : c f with _ | x
  · rw [kept_none hc] at h
    exact .inr h
  · exact .inl (by simp)

/-- Everything about the start of a run. -/
theorem startRun_spec (hp : Proper a) (hd : Plain a dir) (c : Cache) :
    (∀ l c', startRun a net unpack dir c = .ok (l, c') →
      (∀ f ∈ runFiles a, c' f = kept net c f ∧ c' f ≠ none) ∧
      (c' a.metaKernel = some l.metaKernel ∧ ((c a.metaKernel = none ∧ l.metaKernel = kernelFile a dir) ∨ c a.metaKernel = some l.metaKernel)) ∧
      (c' a.observatoryCodes = some l.observatories ∧ ((c a.observatoryCodes = some l.observatories ∧
          c' a.observatoryCodesCompressed = c a.observatoryCodesCompressed) ∨
        (c a.observatoryCodes = none ∧ c' a.observatoryCodesCompressed = kept net c a.observatoryCodesCompressed ∧
          ∃ x, kept net c a.observatoryCodesCompressed = some x ∧ l.observatories = unpack x))) ∧
      c' a.jplPlanets = some l.planets ∧ c' a.jplSmallBodies = some l.smallBodies ∧
      ∀ f, f ∉ a.dataFileList → c' f = c f) ∧
    ((∃ r, startRun a net unpack dir c = .ok r) ↔ (∀ f ∈ runFiles a, c f ≠ none ∨ net f ≠ none) ∧
      (c a.observatoryCodes ≠ none ∨ c a.observatoryCodesCompressed ≠ none ∨ net a.observatoryCodesCompressed ≠ none)) := by
  have hmr : a.metaKernel ∉ runFiles a := fun h => (runFiles_downloaded hp _ h).2.1 rfl
  have hur : a.observatoryCodes ∉ runFiles a := fun h => (runFiles_downloaded hp _ h).2.2 rfl
  have hgr := gz_not_run hp
  have hgu : a.observatoryCodesCompressed ≠ a.observatoryCodes := (gz_spec hp).2.2
  have hgm : a.observatoryCodesCompressed ≠ a.metaKernel := (gz_spec hp).2.1
  have hmu := meta_ne_codes hp
  have hsplit : runFiles a = [a.jplPlanets, a.jplSmallBodies] ++ a.kernels := rfl
  -- the first two steps together
  have first : ∀ c₁ c₂, fetchAll a net [a.jplPlanets, a.jplSmallBodies] c = .ok c₁ → fetchAll a net a.kernels c₁ = .ok c₂ →
      (∀ f ∈ runFiles a, c₂ f = kept net c f ∧ c₂ f ≠ none) ∧ ∀ f, f ∉ runFiles a → c₂ f = c f := by
    intro c₁ c₂ h1 h2
    obtain ⟨p1, p2⟩ := (fetchAll_spec _ c).1 c₁ h1
    obtain ⟨q1, q2⟩ := (fetchAll_spec _ c₁).1 c₂ h2
    refine ⟨?_, ?_⟩
    · intro f hf
      by_cases hk : f ∈ a.kernels
      · obtain ⟨q3, q4⟩ := q1 f hk
        refine ⟨?_, q4⟩
        rw [q3]
        by_cases hj : f ∈ [a.jplPlanets, a.jplSmallBodies]
        · obtain ⟨p3, p4⟩ := p1 f hj
          rcases hc : c₁ f with _ | x
          · exact absurd hc p4
          · rw [kept_some hc, ← p3, hc]
        · rw [kept, kept, p2 f hj]
      · rw [hsplit, List.mem_append] at hf
        have hj := hf.resolve_right hk
        rw [q2 f hk]
        exact p1 f hj
    · intro f hf
      rw [hsplit, List.mem_append, not_or] at hf
      rw [q2 f hf.2, p2 f hf.1]
  -- the meta-kernel, given that the kernels are there
  have second : ∀ c₂ : Cache, (∀ f ∈ runFiles a, c₂ f ≠ none) → ∃ c₃ y, ensureMeta a net dir c₂ = .ok c₃ ∧ c₃ a.metaKernel = some y ∧
      ((c₂ a.metaKernel = none ∧ y = kernelFile a dir) ∨ c₂ a.metaKernel = some y) ∧ ∀ f, f ≠ a.metaKernel → c₃ f = c₂ f := by
    intro c₂ h2
    rcases hm : c₂ a.metaKernel with _ | y
    · have hk : ∀ f ∈ a.kernels, c₂ f ≠ none := fun f hf => h2 f (by rw [hsplit, List.mem_append]; exact .inr hf)
      -- the kernels are fetched without change
      have hb := buildMeta_spec (a := a) (net := fun _ => none) hp hd c₂
      have hsame : ∀ (l : List String) (text : List Char), (∀ f ∈ l, c₂ f ≠ none) →
          metaLoop a net dir l text c₂ = metaLoop a (fun _ => none) dir l text c₂ := by
        intro l
        induction l with
        | nil => intro _ _; rfl
        | cons k ks ih =>
          intro text hl
          obtain ⟨x, hx⟩ := Option.ne_none_iff_exists'.1 (hl k (by simp))
          rw [metaLoop, metaLoop, fetch_some hx, fetch_some hx]
          simp only [ih _ fun f hf => hl f (List.mem_cons_of_mem _ hf)]
      have hbe : buildMeta a net dir c₂ = buildMeta a (fun _ => none) dir c₂ := by
        simp only [buildMeta, hsame _ _ hk]
      have hok : (buildMeta a net dir c₂).result = .ok () := by
        rw [hbe]
        exact hb.2.2 fun f hf => .inl (hk f hf)
      refine ⟨(buildMeta a net dir c₂).cache, kernelFile a dir, ?_, ?_, .inl ⟨rfl, rfl⟩, ?_⟩
      · rw [ensureMeta, if_neg (by rw [hm]; simp), hok]
      · rw [hbe] at hok ⊢
        exact (hb.2.1 hok).1
      · intro f hf
        rw [hbe]
        rcases (hb.1 _ (.inr rfl)).2 f hf with h | ⟨h, -, h'⟩
        · exact h
        · rw [h, h']
    · exact ⟨c₂, y, by rw [ensureMeta, if_pos (by rw [hm]; rfl)], hm, .inr rfl, fun _ _ => rfl⟩
  -- the observatory codes
  have third : ∀ c₃ : Cache, (∀ c₄, observatories a net unpack c₃ = .ok c₄ → (∀ f, f ≠ a.observatoryCodes → f ≠ a.observatoryCodesCompressed → c₄ f = c₃ f) ∧
        ∃ y, c₄ a.observatoryCodes = some y ∧ ((c₃ a.observatoryCodes = some y ∧ c₄ a.observatoryCodesCompressed = c₃ a.observatoryCodesCompressed) ∨
          (c₃ a.observatoryCodes = none ∧ c₄ a.observatoryCodesCompressed = kept net c₃ a.observatoryCodesCompressed ∧
            ∃ x, kept net c₃ a.observatoryCodesCompressed = some x ∧ y = unpack x))) ∧
      ((∃ c₄, observatories a net unpack c₃ = .ok c₄) ↔
        (c₃ a.observatoryCodes ≠ none ∨ c₃ a.observatoryCodesCompressed ≠ none ∨ net a.observatoryCodesCompressed ≠ none)) := by
    intro c₃
    rcases hu : c₃ a.observatoryCodes with _ | y
    · have hobs : observatories a net unpack c₃ = (fetch a net a.observatoryCodesCompressed c₃).map fun c' =>
          c'.put a.observatoryCodes (unpack ((c' a.observatoryCodesCompressed).getD [])) := by
        rw [observatories, if_neg (by rw [hu]; simp)]
        rcases fetch a net a.observatoryCodesCompressed c₃ with er | c' <;> rfl
      refine ⟨?_, ?_⟩
      · intro c₄ h
        rw [hobs] at h
        rcases hfe : fetch a net a.observatoryCodesCompressed c₃ with er | c'
        · rw [hfe] at h
          cases h
        · rw [hfe] at h
          injection h with h
          beta_reduce at h
          subst h
          obtain ⟨f1, f2, f3⟩ := fetch_kept hfe
          obtain ⟨x, hx⟩ := Option.ne_none_iff_exists'.1 f2
          refine ⟨fun f h1 h2 => by rw [cput_other _ _ h1, f3 f h2], unpack x, ?_, .inr ⟨rfl, ?_, x, ?_, rfl⟩⟩
          · rw [cput_same, hx, Option.getD_some]
          · rw [cput_other _ _ hgu, f1]
          · rw [← f1, hx]
      · rw [hobs]
        constructor
        · rintro ⟨c₄, h⟩
          rcases hfe : fetch a net a.observatoryCodesCompressed c₃ with er | c'
          · rw [hfe] at h
            cases h
          · obtain ⟨f1, f2, -⟩ := fetch_kept hfe
            rw [f1] at f2
            exact .inr (ne_kept f2)
        · intro h
          have h' : c₃ a.observatoryCodesCompressed ≠ none ∨ net a.observatoryCodesCompressed ≠ none := h.resolve_left fun h => h rfl
          obtain ⟨c', hc'⟩ := fetch_works (a := a) (net := net) (c := c₃) (f := a.observatoryCodesCompressed)
            (h'.imp id fun h => ⟨gz_downloaded a, h⟩)
          exact ⟨_, by rw [hc']; rfl⟩
    · have hobs : observatories a net unpack c₃ = .ok c₃ := by rw [observatories, if_pos (by rw [hu]; rfl)]
      rw [hobs]
      refine ⟨?_, ⟨fun _ => .inl (by simp), fun _ => ⟨c₃, rfl⟩⟩⟩
      intro c₄ h
      injection h with h
      subst h
      exact ⟨fun _ _ _ => rfl, y, hu, .inl ⟨rfl, rfl⟩⟩
  constructor
  · intro l c' h
    simp only [startRun] at h
    rcases h1 : fetchAll a net [a.jplPlanets, a.jplSmallBodies] c with er | c₁
    · rw [h1] at h
      cases h
    rw [h1] at h
    rcases h2 : fetchAll a net a.kernels c₁ with er | c₂
    · simp only [h2, bind, Except.bind] at h
      cases h
    obtain ⟨p1, p2⟩ := first c₁ c₂ h1 h2
    obtain ⟨c₃, y, h3, m1, m2, m3⟩ := second c₂ fun f hf => (p1 f hf).2
    rcases h4 : observatories a net unpack c₃ with er | c₄
    · simp only [h2, h3, fetch_some m1, h4, bind, Except.bind] at h
      cases h
    obtain ⟨o1, z, o2, o3⟩ := (third c₃).1 c₄ h4
    simp only [h2, h3, fetch_some m1, h4, bind, Except.bind, pure, Except.pure] at h
    injection h with h
    injection h with hl hc
    subst hc
    have hmeta : c₄ a.metaKernel = some y := by rw [o1 _ hmu hgm.symm, m1]
    have hrun : ∀ f ∈ runFiles a, c₄ f = c₂ f := by
      intro f hf
      rw [o1 f (fun h => hur (h ▸ hf)) (fun h => hgr (h ▸ hf)), m3 f fun h => hmr (h ▸ hf)]
    have e1 : l.metaKernel = y := by rw [← hl, hmeta]; rfl
    have e2 : l.observatories = z := by rw [← hl, o2]; rfl
    have hc2m : c₂ a.metaKernel = c a.metaKernel := p2 _ hmr
    have hc3u : c₃ a.observatoryCodes = c a.observatoryCodes := by rw [m3 _ hmu.symm, p2 _ hur]
    have hc3g : c₃ a.observatoryCodesCompressed = c a.observatoryCodesCompressed := by rw [m3 _ hgm, p2 _ hgr]
    have hkg : kept net c₃ a.observatoryCodesCompressed = kept net c a.observatoryCodesCompressed := by rw [kept, kept, hc3g]
    rw [hc2m] at m2
    rw [hc3u, hc3g, hkg] at o3
    refine ⟨fun f hf => by rw [hrun f hf]; exact p1 f hf, ⟨by rw [hmeta, e1], by rw [e1]; exact m2⟩, ⟨by rw [o2, e2], by rw [e2]; exact o3⟩, ?_, ?_, ?_⟩
    · have hj : a.jplPlanets ∈ runFiles a := by simp [runFiles]
      obtain ⟨x, hx⟩ := Option.ne_none_iff_exists'.1 (p1 _ hj).2
      rw [← hl]
      simp only [hrun _ hj, hx, Option.getD_some]
    · have hj : a.jplSmallBodies ∈ runFiles a := by simp [runFiles]
      obtain ⟨x, hx⟩ := Option.ne_none_iff_exists'.1 (p1 _ hj).2
      rw [← hl]
      simp only [hrun _ hj, hx, Option.getD_some]
    · intro f hf
      rw [o1 f (fun h => hf (h ▸ codes_data a)) (fun h => hf (h ▸ (gz_spec hp).1)), m3 f (fun h => hf (h ▸ meta_data a)),
        p2 f fun h => hf (runFiles_downloaded hp f h).1]
  · constructor
    · rintro ⟨⟨l, c'⟩, h⟩
      simp only [startRun] at h
      rcases h1 : fetchAll a net [a.jplPlanets, a.jplSmallBodies] c with er | c₁
      · rw [h1] at h
        cases h
      rw [h1] at h
      rcases h2 : fetchAll a net a.kernels c₁ with er | c₂
      · simp only [h2, bind, Except.bind] at h
        cases h
      obtain ⟨p1, p2⟩ := first c₁ c₂ h1 h2
      obtain ⟨c₃, y, h3, m1, m2, m3⟩ := second c₂ fun f hf => (p1 f hf).2
      rcases h4 : observatories a net unpack c₃ with er | c₄
      · simp only [h2, h3, fetch_some m1, h4, bind, Except.bind] at h
        cases h
      refine ⟨fun f hf => ?_, ?_⟩
      · obtain ⟨q1, q2⟩ := p1 f hf
        rw [q1] at q2
        exact ne_kept q2
      · have := (third c₃).2.1 ⟨c₄, h4⟩
        rwa [m3 _ hmu.symm, p2 _ hur, m3 _ hgm, p2 _ hgr] at this
    · rintro ⟨h1, h2⟩
      have hav : ∀ f ∈ runFiles a, c f ≠ none ∨ (f ∈ a.toDownload ∧ net f ≠ none) := fun f hf =>
        (h1 f hf).imp id fun h => ⟨(toDownload_iff hp f).2 (runFiles_downloaded hp f hf), h⟩
      obtain ⟨c₁, hc₁⟩ := (fetchAll_spec (a := a) (net := net) [a.jplPlanets, a.jplSmallBodies] c).2
        fun f hf => hav f (by rw [hsplit, List.mem_append]; exact .inl hf)
      obtain ⟨p1, p2⟩ := (fetchAll_spec _ c).1 c₁ hc₁
      obtain ⟨c₂, hc₂⟩ := (fetchAll_spec (a := a) (net := net) a.kernels c₁).2 fun f hf => by
        by_cases hj : f ∈ [a.jplPlanets, a.jplSmallBodies]
        · exact .inl (p1 f hj).2
        · rw [p2 f hj]
          exact hav f (by rw [hsplit, List.mem_append]; exact .inr hf)
      obtain ⟨q1, q2⟩ := first c₁ c₂ hc₁ hc₂
      obtain ⟨c₃, y, h3, m1, m2, m3⟩ := second c₂ fun f hf => (q1 f hf).2
      obtain ⟨c₄, h4⟩ := (third c₃).2.2 (by rwa [m3 _ hmu.symm, q2 _ hur, m3 _ hgm, q2 _ hgr])
      exact ⟨_, by simp only [startRun, hc₁, hc₂, h3, fetch_some m1, h4, bind, Except.bind, pure, Except.pure]; rfl⟩

/-- C70 (loads): a run that starts has loaded the planets and the small bodies of the cache, or else the downloaded ones; the meta-kernel of the cache, or else
one made for this directory, whose kernels are in the cache; the observatory codes of the cache, or else those unpacked from the archive. It changes no file
that was there and touches no other file. -/
theorem C70_loads (hp : Proper a) (hd : Plain a dir) {l : Loaded} (h : startRun a net unpack dir c = .ok (l, c')) :
    some l.planets = kept net c a.jplPlanets ∧ some l.smallBodies = kept net c a.jplSmallBodies ∧
    l.metaKernel = (c a.metaKernel).getD (kernelFile a dir) ∧
    (∀ k ∈ [a.leapSeconds, a.earthHistorical, a.earthPredict, a.orientationConstants, a.planetEphemeris, a.earthHighPrecision],
      c' k = kept net c k ∧ c' k ≠ none) ∧
    (c a.observatoryCodes = some l.observatories ∨ (c a.observatoryCodes = none ∧
      ∃ x, kept net c a.observatoryCodesCompressed = some x ∧ l.observatories = unpack x)) ∧
    (∀ f x, c f = some x → c' f = some x) ∧ ∀ f, f ∉ a.dataFileList → c' f = c f := by
  obtain ⟨h1, ⟨h2, h2'⟩, ⟨h3, h3'⟩, h4, h5, h6⟩ := (startRun_spec hp hd c).1 l c' h
  have hpl : a.jplPlanets ∈ runFiles a := by simp [runFiles]
  have hsm : a.jplSmallBodies ∈ runFiles a := by simp [runFiles]
  refine ⟨by rw [← h4, (h1 _ hpl).1], by rw [← h5, (h1 _ hsm).1], ?_, ?_, ?_, ?_, h6⟩
  · rcases h2' with ⟨h', e⟩ | h'
    · rw [h', e]
      rfl
    · rw [h']
      rfl
  · intro k hk
    exact h1 k (by simp only [runFiles, List.mem_cons]; exact .inr (.inr (by simpa using hk)))
  · rcases h3' with ⟨h', -⟩ | ⟨h', -, x, hx, e⟩
    · exact .inl h'
    · exact .inr ⟨h', x, hx, e⟩
  · intro f x hx
    by_cases hdata : f ∈ a.dataFileList
    · rcases data_cases hp hdata with hf | rfl | rfl
      · by_cases hr : f ∈ runFiles a
        · rw [(h1 f hr).1, kept_some hx]
        · have : f = a.observatoryCodesCompressed := by
            have := (toDownload_iff hp f).2 hf
            simp only [Aux.toDownload, List.mem_cons, List.not_mem_nil, or_false] at this
            simp only [runFiles, List.mem_cons, List.not_mem_nil, or_false, not_or] at hr
            obtain ⟨r1, r2, r3, r4, r5, r6, r7, r8⟩ := hr
            rcases this with h | h | h | h | h | h | h | h | h
            · exact absurd h r7
            · exact absurd h r5
            · exact absurd h r4
            · exact absurd h r8
            · exact absurd h r1
            · exact absurd h r2
            · exact absurd h r3
            · exact h
            · exact absurd h r6
          subst this
          rcases h3' with ⟨-, h'⟩ | ⟨-, h', -⟩
          · rw [h', hx]
          · rw [h', kept_some hx]
      · rcases h2' with ⟨h', -⟩ | h'
        · rw [hx] at h'
          cases h'
        · rw [h2, ← h', hx]
      · rcases h3' with ⟨h', -⟩ | ⟨h', -⟩
        · rw [h3, ← h', hx]
        · rw [hx] at h'
          cases h'
    · rw [h6 f hdata, hx]

/-- C70 (starts): a run can load its files exactly if each of the eight files is there or can be downloaded, and the observatory codes are there, or their
archive is there or can be downloaded. -/
theorem C70_starts (hp : Proper a) (hd : Plain a dir) : (∃ r, startRun a net unpack dir c = .ok r) ↔
    (∀ f ∈ [a.jplPlanets, a.jplSmallBodies, a.leapSeconds, a.earthHistorical, a.earthPredict, a.orientationConstants, a.planetEphemeris,
      a.earthHighPrecision], c f ≠ none ∨ net f ≠ none) ∧
    (c a.observatoryCodes ≠ none ∨ c a.observatoryCodesCompressed ≠ none ∨ net a.observatoryCodesCompressed ≠ none) :=
  (startRun_spec hp hd c).2

/-- C70 (offline): with all data files in the cache, a run loads exactly these files and changes nothing, whatever the network does. -/
theorem C70_offline (hp : Proper a) (hd : Plain a dir) (hall : ∀ f ∈ a.dataFileList, c f ≠ none) (net : Net) :
    ∃ l, startRun a net unpack dir c = .ok (l, c) ∧ c a.metaKernel = some l.metaKernel ∧ c a.jplPlanets = some l.planets ∧
      c a.jplSmallBodies = some l.smallBodies ∧ c a.observatoryCodes = some l.observatories := by
  have hall' : ∀ f, Downloaded a f → c f ≠ none := fun f hf => hall f hf.1
  obtain ⟨⟨l, c'⟩, h⟩ := (startRun_spec (net := net) (unpack := unpack) hp hd c).2.2
    ⟨fun f hf => .inl (hall' f (runFiles_downloaded hp f hf)), .inl (hall _ (codes_data a))⟩
  obtain ⟨h1, h2, h3, h4, h5, h6, h7⟩ := C70_loads hp hd h
  have hc : c' = c := by
    funext f
    rcases hf : c f with _ | x
    · have : f ∉ a.dataFileList := fun h' => hall f h' hf
      rw [h7 f this, hf]
    · exact h6 f x hf
  subst hc
  refine ⟨l, h, ?_, ?_, ?_, ?_⟩
  · obtain ⟨y, hy⟩ := Option.ne_none_iff_exists'.1 (hall _ (meta_data a))
    rw [hy] at h3 ⊢
    rw [h3]
    rfl
  · have hj : a.jplPlanets ∈ runFiles a := by simp [runFiles]
    obtain ⟨y, hy⟩ := Option.ne_none_iff_exists'.1 (hall' _ (runFiles_downloaded hp _ hj))
    rw [kept_some hy] at h1
    rw [hy, h1]
  · have hj : a.jplSmallBodies ∈ runFiles a := by simp [runFiles]
    obtain ⟨y, hy⟩ := Option.ne_none_iff_exists'.1 (hall' _ (runFiles_downloaded hp _ hj))
    rw [kept_some hy] at h2
    rw [hy, h2]
  · rcases h5 with h5 | ⟨h5, -⟩
    · exact h5
    · exact absurd h5 (hall _ (codes_data a))

/-- C70 (after a bootstrap): when `sorcha bootstrap` has ended normally and named no missing file, every later run loads its files without network. -/
theorem C70_after_bootstrap (hp : Proper a) (hd : Plain a dir) {nets : Nets} {force : Bool} (h : Bootstrap a nets unpack dir force c (.normal []) c') (net : Net) :
    ∃ l, startRun a net unpack dir c' = .ok (l, c') := by
  have hall : ∀ f ∈ a.dataFileList, c' f ≠ none := by
    intro f hf hn
    have := ((C69_report hp hd h).1 f).2 ⟨hf, hn⟩
    simp at this
  obtain ⟨l, hl, -⟩ := C70_offline (unpack := unpack) hp hd hall net
  exact ⟨l, hl⟩

/-- C70 (same data): once a run has loaded its files, every later run with the same cache loads the same ones, whatever the network gives then. -/
theorem C70_same (hp : Proper a) (hd : Plain a dir) {l : Loaded} (h : startRun a net unpack dir c = .ok (l, c')) (net' : Net) :
    startRun a net' unpack dir c' = .ok (l, c') := by
  obtain ⟨h1, ⟨h2, -⟩, ⟨h3, -⟩, h4, h5, -⟩ := (startRun_spec hp hd c).1 l c' h
  obtain ⟨⟨l', c''⟩, h'⟩ := (startRun_spec (net := net') (unpack := unpack) hp hd c').2.2
    ⟨fun f hf => .inl (h1 f hf).2, .inl (by rw [h3]; simp)⟩
  obtain ⟨g1, ⟨-, g2⟩, ⟨-, g3⟩, g4, g5, g6⟩ := (startRun_spec hp hd c').1 l' c'' h'
  obtain ⟨-, -, -, -, -, k6, -⟩ := C70_loads hp hd h'
  have hrun : ∀ f ∈ runFiles a, c'' f = c' f := by
    intro f hf
    obtain ⟨x, hx⟩ := Option.ne_none_iff_exists'.1 (h1 f hf).2
    rw [hx, k6 f x hx]
  have em : l'.metaKernel = l.metaKernel := by
    rcases g2 with ⟨h', -⟩ | h'
    · rw [h2] at h'
      cases h'
    · rw [h2] at h'
      injection h' with h'
      exact h'.symm
  have eo : l'.observatories = l.observatories ∧ c'' a.observatoryCodesCompressed = c' a.observatoryCodesCompressed := by
    rcases g3 with ⟨h', hg⟩ | ⟨h', -⟩
    · rw [h3] at h'
      injection h' with h'
      exact ⟨h'.symm, hg⟩
    · rw [h3] at h'
      cases h'
  have ep : l'.planets = l.planets := by
    rw [hrun _ (by simp [runFiles]), h4] at g4
    injection g4 with g4
    exact g4.symm
  have es : l'.smallBodies = l.smallBodies := by
    rw [hrun _ (by simp [runFiles]), h5] at g5
    injection g5 with g5
    exact g5.symm
  have hcc : c'' = c' := by
    funext f
    rcases hf : c' f with _ | x
    · by_cases hdata : f ∈ a.dataFileList
      · rcases data_cases hp hdata with hd' | rfl | rfl
        · by_cases hg : f = a.observatoryCodesCompressed
          · rw [hg, eo.2, ← hg, hf]
          · exfalso
            have hr : f ∈ runFiles a := by
              have := (toDownload_iff hp f).2 hd'
              simp only [Aux.toDownload, List.mem_cons, List.not_mem_nil, or_false] at this
              simp only [runFiles, List.mem_cons, List.not_mem_nil, or_false]
              rcases this with h | h | h | h | h | h | h | h | h
              · simp [h]
              · simp [h]
              · simp [h]
              · simp [h]
              · simp [h]
              · simp [h]
              · simp [h]
              · exact absurd h hg
              · simp [h]
            exact (h1 f hr).2 hf
        · rw [h2] at hf
          cases hf
        · rw [h3] at hf
          cases hf
      · rw [g6 f hdata, hf]
    · exact k6 f x hf
  obtain ⟨m, p, s, o⟩ := l
  obtain ⟨m', p', s', o'⟩ := l'
  simp only at em ep es eo
  rw [h', hcc, em, ep, es, eo.1]

end Sorcha.Setup.Props
