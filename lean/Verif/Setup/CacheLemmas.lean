import Verif.Setup.CacheSpec
import Verif.Cli.Props

/-!
# Lemmas about the cache
-/

namespace Sorcha.Setup

variable {a : Aux} {net : Net} {unpack : List Char → List Char} {dir : List Char}

theorem cput_same (c : Cache) (f : String) (s : List Char) : c.put f s f = some s := by simp [Cache.put]

theorem cput_other (c : Cache) {f g : String} (s : List Char) (h : g ≠ f) : c.put f s g = c g := by simp [Cache.put, h]

theorem cremove_same (c : Cache) (f : String) : c.remove f f = none := by simp [Cache.remove]

theorem cremove_other (c : Cache) {f g : String} (h : g ≠ f) : c.remove f g = c g := by simp [Cache.remove, h]

theorem mem_partly {c s : Cache} {f : String} {t : List Char} : s ∈ partly c f t ↔ ∃ part, part <+: t ∧ s = c.put f part := by
  simp only [partly, List.mem_map, List.mem_inits]
  constructor <;> rintro ⟨x, h, rfl⟩ <;> exact ⟨x, h, rfl⟩

/-- The files to download are the data files but two. -/
theorem toDownload_iff (hp : Spec.Proper a) (f : String) : f ∈ a.toDownload ↔ Spec.Downloaded a f := by
  have hn := hp.nodup
  simp only [Aux.dataFileList, List.nodup_cons, List.mem_cons, not_or, List.not_mem_nil] at hn
  simp only [Spec.Downloaded, Aux.dataFileList, Aux.toDownload, List.mem_cons, List.not_mem_nil, or_false]
  constructor
  · rintro (rfl | rfl | rfl | rfl | rfl | rfl | rfl | rfl | rfl) <;> simp_all [eq_comm]
  · rintro ⟨h1, h2, h3⟩
    simp only [h2, h3, false_or] at h1
    exact h1

theorem meta_not_downloaded (hp : Spec.Proper a) : a.metaKernel ∉ a.toDownload := by
  rw [toDownload_iff hp]
  rintro ⟨-, h, -⟩
  exact h rfl

theorem codes_not_downloaded (hp : Spec.Proper a) : a.observatoryCodes ∉ a.toDownload := by
  rw [toDownload_iff hp]
  rintro ⟨-, -, h⟩
  exact h rfl

theorem gz_downloaded (a : Aux) : a.observatoryCodesCompressed ∈ a.toDownload := by simp [Aux.toDownload]

theorem meta_ne_codes (hp : Spec.Proper a) : a.metaKernel ≠ a.observatoryCodes := by
  have hn := hp.nodup
  simp only [Aux.dataFileList, List.nodup_cons, List.mem_cons, not_or, List.not_mem_nil] at hn
  exact hn.2.2.2.2.2.2.2.1.1

theorem kernels_downloaded (a : Aux) : ∀ k ∈ a.kernels, k ∈ a.toDownload := by
  intro k hk
  simp only [Aux.kernels, Aux.toDownload, List.mem_cons, List.not_mem_nil, or_false] at hk ⊢
  rcases hk with rfl | rfl | rfl | rfl | rfl | rfl <;> simp

theorem download_sub (a : Aux) : ∀ f ∈ a.toDownload, f ∈ a.dataFileList := by
  intro f hf
  simp only [Aux.dataFileList, Aux.toDownload, List.mem_cons, List.not_mem_nil, or_false] at hf ⊢
  rcases hf with rfl | rfl | rfl | rfl | rfl | rfl | rfl | rfl | rfl <;> simp

theorem fetch_some {f : String} {c : Cache} {x : List Char} (h : c f = some x) : fetch a net f c = .ok c := by
  rw [fetch, if_pos (by rw [h]; rfl)]

theorem fetch_cases (f : String) (c : Cache) :
    (∃ x, c f = some x ∧ fetch a net f c = .ok c) ∨
    (c f = none ∧ f ∈ a.toDownload ∧ ∃ x, net f = some x ∧ fetch a net f c = .ok (c.put f x)) ∨
    (c f = none ∧ (f ∈ a.toDownload → net f = none) ∧ fetch a net f c = .error .download) := by
  rcases hc : c f with _ | x
  · rw [fetch, if_neg (by rw [hc]; simp)]
    by_cases hm : f ∈ a.toDownload
    · rw [if_pos hm]
      rcases hnet : net f with _ | x
      · exact .inr (.inr ⟨rfl, fun _ => rfl, rfl⟩)
      · exact .inr (.inl ⟨rfl, hm, x, rfl, rfl⟩)
    · rw [if_neg hm]
      exact .inr (.inr ⟨rfl, fun h => absurd h hm, rfl⟩)
  · exact .inl ⟨x, rfl, fetch_some hc⟩

/-- Everything about the removal. -/
theorem removeAll_spec (l : List String) (hl : l.Nodup) (c : Cache) :
    (∀ s, s ∈ (removeAll a net l c).passed ∨ s = (removeAll a net l c).cache → ∀ f, s f = c f ∨ s f = none ∨
      (f ∈ a.toDownload ∧ s f = net f)) ∧
    ((removeAll a net l c).result = .ok () → (∀ f ∈ l, (removeAll a net l c).cache f = none) ∧
      (∀ f, f ∉ l → (removeAll a net l c).cache f = c f) ∧ ∀ f ∈ l, c f ≠ none ∨ (f ∈ a.toDownload ∧ net f ≠ none)) ∧
    ((∀ f ∈ l, c f ≠ none ∨ (f ∈ a.toDownload ∧ net f ≠ none)) → (removeAll a net l c).result = .ok ()) := by
  induction l generalizing c with
  | nil =>
    refine ⟨?_, by simp [removeAll], by simp [removeAll]⟩
    intro s hs f
    have : s = c := by simpa [removeAll] using hs
    rw [this]
    exact .inl rfl
  | cons f fs ih =>
    obtain ⟨hf, hfs⟩ := List.nodup_cons.1 hl
    rw [removeAll]
    have main : ∀ c' : Cache, (∀ g, g ≠ f → c' g = c g) → (∀ g, c' g = c g ∨ (c g = none ∧ g ∈ a.toDownload ∧ c' g = net g)) →
        (c f ≠ none ∨ (f ∈ a.toDownload ∧ net f ≠ none)) →
        (∀ s, s ∈ c :: c' :: (removeAll a net fs (c'.remove f)).passed ∨ s = (removeAll a net fs (c'.remove f)).cache → ∀ g, s g = c g ∨ s g = none ∨
          (g ∈ a.toDownload ∧ s g = net g)) ∧
        ((removeAll a net fs (c'.remove f)).result = .ok () → (∀ g ∈ f :: fs, (removeAll a net fs (c'.remove f)).cache g = none) ∧
          (∀ g, g ∉ f :: fs → (removeAll a net fs (c'.remove f)).cache g = c g) ∧ ∀ g ∈ f :: fs, c g ≠ none ∨ (g ∈ a.toDownload ∧ net g ≠ none)) ∧
        ((∀ g ∈ f :: fs, c g ≠ none ∨ (g ∈ a.toDownload ∧ net g ≠ none)) → (removeAll a net fs (c'.remove f)).result = .ok ()) := by
      intro c' h1 h2 h3
      obtain ⟨i1, i2, i3⟩ := ih hfs (c'.remove f)
      have hrem : ∀ g ∈ fs, (c'.remove f) g = c g := by
        intro g hg
        have : g ≠ f := fun h => hf (h ▸ hg)
        rw [cremove_other _ this, h1 g this]
      refine ⟨?_, ?_, ?_⟩
      · intro s hs g
        have hcase : s = c ∨ s = c' ∨ (s ∈ (removeAll a net fs (c'.remove f)).passed ∨ s = (removeAll a net fs (c'.remove f)).cache) := by
          simp only [List.mem_cons] at hs
          rcases hs with (h | h | h) | h
          · exact .inl h
          · exact .inr (.inl h)
          · exact .inr (.inr (.inl h))
          · exact .inr (.inr (.inr h))
        rcases hcase with rfl | rfl | hs
        · exact .inl rfl
        · rcases h2 g with h | h
          · exact .inl h
          · exact .inr (.inr h.2)
        · by_cases hg : g = f
          · subst hg
            rcases i1 s hs g with h | h | ⟨h, h'⟩
            · rw [cremove_same] at h
              exact .inr (.inl h)
            · exact .inr (.inl h)
            · exact .inr (.inr ⟨h, h'⟩)
          · rcases i1 s hs g with h | h | ⟨h, h'⟩
            · rw [cremove_other _ hg, h1 g hg] at h
              exact .inl h
            · exact .inr (.inl h)
            · exact .inr (.inr ⟨h, h'⟩)
      · intro hok
        obtain ⟨j1, j2, j3⟩ := i2 hok
        refine ⟨?_, ?_, ?_⟩
        · intro g hg
          rcases List.mem_cons.1 hg with rfl | hg
          · rw [j2 g hf, cremove_same]
          · exact j1 g hg
        · intro g hg
          have h1' : g ≠ f := fun h => hg (by rw [h]; simp)
          rw [j2 g fun h => hg (List.mem_cons_of_mem _ h), cremove_other _ h1', h1 g h1']
        · intro g hg
          rcases List.mem_cons.1 hg with rfl | hg
          · exact h3
          · have := j3 g hg
            rwa [hrem g hg] at this
      · intro h
        exact i3 fun g hg => by
          rw [hrem g hg]
          exact h g (List.mem_cons_of_mem _ hg)
    rcases fetch_cases (a := a) (net := net) f c with ⟨x, hx, hfe⟩ | ⟨hx, hm, y, hy, hfe⟩ | ⟨hx, hm, hfe⟩
    · rw [hfe]
      exact main c (fun _ _ => rfl) (fun _ => .inl rfl) (.inl (by rw [hx]; simp))
    · rw [hfe]
      refine main (c.put f y) (fun g hg => cput_other _ _ hg) (fun g => ?_) (.inr ⟨hm, by rw [hy]; simp⟩)
      by_cases hg : g = f
      · subst hg
        exact .inr ⟨hx, hm, by rw [cput_same, hy]⟩
      · exact .inl (cput_other _ _ hg)
    · rw [hfe]
      refine ⟨?_, by simp, ?_⟩
      · intro s hs g
        have : s = c := by simpa using hs
        rw [this]
        exact .inl rfl
      · intro h
        rcases h f (by simp) with h | ⟨h1, h2⟩
        · exact absurd hx h
        · exact absurd (hm h1) h2

/-! ## The meta-kernel -/

/-- The text written so far, after some kernels. -/
def metaText (dir : List Char) (text : List Char) (fs : List String) : List Char := text ++ fs.flatMap (metaLine dir) ++ metaFoot

theorem assoc_of_splits {a a1 a2 b c c1 c2 c3 d e e1 e2 : List Char} (h1 : a = a1 ++ a2) (h2 : c = c1 ++ c2 ++ c3) (h3 : e = e1 ++ e2) :
    a1 ++ a2 ++ b ++ c1 ++ c2 ++ c3 ++ d ++ (e1 ++ e2) = a ++ b ++ c ++ d ++ e := by
  subst h1 h2 h3
  simp only [List.append_assoc]

/-- The complete text is the documented one. -/
theorem metaText_eq (h : Spec.Plain a dir) : metaText dir (metaHead dir) a.kernels = Spec.kernelFile a dir := by
  have hline : ∀ k ∈ a.kernels, metaLine dir k = "    '$A/".toList ++ k.toList ++ "',\n".toList := by
    intro k hk
    rw [metaLine, Cli.Props.C44_file_name dir k.toList h.1 (by
      rintro ⟨x, y, hxy⟩
      exact h.2 k hk x y hxy)]
    have : "    '$A/".toList = "    '".toList ++ "$A/".toList := by decide +kernel
    rw [this]
    simp only [List.append_assoc]
  have hflat : ∀ l : List String, (∀ k ∈ l, metaLine dir k = "    '$A/".toList ++ k.toList ++ "',\n".toList) →
      l.flatMap (metaLine dir) = l.flatMap fun k => "    '$A/".toList ++ k.toList ++ "',\n".toList := by
    intro l
    induction l with
    | nil => intro _; rfl
    | cons k l ih =>
      intro hl
      rw [List.flatMap_cons, List.flatMap_cons, hl k (by simp), ih fun x hx => hl x (List.mem_cons_of_mem _ hx)]
  have e1 : "\\begindata\n\nPATH_VALUES = ('".toList = "\\begindata\n\n".toList ++ "PATH_VALUES = ('".toList := by decide +kernel
  have e2 : "')\n\nPATH_SYMBOLS = ('A')\n\nKERNELS_TO_LOAD=(\n".toList = "')\n\n".toList ++ "PATH_SYMBOLS = ('A')\n\n".toList ++ "KERNELS_TO_LOAD=(\n".toList := by
    decide +kernel
  have e3 : ")\n\n\\begintext\n".toList = ")\n\n".toList ++ "\\begintext\n".toList := by decide +kernel
  have main : ∀ d, metaHead dir ++ d ++ metaFoot = "\\begindata\n\nPATH_VALUES = ('".toList ++ Cli.splitPath 79 dir ++
      "')\n\nPATH_SYMBOLS = ('A')\n\nKERNELS_TO_LOAD=(\n".toList ++ d ++ ")\n\n\\begintext\n".toList := by
    intro d
    delta metaHead metaFoot
    exact assoc_of_splits e1 e2 e3
  delta metaText Spec.kernelFile
  exact (main _).trans (congrArg (fun d => _ ++ _ ++ _ ++ d ++ _) (hflat _ hline))

theorem metaLoop_spec (fs : List String) (hm : a.metaKernel ∉ fs) (text : List Char) (c : Cache) :
    (∀ s, s ∈ (metaLoop a net dir fs text c).passed ∨ s = (metaLoop a net dir fs text c).cache →
      (∃ part, part <+: metaText dir text fs ∧ s a.metaKernel = some part) ∧
      ∀ f, f ≠ a.metaKernel → s f = c f ∨ (c f = none ∧ f ∈ fs ∧ f ∈ a.toDownload ∧ s f = net f)) ∧
    ((metaLoop a net dir fs text c).result = .ok () → (metaLoop a net dir fs text c).cache a.metaKernel = some (metaText dir text fs) ∧
      ∀ f ∈ fs, (metaLoop a net dir fs text c).cache f ≠ none) ∧
    ((∀ f ∈ fs, c f ≠ none ∨ (f ∈ a.toDownload ∧ net f ≠ none)) → (metaLoop a net dir fs text c).result = .ok ()) := by
  induction fs generalizing text c with
  | nil =>
    simp only [metaLoop, metaText, List.flatMap_nil, List.append_nil]
    refine ⟨?_, fun _ => ⟨cput_same _ _ _, by simp⟩, fun _ => trivial⟩
    intro s hs
    have : ∃ part, part <+: text ++ metaFoot ∧ s = c.put a.metaKernel part := by
      rcases hs with h | h
      · exact mem_partly.1 h
      · exact ⟨_, List.prefix_rfl, h⟩
    obtain ⟨part, hpart, rfl⟩ := this
    exact ⟨⟨part, hpart, cput_same _ _ _⟩, fun f hf => .inl (cput_other _ _ hf)⟩
  | cons k ks ih =>
    have hk : k ≠ a.metaKernel := fun h => hm (by rw [h]; simp)
    have hks : a.metaKernel ∉ ks := fun h => hm (List.mem_cons_of_mem _ h)
    have hpre : ∀ part, part <+: text → part <+: metaText dir text (k :: ks) := by
      intro part h
      refine h.trans ?_
      rw [metaText, List.append_assoc]
      exact List.prefix_append _ _
    have htext : metaText dir (text ++ metaLine dir k) ks = metaText dir text (k :: ks) := by
      simp only [metaText, List.flatMap_cons, List.append_assoc]
    rw [metaLoop]
    have main : ∀ c' : Cache, (∀ g, c' g = c g ∨ (c g = none ∧ g = k ∧ g ∈ a.toDownload ∧ c' g = net g)) → c' k ≠ none →
        (∀ s, s ∈ partly c a.metaKernel text ++ (metaLoop a net dir ks (text ++ metaLine dir k) c').passed ∨
            s = (metaLoop a net dir ks (text ++ metaLine dir k) c').cache →
          (∃ part, part <+: metaText dir text (k :: ks) ∧ s a.metaKernel = some part) ∧
          ∀ f, f ≠ a.metaKernel → s f = c f ∨ (c f = none ∧ f ∈ k :: ks ∧ f ∈ a.toDownload ∧ s f = net f)) ∧
        ((metaLoop a net dir ks (text ++ metaLine dir k) c').result = .ok () →
          (metaLoop a net dir ks (text ++ metaLine dir k) c').cache a.metaKernel = some (metaText dir text (k :: ks)) ∧
          ∀ f ∈ k :: ks, (metaLoop a net dir ks (text ++ metaLine dir k) c').cache f ≠ none) ∧
        ((∀ f ∈ k :: ks, c f ≠ none ∨ (f ∈ a.toDownload ∧ net f ≠ none)) →
          (metaLoop a net dir ks (text ++ metaLine dir k) c').result = .ok ()) := by
      intro c' h1 h2
      obtain ⟨i1, i2, i3⟩ := ih hks (text ++ metaLine dir k) c'
      rw [htext] at i1 i2
      refine ⟨?_, ?_, ?_⟩
      · intro s hs
        have hcase : (∃ part, part <+: text ∧ s = c.put a.metaKernel part) ∨ (s ∈ (metaLoop a net dir ks (text ++ metaLine dir k) c').passed ∨
            s = (metaLoop a net dir ks (text ++ metaLine dir k) c').cache) := by
          simp only [List.mem_append, mem_partly] at hs
          rcases hs with (h | h) | h
          · exact .inl h
          · exact .inr (.inl h)
          · exact .inr (.inr h)
        rcases hcase with ⟨part, hpart, rfl⟩ | hs
        · exact ⟨⟨part, hpre part hpart, cput_same _ _ _⟩, fun f hf => .inl (cput_other _ _ hf)⟩
        · obtain ⟨j1, j2⟩ := i1 s hs
          refine ⟨j1, fun f hf => ?_⟩
          rcases j2 f hf with h | ⟨h, hb, hc, hd⟩
          · rcases h1 f with g | ⟨g, gb, gc, gd⟩
            · exact .inl (h.trans g)
            · exact .inr ⟨g, by rw [gb]; simp, gc, h.trans gd⟩
          · rcases h1 f with g | ⟨g, gb, gc, gd⟩
            · exact .inr ⟨by rw [← g]; exact h, List.mem_cons_of_mem _ hb, hc, hd⟩
            · exact .inr ⟨g, by rw [gb]; simp, gc, hd⟩
      · intro hok
        obtain ⟨j1, j2⟩ := i2 hok
        refine ⟨j1, ?_⟩
        intro f hf
        rcases List.mem_cons.1 hf with rfl | hf
        · rcases (i1 _ (.inr rfl)).2 f hk with h | ⟨h, -⟩
          · rw [h]; exact h2
          · exact absurd h h2
        · exact j2 f hf
      · intro h
        refine i3 fun f hf => ?_
        rcases h1 f with g | ⟨-, gb, -, -⟩
        · rw [g]
          exact h f (List.mem_cons_of_mem _ hf)
        · rw [gb]
          exact .inl h2
    rcases fetch_cases (a := a) (net := net) k c with ⟨x, hx, hfe⟩ | ⟨hx, hmem, y, hy, hfe⟩ | ⟨hx, hmem, hfe⟩
    · rw [hfe]
      exact main c (fun _ => .inl rfl) (by rw [hx]; simp)
    · rw [hfe]
      refine main (c.put k y) (fun g => ?_) (by rw [cput_same]; simp)
      by_cases hg : g = k
      · subst hg
        exact .inr ⟨hx, rfl, hmem, by rw [cput_same, hy]⟩
      · exact .inl (cput_other _ _ hg)
    · rw [hfe]
      refine ⟨?_, by simp, ?_⟩
      · intro s hs
        have : ∃ part, part <+: text ∧ s = c.put a.metaKernel part := by
          rcases hs with h | h
          · exact mem_partly.1 h
          · exact ⟨_, List.prefix_rfl, h⟩
        obtain ⟨part, hpart, rfl⟩ := this
        exact ⟨⟨part, hpre part hpart, cput_same _ _ _⟩, fun f hf => .inl (cput_other _ _ hf)⟩
      · intro h
        rcases h k (by simp) with h | ⟨h1, h2⟩
        · exact absurd hx h
        · exact absurd (hmem h1) h2

theorem buildMeta_spec (hp : Spec.Proper a) (hd : Spec.Plain a dir) (c : Cache) :
    (∀ s, s ∈ (buildMeta a net dir c).passed ∨ s = (buildMeta a net dir c).cache →
      (s = c ∨ ∃ part, part <+: Spec.kernelFile a dir ∧ s a.metaKernel = some part) ∧
      ∀ f, f ≠ a.metaKernel → s f = c f ∨ (c f = none ∧ f ∈ a.toDownload ∧ s f = net f)) ∧
    ((buildMeta a net dir c).result = .ok () → (buildMeta a net dir c).cache a.metaKernel = some (Spec.kernelFile a dir) ∧
      ∀ f ∈ a.kernels, (buildMeta a net dir c).cache f ≠ none) ∧
    ((∀ f ∈ a.kernels, c f ≠ none ∨ net f ≠ none) → (buildMeta a net dir c).result = .ok ()) := by
  have hm : a.metaKernel ∉ a.kernels := fun h => meta_not_downloaded hp (kernels_downloaded a _ h)
  obtain ⟨h1, h2, h3⟩ := metaLoop_spec (a := a) (net := net) (dir := dir) a.kernels hm (metaHead dir) c
  rw [metaText_eq hd] at h1 h2
  simp only [buildMeta]
  refine ⟨?_, h2, fun h => h3 fun f hf => ?_⟩
  · intro s hs
    have hcase : s = c ∨ (s ∈ (metaLoop a net dir a.kernels (metaHead dir) c).passed ∨ s = (metaLoop a net dir a.kernels (metaHead dir) c).cache) := by
      simp only [List.mem_cons] at hs
      rcases hs with (h | h) | h
      · exact .inl h
      · exact .inr (.inl h)
      · exact .inr (.inr h)
    rcases hcase with rfl | hs
    · exact ⟨.inl rfl, fun _ _ => .inl rfl⟩
    · obtain ⟨j1, j2⟩ := h1 s hs
      refine ⟨.inr j1, fun f hf => ?_⟩
      rcases j2 f hf with h | ⟨h, -, hb, hc⟩
      · exact .inl h
      · exact .inr ⟨h, hb, hc⟩
  · rcases h f hf with h | h
    · exact .inl h
    · exact .inr ⟨kernels_downloaded a f hf, h⟩

end Sorcha.Setup
