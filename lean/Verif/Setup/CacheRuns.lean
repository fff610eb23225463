import Verif.Setup.CacheLemmas

/-!
# Lemmas about the parallel downloads
-/

namespace Sorcha.Setup

variable {a : Aux} {net : Net} {unpack : List Char → List Char} {dir : List Char}

theorem stage_same (s : Par) (f : String) (c : Cache) (st : Stage) : (s.to f c st).stage f = st := by simp [Par.to]

theorem stage_other (s : Par) {f g : String} (c : Cache) (st : Stage) (h : g ≠ f) : (s.to f c st).stage g = s.stage g := by simp [Par.to, h]

/-- What holds in every state of the downloads. -/
structure Inv (a : Aux) (net : Net) (unpack : List Char → List Char) (c : Cache) (s : Par) : Prop where
  outside : ∀ f, f ∉ a.toDownload → f ≠ a.observatoryCodes → s.cache f = c f
  waiting : ∀ f ∈ a.toDownload, s.stage f = .waiting → s.cache f = c f
  fetched : ∀ f ∈ a.toDownload, s.stage f ≠ .waiting → s.cache f = Spec.kept net c f
  plain : ∀ f ∈ a.toDownload, f ≠ a.observatoryCodesCompressed → s.stage f = .waiting ∨ s.stage f = .done
  codesWaiting : s.stage a.observatoryCodesCompressed = .waiting → s.cache a.observatoryCodes = c a.observatoryCodes
  codesWriting : ∀ t k, s.stage a.observatoryCodesCompressed = .unpacking t k → Spec.codesAfter a unpack net c = some t ∧ k ≤ t.length ∧
    (c a.observatoryCodesCompressed = none ∨ c a.observatoryCodes = none) ∧
    (∃ x, Spec.kept net c a.observatoryCodesCompressed = some x ∧ t = unpack x) ∧
    ((k = 0 ∧ s.cache a.observatoryCodes = c a.observatoryCodes) ∨ (1 ≤ k ∧ s.cache a.observatoryCodes = some (t.take (k - 1))))
  codesDone : s.stage a.observatoryCodesCompressed = .done → s.cache a.observatoryCodes = Spec.codesAfter a unpack net c

theorem kept_some {c : Cache} {f : String} {x : List Char} (h : c f = some x) : Spec.kept net c f = some x := by rw [Spec.kept, h]

theorem kept_none {c : Cache} {f : String} (h : c f = none) : Spec.kept net c f = net f := by rw [Spec.kept, h]

theorem inv_start (c : Cache) : Inv a net unpack c ⟨c, fun _ => .waiting⟩ where
  outside _ _ _ := rfl
  waiting _ _ _ := rfl
  fetched _ _ h := absurd rfl h
  plain _ _ _ := .inl rfl
  codesWaiting _ := rfl
  codesWriting _ _ h := by simp at h
  codesDone h := by simp at h

/-- A download of a file that is not packed. -/
theorem inv_plain (hp : Spec.Proper a) {c : Cache} {s : Par} (h : Inv a net unpack c s) {f : String} (hf : f ∈ a.toDownload)
    (hg : f ≠ a.observatoryCodesCompressed) (c' : Cache) (hother : ∀ g, g ≠ f → c' g = s.cache g) (hthis : c' f = Spec.kept net c f) :
    Inv a net unpack c (s.to f c' .done) := by
  have hu : a.observatoryCodes ≠ f := fun h' => codes_not_downloaded hp (h' ▸ hf)
  refine ⟨?_, ?_, ?_, ?_, ?_, ?_, ?_⟩
  · intro g hg' hgu
    have : g ≠ f := fun h' => hg' (h' ▸ hf)
    exact (hother g this).trans (h.outside g hg' hgu)
  · intro g hg' hst
    by_cases e : g = f
    · subst e
      rw [stage_same] at hst
      simp at hst
    · rw [stage_other _ _ _ e] at hst
      exact (hother g e).trans (h.waiting g hg' hst)
  · intro g hg' hst
    by_cases e : g = f
    · subst e
      exact hthis
    · rw [stage_other _ _ _ e] at hst
      exact (hother g e).trans (h.fetched g hg' hst)
  · intro g hg' hgz
    by_cases e : g = f
    · subst e
      rw [stage_same]
      exact .inr rfl
    · rw [stage_other _ _ _ e]
      exact h.plain g hg' hgz
  · intro hst
    rw [stage_other _ _ _ (Ne.symm hg)] at hst
    exact (hother _ hu).trans (h.codesWaiting hst)
  · intro t k hst
    rw [stage_other _ _ _ (Ne.symm hg)] at hst
    have := h.codesWriting t k hst
    rw [show (s.to f c' .done).cache a.observatoryCodes = s.cache a.observatoryCodes from hother _ hu]
    exact this
  · intro hst
    rw [stage_other _ _ _ (Ne.symm hg)] at hst
    exact (hother _ hu).trans (h.codesDone hst)

/-- A step of the download of the packed file. -/
theorem inv_packed (hp : Spec.Proper a) {c : Cache} {s : Par} (h : Inv a net unpack c s) (c' : Cache) (st : Stage) (hst : st ≠ .waiting)
    (hother : ∀ g, g ≠ a.observatoryCodesCompressed → g ≠ a.observatoryCodes → c' g = s.cache g)
    (hthis : c' a.observatoryCodesCompressed = Spec.kept net c a.observatoryCodesCompressed)
    (hw : ∀ t k, st = .unpacking t k → Spec.codesAfter a unpack net c = some t ∧ k ≤ t.length ∧
      (c a.observatoryCodesCompressed = none ∨ c a.observatoryCodes = none) ∧
      (∃ x, Spec.kept net c a.observatoryCodesCompressed = some x ∧ t = unpack x) ∧
      ((k = 0 ∧ c' a.observatoryCodes = c a.observatoryCodes) ∨ (1 ≤ k ∧ c' a.observatoryCodes = some (t.take (k - 1)))))
    (hd : st = .done → c' a.observatoryCodes = Spec.codesAfter a unpack net c) :
    Inv a net unpack c (s.to a.observatoryCodesCompressed c' st) := by
  have hgz := gz_downloaded a
  refine ⟨?_, ?_, ?_, ?_, ?_, ?_, ?_⟩
  · intro g hg' hgu
    have : g ≠ a.observatoryCodesCompressed := fun h' => hg' (h' ▸ hgz)
    exact (hother g this hgu).trans (h.outside g hg' hgu)
  · intro g hg' hs
    by_cases e : g = a.observatoryCodesCompressed
    · subst e
      rw [stage_same] at hs
      exact absurd hs hst
    · rw [stage_other _ _ _ e] at hs
      exact (hother g e fun h' => codes_not_downloaded hp (h' ▸ hg')).trans (h.waiting g hg' hs)
  · intro g hg' hs
    by_cases e : g = a.observatoryCodesCompressed
    · subst e
      exact hthis
    · rw [stage_other _ _ _ e] at hs
      exact (hother g e fun h' => codes_not_downloaded hp (h' ▸ hg')).trans (h.fetched g hg' hs)
  · intro g hg' e
    rw [stage_other _ _ _ e]
    exact h.plain g hg' e
  · intro hs
    rw [stage_same] at hs
    exact absurd hs hst
  · intro t k hs
    rw [stage_same] at hs
    exact hw t k hs
  · intro hs
    rw [stage_same] at hs
    exact hd hs

theorem inv_advance (hp : Spec.Proper a) {c : Cache} {s : Par} (h : Inv a net unpack c s) {f : String} (hf : f ∈ a.toDownload) :
    Inv a net unpack c (advance a net unpack f s) := by
  by_cases hg : f = a.observatoryCodesCompressed
  · subst hg
    have hne : a.observatoryCodes ≠ a.observatoryCodesCompressed := fun h' => codes_not_downloaded hp (h' ▸ hf)
    rcases hst : s.stage a.observatoryCodesCompressed with _ | ⟨t, k⟩ | _
    · simp only [advance, hst]
      have hw := h.waiting _ hf hst
      have hcw := h.codesWaiting hst
      rcases fetch_cases (a := a) (net := net) a.observatoryCodesCompressed s.cache with ⟨x, hx, hfe⟩ | ⟨hx, hm, y, hy, hfe⟩ | ⟨hx, hm, hfe⟩
      · rw [hfe]
        have hcx : c a.observatoryCodesCompressed = some x := by rw [← hw, hx]
        refine inv_packed hp h _ _ ?_ (fun _ _ _ => rfl) (by rw [hx, kept_some hcx]) ?_ ?_
        · simp only [afterFetch, hp.codes]
          split <;> simp
        · intro t k ht
          simp only [afterFetch, hp.codes, hx, Option.isNone_some, Bool.false_or, Option.getD_some] at ht
          split at ht
          · rename_i hu
            rw [hcw, Option.isNone_iff_eq_none] at hu
            injection ht with ht hk
            subst ht hk
            refine ⟨?_, Nat.zero_le _, .inr hu, ⟨x, kept_some hcx, rfl⟩, .inl ⟨rfl, hcw⟩⟩
            simp only [Spec.codesAfter, hcx, hu]
          · simp at ht
        · intro ht
          simp only [afterFetch, hp.codes, hx, Option.isNone_some, Bool.false_or] at ht
          split at ht
          · simp at ht
          · rename_i hu
            rw [hcw] at hu ⊢
            rcases hcu : c a.observatoryCodes with _ | y
            · rw [hcu] at hu
              simp at hu
            · simp only [Spec.codesAfter, hcx, hcu]
      · rw [hfe]
        have hcx : c a.observatoryCodesCompressed = none := by rw [← hw, hx]
        refine inv_packed hp h _ _ ?_ (fun g hg _ => cput_other _ _ hg) (by rw [cput_same, kept_none hcx, hy]) ?_ ?_
        · simp only [afterFetch, hp.codes, hx, Option.isNone_none, Bool.true_or]
          simp
        · intro t k ht
          simp only [afterFetch, hp.codes, hx, Option.isNone_none, Bool.true_or, if_true, cput_same, Option.getD_some] at ht
          injection ht with ht hk
          subst ht hk
          refine ⟨?_, Nat.zero_le _, .inl hcx, ⟨y, by rw [kept_none hcx, hy], rfl⟩, .inl ⟨rfl, by rw [cput_other _ _ hne, hcw]⟩⟩
          simp only [Spec.codesAfter, hcx, hy]
        · intro ht
          simp [afterFetch, hp.codes, hx] at ht
      · rw [hfe]
        have hcx : c a.observatoryCodesCompressed = none := by rw [← hw, hx]
        refine inv_packed hp h _ _ (by simp) (fun _ _ _ => rfl) (by rw [hx, kept_none hcx, hm hf]) (by simp) ?_
        intro _
        rw [hcw]
        simp only [Spec.codesAfter, hcx, hm hf]
    · simp only [advance, hst, hp.codes, Option.getD_some]
      obtain ⟨h1, h2, h3, h4, -⟩ := h.codesWriting t k hst
      have hfet := h.fetched _ hf (by rw [hst]; simp)
      refine inv_packed hp h _ _ ?_ (fun g _ hg => cput_other _ _ hg) (by rw [cput_other _ _ hne.symm, hfet]) ?_ ?_
      · split <;> simp
      · intro t' k' ht
        split at ht
        · rename_i hk
          injection ht with ht hk'
          subst ht hk'
          exact ⟨h1, hk, h3, h4, .inr ⟨by omega, by rw [cput_same, Nat.add_sub_cancel]⟩⟩
        · simp at ht
      · intro ht
        split at ht
        · simp at ht
        · rename_i hk
          rw [cput_same, h1, List.take_of_length_le (by omega)]
    · simp only [advance, hst]
      exact h
  · rcases h.plain f hf hg with hst | hst
    · simp only [advance, hst]
      have hw := h.waiting _ hf hst
      have haf : ∀ b c', afterFetch unpack f b c' = .done := by
        intro b c'
        simp only [afterFetch, hp.plain f hf hg]
      rcases fetch_cases (a := a) (net := net) f s.cache with ⟨x, hx, hfe⟩ | ⟨hx, hm, y, hy, hfe⟩ | ⟨hx, hm, hfe⟩
      · rw [hfe]
        simp only [haf]
        exact inv_plain hp h hf hg _ (fun _ _ => rfl) (by rw [hx, kept_some (by rw [← hw, hx])])
      · rw [hfe]
        simp only [haf]
        exact inv_plain hp h hf hg _ (fun g hg => cput_other _ _ hg) (by rw [cput_same, kept_none (by rw [← hw, hx]), hy])
      · rw [hfe]
        exact inv_plain hp h hf hg _ (fun _ _ => rfl) (by rw [hx, kept_none (by rw [← hw, hx]), hm hf])
    · simp only [advance, hst]
      exact h

theorem inv_runs (hp : Spec.Proper a) {c : Cache} {s : Par} (h : Runs a net unpack ⟨c, fun _ => .waiting⟩ s) : Inv a net unpack c s := by
  induction h with
  | start => exact inv_start c
  | step name _ hn ih => exact inv_advance hp ih hn

/-- The cache when all downloads are done. -/
theorem finished_cache (hp : Spec.Proper a) {c : Cache} {s : Par} (h : Runs a net unpack ⟨c, fun _ => .waiting⟩ s) (hf : Finished a s) :
    (∀ f, Spec.Downloaded a f → s.cache f = Spec.kept net c f) ∧ s.cache a.observatoryCodes = Spec.codesAfter a unpack net c ∧
    ∀ f, ¬ Spec.Downloaded a f → f ≠ a.observatoryCodes → s.cache f = c f := by
  have hi := inv_runs hp h
  refine ⟨?_, ?_, ?_⟩
  · intro f hd
    have hm := (toDownload_iff hp f).2 hd
    exact hi.fetched f hm (by rw [hf f hm]; simp)
  · exact hi.codesDone (hf _ (gz_downloaded a))
  · intro f hd hu
    exact hi.outside f (fun h => hd ((toDownload_iff hp f).1 h)) hu

theorem runs_trans {s t r : Par} (h1 : Runs a net unpack s t) (h2 : Runs a net unpack t r) : Runs a net unpack s r := by
  induction h2 with
  | start => exact h1
  | step name _ hn ih => exact .step name ih hn

theorem advance_other (f : String) (s : Par) {g : String} (h : g ≠ f) : (advance a net unpack f s).stage g = s.stage g := by
  unfold advance
  split
  · split
    · exact stage_other _ _ _ h
    · exact stage_other _ _ _ h
  · exact stage_other _ _ _ h
  · rfl

/-- One download can always be finished. -/
theorem finish_one (f : String) (hf : f ∈ a.toDownload) (s : Par) :
    ∃ t, Runs a net unpack s t ∧ t.stage f = .done ∧ ∀ g, g ≠ f → t.stage g = s.stage g := by
  have unp : ∀ n (s : Par) t k, s.stage f = .unpacking t k → t.length - k = n →
      ∃ r, Runs a net unpack s r ∧ r.stage f = .done ∧ ∀ g, g ≠ f → r.stage g = s.stage g := by
    intro n
    induction n with
    | zero =>
      intro s t k hs hn
      refine ⟨advance a net unpack f s, .step f .start hf, ?_, fun g hg => advance_other f s hg⟩
      simp only [advance, hs, stage_same, if_neg (show ¬ k < t.length by omega)]
    | succ n ih =>
      intro s t k hs hn
      have h1 : (advance a net unpack f s).stage f = .unpacking t (k + 1) := by
        simp only [advance, hs, stage_same, if_pos (show k < t.length by omega)]
      obtain ⟨r, r1, r2, r3⟩ := ih (advance a net unpack f s) t (k + 1) h1 (by omega)
      exact ⟨r, runs_trans (.step f .start hf) r1, r2, fun g hg => (r3 g hg).trans (advance_other f s hg)⟩
  have nw : ∀ s : Par, s.stage f ≠ .waiting → ∃ r, Runs a net unpack s r ∧ r.stage f = .done ∧ ∀ g, g ≠ f → r.stage g = s.stage g := by
    intro s hs
    rcases hst : s.stage f with _ | ⟨t, k⟩ | _
    · exact absurd hst hs
    · exact unp _ s t k hst rfl
    · exact ⟨s, .start, hst, fun _ _ => rfl⟩
  by_cases hs : s.stage f = .waiting
  · have : (advance a net unpack f s).stage f ≠ .waiting := by
      simp only [advance, hs]
      split
      · simp [stage_same]
      · rw [stage_same]
        unfold afterFetch
        split
        · simp
        · split <;> simp
    obtain ⟨r, r1, r2, r3⟩ := nw _ this
    exact ⟨r, runs_trans (.step f .start hf) r1, r2, fun g hg => (r3 g hg).trans (advance_other f s hg)⟩
  · exact nw s hs

/-- All downloads can always be finished. -/
theorem finish_all (s : Par) : ∃ t, Runs a net unpack s t ∧ Finished a t := by
  have : ∀ l : List String, (∀ f ∈ l, f ∈ a.toDownload) → ∀ s : Par, ∃ t, Runs a net unpack s t ∧ (∀ f ∈ l, t.stage f = .done) ∧
      ∀ f, s.stage f = .done → t.stage f = .done := by
    intro l
    induction l with
    | nil => exact fun _ s => ⟨s, .start, by simp, fun _ h => h⟩
    | cons f l ih =>
      intro hl s
      obtain ⟨t, t1, t2, t3⟩ := finish_one (a := a) (net := net) (unpack := unpack) f (hl f (by simp)) s
      obtain ⟨r, r1, r2, r3⟩ := ih (fun g hg => hl g (List.mem_cons_of_mem _ hg)) t
      refine ⟨r, runs_trans t1 r1, ?_, ?_⟩
      · intro g hg
        rcases List.mem_cons.1 hg with rfl | hg
        · exact r3 g t2
        · exact r2 g hg
      · intro g hg
        by_cases e : g = f
        · rw [e]
          exact r3 f t2
        · exact r3 g ((t3 g e).trans hg)
  obtain ⟨t, h1, h2, -⟩ := this a.toDownload (fun _ h => h) s
  exact ⟨t, h1, h2⟩

/-- Files that are not data files are not touched by the removal. -/
theorem removeAll_other (l : List String) (c : Cache) :
    ∀ s, s ∈ (removeAll a net l c).passed ∨ s = (removeAll a net l c).cache → ∀ f, f ∉ l → s f = c f := by
  induction l generalizing c with
  | nil =>
    intro s hs f _
    have : s = c := by simpa [removeAll] using hs
    rw [this]
  | cons k ks ih =>
    intro s hs f hf
    have hfk : f ≠ k := fun h => hf (by rw [h]; simp)
    have hfks : f ∉ ks := fun h => hf (List.mem_cons_of_mem _ h)
    rw [removeAll] at hs
    rcases fetch_cases (a := a) (net := net) k c with ⟨x, hx, hfe⟩ | ⟨hx, hm, y, hy, hfe⟩ | ⟨hx, hm, hfe⟩
    · rw [hfe] at hs
      simp only [List.mem_cons] at hs
      have : s = c ∨ (s ∈ (removeAll a net ks (c.remove k)).passed ∨ s = (removeAll a net ks (c.remove k)).cache) := by
        rcases hs with (h | h | h) | h
        · exact .inl h
        · exact .inl h
        · exact .inr (.inl h)
        · exact .inr (.inr h)
      rcases this with rfl | h
      · rfl
      · rw [ih _ s h f hfks, cremove_other _ hfk]
    · rw [hfe] at hs
      simp only [List.mem_cons] at hs
      have : s = c ∨ s = c.put k y ∨ (s ∈ (removeAll a net ks ((c.put k y).remove k)).passed ∨
          s = (removeAll a net ks ((c.put k y).remove k)).cache) := by
        rcases hs with (h | h | h) | h
        · exact .inl h
        · exact .inr (.inl h)
        · exact .inr (.inr (.inl h))
        · exact .inr (.inr (.inr h))
      rcases this with rfl | rfl | h
      · rfl
      · exact cput_other _ _ hfk
      · rw [ih _ s h f hfks, cremove_other _ hfk, cput_other _ _ hfk]
    · rw [hfe] at hs
      have : s = c := by simpa using hs
      rw [this]

end Sorcha.Setup
