import Verif.Driver.Refs
import Verif.Driver.Run
import Verif.Whole.Props5
import Verif.Whole.Props6
import Verif.Whole.SpecEph

/-!
# Properties: from the orbits to the results (C89)

The run as a whole with the ephemeris generator of the program itself.
-/

namespace Sorcha.Whole.Props

open Sorcha.Csv (Str)
open Sorcha.Readers (Rec)
open Sorcha.History (Disk)
open Sorcha.Output (Cell)
open Sorcha.Driver.Spec (Iterates Answers Found atVisit)

variable {K U R S Γ V G : Type} [Field K] [LinearOrder K] [IsStrictOrderedRing K] [FloorRing K]

/-- Rows sorted by object. -/
theorem perm_by_object {W : Type} {l : List (Pointing.Obs W)} : ∀ {ids : List String}, ids.Nodup → (∀ o ∈ l, o.obj ∈ ids) →
    l.Perm (ids.flatMap fun id => l.filter fun o => o.obj = id) := by
  intro ids
  induction ids generalizing l with
  | nil =>
    intro _ h
    have : l = [] := List.eq_nil_iff_forall_not_mem.2 fun o ho => by cases h o ho
    rw [this]
    rfl
  | cons i ids ih =>
    intro hn h
    rw [List.nodup_cons] at hn
    rw [List.flatMap_cons]
    refine (List.filter_append_perm (fun o : Pointing.Obs W => decide (o.obj = i)) l).symm.trans ?_
    refine List.Perm.append_left _ ?_
    refine (ih (l := l.filter fun o => !decide (o.obj = i)) hn.2 fun o ho => ?_).trans ?_
    · obtain ⟨h1, h2⟩ := List.mem_filter.1 ho
      have h3 := h o h1
      simp only [List.mem_cons] at h3
      rcases h3 with h3 | h3
      · simp [h3] at h2
      · exact h3
    · refine List.Perm.of_eq (List.flatMap_congr fun j hj => ?_)
      rw [List.filter_filter]
      refine List.filter_congr fun o _ => ?_
      by_cases e : o.obj = j
      · have : j ≠ i := fun h => hn.1 (h ▸ hj)
        simp [e, this]
      · simp [e]

/-- The generator makes the ephemerides of each object alone. -/
theorem generate_perm {E : Driver.Env K U R S V G} (hi : Iterates E) (start : Rec Str → S) (idle : S) {P : Readers.IdParse} (missing : List Str) (v : Pointing.Visit V)
    (vs : List (Pointing.Visit V)) {orb : List (Rec Str)} (hs : Readers.Spec.StableIds P orb) (objs : List (Rec Str)) (hp : Pipeline.Spec.PartOf orb objs) :
    (Driver.generate E start idle P missing v vs objs).Perm (objs.flatMap fun r => Driver.generate E start idle P missing v vs [r]) := by
  have hids : ∀ o ∈ Driver.generate E start idle P missing v vs objs, o.obj ∈ objs.map (·.id) := by
    rw [Driver.Props.C61_joined hi start idle missing v vs (Driver.Props.stable_part hs hp) hp.1]
    intro o ho
    obtain ⟨x, hx, rfl⟩ := List.mem_map.1 ho
    exact Driver.Props.ephemeris_ids hi start idle v vs objs x hx
  refine (perm_by_object hp.1 hids).trans (List.Perm.of_eq ?_)
  rw [List.flatMap_map]
  refine List.flatMap_congr fun r hr => ?_
  rw [Driver.Props.generate_alone hi start idle missing v vs hs objs hp r.id, Pipeline.filter_single hp.1 hr]

theorem forall₂_right {α β : Type} {P : α → β → Prop} {l : List α} {m : List β} (h : List.Forall₂ P l m) {b : β} (hb : b ∈ m) : ∃ a ∈ l, P a b := by
  induction h with
  | nil => cases hb
  | @cons a b' _ _ hp _ ih =>
    rcases List.mem_cons.1 hb with rfl | hb
    · exact ⟨a, List.mem_cons_self .., hp⟩
    · obtain ⟨y, hy, h⟩ := ih hb
      exact ⟨y, List.mem_cons_of_mem _ hy, h⟩

/-- The ephemerides of the objects of a run. -/
theorem generate_found {E : Driver.Env K U R S V G} (hi : Iterates E) (hP : 0 < E.interval) (start : Rec Str → S) (idle : S) {P : Readers.IdParse} (missing : List Str)
    {x : Pointing.Visit V} {xs : List (Pointing.Visit V)} (hchron : ((x :: xs).map E.jd).Pairwise (· ≤ ·)) :
    ∃ τs : List K, List.Forall₂ (fun y τ => |E.jd y - τ| ≤ E.interval / 2) (x :: xs) τs ∧ ∀ (pos : Rec Str → K → U → R) (r : Rec Str),
      Readers.Spec.StableIds P [r] → Answers E (start r) (pos r) → Driver.generate E start idle P missing x xs [r] = Spec.foundRows E pos (x :: xs) τs r := by
  obtain ⟨τs, h1, h2⟩ := Driver.Props.C61_reference (C := Str) (S := S) hi hP x xs hchron
  refine ⟨τs, h1, fun pos r hs ha => ?_⟩
  have h3 := h2 start idle [r] (by simp) r (by simp) (pos r) ha
  have hall : ((Driver.ephemeris E start idle x xs [r]).filter fun o => o.obj = r.id) = Driver.ephemeris E start idle x xs [r] := by
    rw [List.filter_eq_self]
    intro o ho
    have := Driver.Props.ephemeris_ids hi start idle x xs [r] o ho
    simpa using this
  rw [hall] at h3
  rw [Driver.Props.C61_joined hi start idle missing x xs hs (by simp), h3]
  unfold Spec.foundRows
  rw [List.map_map]
  refine List.map_congr_left fun y _ => ?_
  simp [Driver.Spec.rowFor, Readers.Spec.cellsOf]

theorem bright_stable {P : Readers.IdParse} {c : Config.Cfg} {faint : Rec Str → Bool} {orb : List (Rec Str)} {others : List (List (Rec Str))}
    (hs : Readers.Spec.StableIds P orb) {r : Rec Str} (hr : r ∈ Spec.bright c faint orb others) : Readers.Spec.StableIds P [r] := by
  refine Readers.Stable.sub hs fun s hs' => ?_
  simp only [List.map_cons, List.map_nil, List.mem_singleton] at hs'
  subst hs'
  unfold Spec.bright at hr
  obtain ⟨y, hy, rfl⟩ := List.mem_map.1 (List.mem_of_mem_filter hr)
  exact List.mem_map.2 ⟨y, hy, rfl⟩

/-- C89: let `sorcha run` finish that makes its ephemerides, with CSV output and without random features and linking, for visits in order of time. The text of its results
is read back as the wanted columns and one line for each of the rows that pass all filters, among those of each visit in which one of the objects of the orbit file is
found that are not left out as faint: by its directions at reference times, the same for all objects, of which one is at most half an interval from the visit. -/
theorem C89_results {w : World Γ (G × List Str) V} {argv : List Str} {args : Cli.Args} {v : Bool} (hargs : Argv.parseRun argv = .ok (args, v)) {d d' : Disk}
    {log : List Char} (h : Invoked w argv d d' log .finished) {c : Config.Cfg} (hconf : Configured w d args c)
    (hext : c.input.ephemeridesType ≠ "external") (hcsv : c.output.format = "csv") (hdet : Pipeline.Spec.Deterministic c) (hlink : c.linking.ssp = none)
    (hg : Cli.Spec.GlobSound w.glob) (hnames : History.Spec.NamesDiffer args) (hone : History.Spec.AtMostOne args d)
    {orb : List (Rec Str)} {others : List (List (Rec Str))} (hin : Spec.Objects w.ids d args c orb others)
    {E : Driver.Env K U R S V G} (hi : Iterates E) (hP : 0 < E.interval) {start : Rec Str → S} {idle : S} {missing : List Str} {x : Pointing.Visit V}
    {xs : List (Pointing.Visit V)} (hchron : ((x :: xs).map E.jd).Pairwise (· ≤ ·))
    (hmake : ∀ a, Accepted w d args a → w.ephem c a = Driver.generate E start idle w.ids missing x xs)
    {pos : Rec Str → K → U → R} (hpos : ∀ a, Accepted w d args a → ∀ r ∈ Spec.bright c (w.cull c a) orb others, Answers E (start r) (pos r))
    {shown : Cell → Str} (hshown : w.lines.output = Csv.line shown) (hcols : ∀ a, Accepted w d args a → 2 ≤ (w.columns c a).length)
    (hsort : ∀ a Q, Accepted w d args a → w.env c a (checked w args d) = some Q → ∀ l, (Q.sortIndex l).Perm l) :
    ∃ a Q τs, Accepted w d args a ∧ w.env c a (checked w args d) = some Q ∧ List.Forall₂ (fun y τ => |E.jd y - τ| ≤ E.interval / 2) (x :: xs) τs ∧
      Spec.ResultsFile w.dist shown Csv.read c (w.columns c a) (fun r => w.cells ⟨r, none⟩)
        (Pipeline.Spec.survivors Q c ((Spec.bright c (w.cull c a) orb others).flatMap (Spec.foundRows E pos (x :: xs) τs)))
        (d'.get (args.o ++ "/" ++ args.t ++ ".csv")) := by
  have hs : Readers.Spec.StableIds w.ids orb := (Objects.consistent hin).stable
  obtain ⟨τs, h1, h2⟩ := generate_found hi hP start idle (P := w.ids) missing hchron
  obtain ⟨a, Q, h3, h4, h5⟩ := C85_generated hargs h hconf hext hcsv hdet hlink hg hnames hone hin
    (fun a ha objs hp => by rw [hmake a ha]; exact generate_perm hi start idle missing x xs hs objs hp) hshown hcols hsort
  refine ⟨a, Q, τs, h3, h4, h1, ?_⟩
  rw [hmake a h3] at h5
  rwa [List.flatMap_congr fun r hr => h2 pos r (bright_stable hs hr) (hpos a h3 r hr)] at h5

/-- C89 (database of results). -/
theorem C89_results_sqlite {w : World Γ (G × List Str) V} {argv : List Str} {args : Cli.Args} {v : Bool} (hargs : Argv.parseRun argv = .ok (args, v)) {d d' : Disk}
    {log : List Char} (h : Invoked w argv d d' log .finished) {c : Config.Cfg} (hconf : Configured w d args c)
    (hext : c.input.ephemeridesType ≠ "external") (hsql : c.output.format = "sqlite3") (hdet : Pipeline.Spec.Deterministic c) (hlink : c.linking.ssp = none)
    (hg : Cli.Spec.GlobSound w.glob) (hnames : History.Spec.NamesDiffer args) (hone : History.Spec.AtMostOne args d)
    {orb : List (Rec Str)} {others : List (List (Rec Str))} (hin : Spec.Objects w.ids d args c orb others)
    {E : Driver.Env K U R S V G} (hi : Iterates E) (hP : 0 < E.interval) {start : Rec Str → S} {idle : S} {missing : List Str} {x : Pointing.Visit V}
    {xs : List (Pointing.Visit V)} (hchron : ((x :: xs).map E.jd).Pairwise (· ≤ ·))
    (hmake : ∀ a, Accepted w d args a → w.ephem c a = Driver.generate E start idle w.ids missing x xs)
    {pos : Rec Str → K → U → R} (hpos : ∀ a, Accepted w d args a → ∀ r ∈ Spec.bright c (w.cull c a) orb others, Answers E (start r) (pos r))
    (hsort : ∀ a Q, Accepted w d args a → w.env c a (checked w args d) = some Q → ∀ l, (Q.sortIndex l).Perm l) :
    ∃ a Q τs, Accepted w d args a ∧ w.env c a (checked w args d) = some Q ∧ List.Forall₂ (fun y τ => |E.jd y - τ| ≤ E.interval / 2) (x :: xs) τs ∧
      Spec.ResultsTable w.dist c (w.columns c a) (fun r => w.cells ⟨r, none⟩)
        (Pipeline.Spec.survivors Q c ((Spec.bright c (w.cull c a) orb others).flatMap (Spec.foundRows E pos (x :: xs) τs)))
        (d'.get (args.o ++ "/" ++ args.t ++ ".db")) := by
  have hs : Readers.Spec.StableIds w.ids orb := (Objects.consistent hin).stable
  obtain ⟨τs, h1, h2⟩ := generate_found hi hP start idle (P := w.ids) missing hchron
  obtain ⟨a, Q, h3, h4, h5⟩ := C85_generated_sqlite hargs h hconf hext hsql hdet hlink hg hnames hone hin
    (fun a ha objs hp => by rw [hmake a ha]; exact generate_perm hi start idle missing x xs hs objs hp) hsort
  refine ⟨a, Q, τs, h3, h4, h1, ?_⟩
  rw [hmake a h3] at h5
  rwa [List.flatMap_congr fun r hr => h2 pos r (bright_stable hs hr) (hpos a h3 r hr)] at h5

/-- C89 (runs that are stopped): wherever such a run ends that has started, the file of results is missing, cannot be read, or is read as the header and lines of some of those rows, the
last of which may be cut short. -/
theorem C89_stopped {w : World Γ (G × List Str) V} {argv : List Str} {args : Cli.Args} {v : Bool} (hargs : Argv.parseRun argv = .ok (args, v)) {d d' : Disk}
    {log : List Char} {out : History.Outcome} (h : Invoked w argv d d' log out) (hout : out ≠ .refused) {c : Config.Cfg} (hconf : Configured w d args c)
    (hext : c.input.ephemeridesType ≠ "external") (hcsv : c.output.format = "csv") (hdet : Pipeline.Spec.Deterministic c) (hlink : c.linking.ssp = none)
    (hg : Cli.Spec.GlobSound w.glob) (hnames : History.Spec.NamesDiffer args) (hone : History.Spec.AtMostOne args d)
    {orb : List (Rec Str)} {others : List (List (Rec Str))} (hin : Spec.Objects w.ids d args c orb others)
    {E : Driver.Env K U R S V G} (hi : Iterates E) (hP : 0 < E.interval) {start : Rec Str → S} {idle : S} {missing : List Str} {x : Pointing.Visit V}
    {xs : List (Pointing.Visit V)} (hchron : ((x :: xs).map E.jd).Pairwise (· ≤ ·))
    (hmake : ∀ a, Accepted w d args a → w.ephem c a = Driver.generate E start idle w.ids missing x xs)
    {pos : Rec Str → K → U → R} (hpos : ∀ a, Accepted w d args a → ∀ r ∈ Spec.bright c (w.cull c a) orb others, Answers E (start r) (pos r))
    {shown : Cell → Str} (hshown : w.lines.output = Csv.line shown) (hcols : ∀ a, Accepted w d args a → 2 ≤ (w.columns c a).length)
    (hsort : ∀ a Q, Accepted w d args a → w.env c a (checked w args d) = some Q → ∀ l, (Q.sortIndex l).Perm l) :
    d'.get (args.o ++ "/" ++ args.t ++ ".csv") = none ∨ ∃ a Q τs, Accepted w d args a ∧ w.env c a (checked w args d) = some Q ∧
      List.Forall₂ (fun y τ => |E.jd y - τ| ≤ E.interval / 2) (x :: xs) τs ∧
      Spec.PartFile w.dist shown Csv.read c (w.columns c a) (fun r => w.cells ⟨r, none⟩)
        (Pipeline.Spec.survivors Q c ((Spec.bright c (w.cull c a) orb others).flatMap (Spec.foundRows E pos (x :: xs) τs)))
        (d'.get (args.o ++ "/" ++ args.t ++ ".csv")) := by
  have hs : Readers.Spec.StableIds w.ids orb := (Objects.consistent hin).stable
  obtain ⟨τs, h1, h2⟩ := generate_found hi hP start idle (P := w.ids) missing hchron
  rcases C85_generated_stopped hargs h hout hconf hext hcsv hdet hlink hg hnames hone hin
    (fun a ha objs hp => by rw [hmake a ha]; exact generate_perm hi start idle missing x xs hs objs hp) hshown hcols hsort with h0 | ⟨a, Q, h3, h4, h5⟩
  · exact .inl h0
  refine .inr ⟨a, Q, τs, h3, h4, h1, ?_⟩
  rw [hmake a h3] at h5
  rwa [List.flatMap_congr fun r hr => h2 pos r (bright_stable hs hr) (hpos a h3 r hr)] at h5

/-- C89 (chunk size): two runs that make their ephemerides for the same visits, from the same tables but with different chunk sizes, leave files of results with the same
header and the same lines in some order, with or without linking, whatever the integrators answer. -/
theorem C89_chunks {w : World Γ (G × List Str) V} {argv1 argv2 : List Str} {args1 args2 : Cli.Args} {v1 v2 : Bool} (hargs1 : Argv.parseRun argv1 = .ok (args1, v1))
    (hargs2 : Argv.parseRun argv2 = .ok (args2, v2)) {d1 d1' d2 d2' : Disk} {log1 log2 : List Char}
    (h1 : Invoked w argv1 d1 d1' log1 .finished) (h2 : Invoked w argv2 d2 d2' log2 .finished) {c : Config.Cfg} {n : ℤ}
    (hconf1 : Configured w d1 args1 c) (hconf2 : Configured w d2 args2 { c with input := { c.input with chunk := n } })
    (hext : c.input.ephemeridesType ≠ "external") (hcsv : c.output.format = "csv")
    (hg : Cli.Spec.GlobSound w.glob) (hnames1 : History.Spec.NamesDiffer args1) (hnames2 : History.Spec.NamesDiffer args2)
    (hone1 : History.Spec.AtMostOne args1 d1) (hone2 : History.Spec.AtMostOne args2 d2)
    {orb : List (Rec Str)} {others : List (List (Rec Str))} (hin1 : Spec.Objects w.ids d1 args1 c orb others)
    (hin2 : Spec.Objects w.ids d2 args2 { c with input := { c.input with chunk := n } } orb others)
    {E : Driver.Env K U R S V G} (hi : Iterates E) {start : Rec Str → S} {idle : S} {missing : List Str} {x : Pointing.Visit V} {xs : List (Pointing.Visit V)}
    (hmid : ((x :: xs).map (·.mid)).Nodup) {cull : Rec Str → Bool}
    (hmake1 : ∀ a, Accepted w d1 args1 a → w.ephem c a = Driver.generate E start idle w.ids missing x xs ∧ w.cull c a = cull)
    (hmake2 : ∀ a, Accepted w d2 args2 a → w.ephem { c with input := { c.input with chunk := n } } a = Driver.generate E start idle w.ids missing x xs ∧
      w.cull { c with input := { c.input with chunk := n } } a = cull)
    {shown : Cell → Str} (hshown : w.lines.output = Csv.line shown) (hcols : ∀ a, Accepted w d1 args1 a → 2 ≤ (w.columns c a).length)
    (hsame : ∀ a1 a2, Accepted w d1 args1 a1 → Accepted w d2 args2 a2 → w.columns c a1 = w.columns { c with input := { c.input with chunk := n } } a2)
    (henv : ∀ a1 a2, Accepted w d1 args1 a1 → Accepted w d2 args2 a2 →
      w.env c a1 (checked w args1 d1) = w.env { c with input := { c.input with chunk := n } } a2 (checked w args2 d2))
    (hreg : ∀ a Q, Accepted w d1 args1 a → w.env c a (checked w args1 d1) = some Q → Pipeline.Spec.Regular Q c) :
    Spec.SameLines Csv.read (d1'.get (args1.o ++ "/" ++ args1.t ++ ".csv")) (d2'.get (args2.o ++ "/" ++ args2.t ++ ".csv")) := by
  have hs : Readers.Spec.StableIds w.ids orb := (Objects.consistent hin1).stable
  exact C85_generated_chunks hargs1 hargs2 h1 h2 hconf1 hconf2 hext hcsv hg hnames1 hnames2 hone1 hone2 hin1 hin2 hmake1 hmake2
    (Driver.Props.generate_none hi start idle w.ids missing x xs) (fun objs hp id => Driver.Props.generate_alone hi start idle missing x xs hs objs hp id)
    (fun objs hp => Driver.Props.generate_once hi start idle missing x xs hmid hs objs hp) hshown hcols hsame henv hreg

/-- C89 (runs finish): a run that makes its ephemerides for the visits of its pointing table, on valid inputs, finishes unless it is stopped, whatever the integrators
answer. With linking, the IDs must be of ASCII characters. -/
theorem C89_finishes {w : World Γ (G × List Str) V} {argv : List Str} {args : Cli.Args} {v : Bool} (hargs : Argv.parseRun argv = .ok (args, v)) {d : Disk}
    (hg : Cli.Spec.GlobSound w.glob) (hnames : History.Spec.NamesDiffer args) (hone : History.Spec.AtMostOne args d) (hplace : Spec.InPlace w.isDir d args)
    {c : Config.Cfg} (hconf : Configured w d args c) (hlow : w.py.lower "rubin_sim" ≠ "des") (hplain : Spec.Plain c)
    (hext : c.input.ephemeridesType ≠ "external") {orb : List (Rec Str)} {others : List (List (Rec Str))} (hin : Spec.Objects w.ids d args c orb others)
    (hgood1 : Spec.Passes w.goodOrbits c.input.auxFormat d args.ob) (hgood2 : Spec.Passes w.goodParameters c.input.auxFormat d args.p)
    (hgood3 : c.activity ≠ none ∨ c.lightcurve ≠ none → ∀ p, args.cp = some p → Spec.Passes w.goodComplex c.input.auxFormat d p)
    (hcol : ∀ a, Accepted w d args a → Spec.Columned c (w.columns c a))
    {E : Driver.Env K U R S V G} (hi : Iterates E) {start : Rec Str → S} {idle : S} {missing : List Str} {x : Pointing.Visit V} {xs : List (Pointing.Visit V)}
    (hmake : ∀ a, Accepted w d args a → w.ephem c a = Driver.generate E start idle w.ids missing x xs)
    (hascii : c.linking.ssp ≠ none → ∀ r ∈ orb, Linking.Spec.Ascii r.id)
    (henv : ∀ a, Accepted w d args a → ∃ Q, w.env c a (checked w args d) = some Q ∧ Spec.GoodVisits Q c (x :: xs)) :
    (∃ a, Accepted w d args a ∧ ∃ fmt chunks, plan w a (checked w args d) = .writes fmt chunks true) ∧ ∃ d' log, Invoked w argv d d' log .finished := by
  have hs : Readers.Spec.StableIds w.ids orb := (Objects.consistent hin).stable
  refine C88_generated hargs hg hnames hone hplace hconf hlow hplain hext hin hgood1 hgood2 hgood3 hcol
    (fun a ha objs hp => by rw [hmake a ha]; exact generate_perm hi start idle missing x xs hs objs hp) fun a ha => ?_
  obtain ⟨Q, hQ, hv⟩ := henv a ha
  refine ⟨Q, hQ, ?_⟩
  have hobs : ∀ o ∈ (Spec.bright c (w.cull c a) orb others).flatMap (fun r => w.ephem c a [r]), (∃ r ∈ orb, o.obj = r.id) ∧ ∃ y ∈ x :: xs, o.field = y.id ∧ o.mjd = y.mid := by
    intro o ho
    rw [hmake a ha] at ho
    obtain ⟨r, hr, ho⟩ := List.mem_flatMap.1 ho
    rw [Driver.Props.C61_joined hi start idle missing x xs (bright_stable hs hr) (by simp)] at ho
    obtain ⟨o', ho', rfl⟩ := List.mem_map.1 ho
    have hid := Driver.Props.ephemeris_ids hi start idle x xs [r] o' ho'
    simp only [List.map_cons, List.map_nil, List.mem_singleton] at hid
    unfold Spec.bright at hr
    obtain ⟨r0, hr0, hr1⟩ := List.mem_map.1 (List.mem_of_mem_filter hr)
    refine ⟨⟨r0, hr0, by rw [hid, ← hr1]; rfl⟩, ?_⟩
    obtain ⟨parts, e, f⟩ := Driver.Props.C61_rows hi start idle x xs [r]
    rw [e] at ho'
    obtain ⟨part, hp, hpo⟩ := List.mem_flatten.1 ho'
    obtain ⟨y, hy, hall⟩ := forall₂_right f hp
    obtain ⟨_, _, _, _, _, rfl⟩ := hall.2 o' hpo
    exact ⟨y, hy, rfl, rfl⟩
  refine ⟨?_, hv.sortIndex, ?_⟩
  · intro o ho y hy hid
    obtain ⟨-, y', hy', e1, e2⟩ := hobs o ho
    rw [hv.table] at hy
    have : y = y' := List.inj_on_of_nodup_map hv.numbers hy hy' (by rw [hid, e1])
    subst this
    exact ⟨by rw [e2]; exact hv.times y hy, hv.values o y hy⟩
  · intro ssp hssp
    obtain ⟨k1, lc, k2, k3⟩ := hv.linking ssp hssp
    refine ⟨k1, lc, k2, fun o ho => ?_⟩
    obtain ⟨⟨r, hr, e0⟩, y, hy, e1, e2⟩ := hobs o ho
    rw [e0, e1, e2]
    exact ⟨hascii (by rw [hssp]; simp) r hr, k3 y hy⟩

end Sorcha.Whole.Props
