import Verif.Csv.BlankProps
import Verif.Whole.Props2

/-!
# Properties: ephemerides that were saved and are used again (C87)
-/

namespace Sorcha.Whole.Props

open Sorcha.Csv (Str)
open Sorcha.Readers (Rec IdParse)
open Sorcha.History (Disk Chunk)
open Sorcha.Output (Cell)

variable {G W V : Type}

/-- What belongs to the objects of a block is what was made for it. -/
theorem filter_blocks {R O : Type} (idOf : R → String) (objOf : O → String) (F : List R → List O) (bs : List (List R))
    (hF : ∀ b ∈ bs, ∀ o ∈ F b, objOf o ∈ b.map idOf) (hn : (bs.flatten.map idOf).Nodup) :
    bs.map (fun b => (bs.flatMap F).filter fun o => decide (objOf o ∈ b.map idOf)) = bs.map F := by
  induction bs with
  | nil => rfl
  | cons b bs ih =>
    rw [List.flatten_cons, List.map_append, List.nodup_append'] at hn
    obtain ⟨-, hn2, hdis⟩ := hn
    have ih := ih (fun b' hb => hF b' (List.mem_cons_of_mem _ hb)) hn2
    have hrest : ∀ b' ∈ bs, ∀ x ∈ b'.map idOf, x ∈ bs.flatten.map idOf := by
      intro b' hb' x hx
      obtain ⟨r, hr, rfl⟩ := List.mem_map.1 hx
      exact List.mem_map.2 ⟨r, List.mem_flatten.2 ⟨b', hb', hr⟩, rfl⟩
    rw [List.map_cons, List.map_cons, List.flatMap_cons]
    congr 1
    · rw [List.filter_append, List.filter_eq_self.2 (fun o ho => by simpa using hF b (List.mem_cons_self ..) o ho), List.append_right_eq_self, List.filter_eq_nil_iff]
      intro o ho
      obtain ⟨b', hb', ho'⟩ := List.mem_flatMap.1 ho
      have := hrest b' hb' _ (hF b' (List.mem_cons_of_mem _ hb') o ho')
      rw [decide_eq_true_iff]
      exact fun h => hdis h this
    · rw [← ih]
      apply List.map_congr_left
      intro b' hb'
      rw [List.filter_append, List.filter_eq_nil_iff.2, List.nil_append]
      intro o ho h
      rw [decide_eq_true_iff] at h
      exact hdis (hF b (List.mem_cons_self ..) o ho) (hrest b' hb' _ h)

/-- What the rounds write as results depends on the observations, the calculations and the settings of the output. -/
theorem rounds_results {w : World G W V} {E : Pipeline.Env G W V} {c c' : Config.Cfg} {a a' : Cli.CmdArgs} (hp : ∀ s obs, Pipeline.process E c' s obs = Pipeline.process E c s obs)
    (ho : outConfig c' = outConfig c) (hcols : w.columns c' a' = w.columns c a) : ∀ {bs bs'} {s : Pipeline.State G} {chunks chunks'}, bs.map (·.1) = bs'.map (·.1) →
    rounds w E c a s bs = (chunks, true) → rounds w E c' a' s bs' = (chunks', true) → chunks.map (·.results) = chunks'.map (·.results) := by
  intro bs
  induction bs with
  | nil =>
    intro bs' s chunks chunks' h h1 h2
    rw [List.map_nil, eq_comm, List.map_eq_nil_iff] at h
    subst h
    cases h1
    cases h2
    rfl
  | cons b bs ih =>
    intro bs' s chunks chunks' h h1 h2
    cases bs' with
    | nil => simp at h
    | cons b' bs' =>
      obtain ⟨obs, e⟩ := b
      obtain ⟨obs', e'⟩ := b'
      rw [List.map_cons, List.map_cons, List.cons.injEq] at h
      obtain ⟨rfl, h⟩ : obs = obs' ∧ _ := h
      simp only [rounds, hp, ho, hcols] at h1 h2
      cases hq : Pipeline.process E c s obs with
      | error x => rw [hq] at h1; simp at h1
      | ok x =>
        obtain ⟨out, s'⟩ := x
        rw [hq] at h1 h2
        simp only at h1 h2
        by_cases h0 : out.length = 0
        · rw [if_pos h0] at h1 h2
          simp only [Prod.mk.injEq] at h1 h2
          rw [← h1.1, ← h2.1, List.map_cons, List.map_cons, ih h (Prod.ext rfl h1.2) (Prod.ext rfl h2.2)]
        · rw [if_neg h0] at h1 h2
          cases hg : Output.outputFrame w.dist (outConfig c) ⟨w.columns c a, out.map w.cells⟩ with
          | error x => rw [hg] at h1; simp at h1
          | ok g =>
            rw [hg] at h1 h2
            simp only [Prod.mk.injEq] at h1 h2
            rw [← h1.1, ← h2.1, List.map_cons, List.map_cons, ih h (Prod.ext rfl h1.2) (Prod.ext rfl h2.2)]

theorem process_fromFile (E : Pipeline.Env G W V) (c : Config.Cfg) (s : Pipeline.State G) (obs : List (Pointing.Obs W)) :
    Pipeline.process E (Spec.fromFile c) s obs = Pipeline.process E c s obs := rfl

theorem filterMap_results {α : Type} (f : Output.Frame × Output.Frame → α) {chunks chunks' : List Chunk} (h : chunks.map (·.results) = chunks'.map (·.results)) :
    (chunks.filterMap fun c => c.results.map f) = chunks'.filterMap fun c => c.results.map f := by
  have : ∀ l : List Chunk, (l.filterMap fun c => c.results.map f) = (l.map (·.results)).filterMap fun r => r.map f := by
    intro l
    rw [List.filterMap_map]
    rfl
  rw [this, this, h]

/-- The outputs of a run that finishes, as functions of its results. -/
theorem outputs_of {w : World G W V} {args : Cli.Args} {d d' : Disk} {c : Config.Cfg} {chunks} {log : List Char} (hg : Cli.Spec.GlobSound w.glob)
    (hnames : History.Spec.NamesDiffer args) (hone : History.Spec.AtMostOne args d)
    (h : History.Runs false (existing w d) w.isDir w.glob w.lines
      ⟨args, if c.output.format = "csv" then .csv else .sqlite, chunks, w.stamp, w.start⟩ d d' log .finished) :
    d'.get (Spec.resultsAt args c) = (if c.output.format = "csv" then History.Spec.csvOf w.lines.output (chunks.filterMap fun c => c.results.map (·.1)) else
        History.Spec.dbOf (chunks.filterMap fun c => c.results.map (·.1))) ∧
      (∀ n, args.st = some n → d'.get (args.o ++ "/" ++ n ++ ".csv") = History.Spec.csvOf w.lines.stats (chunks.filterMap fun c => c.results.map (·.2))) ∧
      ∀ n, args.ew = some n → n ≠ "" → d'.get (args.o ++ "/" ++ n ++ ".csv") = History.Spec.csvOf w.lines.ephemeris (chunks.filterMap (·.ephemeris)) := by
  have hc := History.Props.C65_history (js := []) hg (j := ⟨args, if c.output.format = "csv" then .csv else .sqlite, chunks, w.stamp, w.start⟩) hnames
    (fun i hi => by cases hi) hone .nil h
  refine ⟨?_, fun n hn => hc _ _ (.stats n hn), fun n hn hne => hc _ _ (.ephemeris n hn hne)⟩
  unfold Spec.resultsAt
  by_cases hf : c.output.format = "csv"
  · simp only [if_pos hf] at hc ⊢
    exact hc _ _ (.results rfl)
  · simp only [if_neg hf] at hc ⊢
    exact hc _ _ (.database rfl)

/-- The text of tables of ephemerides is the text of an input table. -/
theorem saved_table {P : IdParse} {fmt : String} {d : Disk} {p : String} {shown : Cell → Str} {table : List (Pointing.Obs W) → Output.Frame} {names : List Str}
    {fields : Pointing.Obs W → List Str} (hs : Spec.Saves shown table names fields) {obss : List (List (Pointing.Obs W))} (hne : obss ≠ [])
    (hfmt : Spec.Readable fmt (obss.flatten.map (·.obj)) names fields)
    (hd : d.get p = History.Spec.csvOf (Csv.savedLine fmt shown) (obss.map table)) (hids : Readers.Spec.Stable P (obss.flatten.map (·.obj)))
    (hobj : ∀ o ∈ obss.flatten, o.obj ≠ "") : Spec.Table P fmt d p (obss.flatten.map fun o => ⟨o.obj, fields o⟩) := by
  cases obss with
  | nil => exact absurd rfl hne
  | cons o os =>
    have hlines : Csv.Props.linesOf shown (table o :: os.map table) = ("ObjID".toList :: names) :: (o :: os).flatten.map fun o => o.obj.toList :: fields o := by
      simp only [Csv.Props.linesOf, hs.header]
      congr 1
      rw [← List.map_cons, List.flatMap_map, List.map_flatten, List.flatMap_def]
      congr 1
      apply List.map_congr_left
      intro l _
      rw [← hs.rows l]
      simp only [Output.Frame.cells, List.map_map, Function.comp_def]
    have hrow : ∀ row ∈ (o :: os).flatten.map (fun o => o.obj.toList :: fields o), row.length = names.length + 1 ∧ row.headD [] ≠ [] := by
      intro row hrow
      obtain ⟨x, hx, rfl⟩ := List.mem_map.1 hrow
      refine ⟨by rw [List.length_cons, hs.width], fun e => hobj x hx ?_⟩
      rw [← String.ofList_toList (s := x.obj), show x.obj.toList = [] from e]
    obtain ⟨t, hd, hw⟩ : ∃ t, d.get p = some (.text t) ∧
        Csv.Spec.InputText fmt t ("ObjID".toList :: names) ((o :: os).flatten.map fun o => o.obj.toList :: fields o) := by
      rcases hfmt with rfl | ⟨rfl, h1, h2, h3⟩
      · rw [List.map_cons, show Csv.savedLine "csv" shown = Csv.line shown from if_pos rfl, Csv.Props.csvOf_lines, hlines] at hd
        exact ⟨_, hd, (Csv.Props.C84_written names hs.more _ hrow (.inl rfl)).1⟩
      · rw [List.map_cons, show Csv.savedLine "whitespace" shown = Csv.blankLine shown from if_neg (by decide), Csv.Props.csvOf_blank, hlines] at hd
        refine ⟨_, hd, Csv.Props.C92_written names h2 hs.more _ fun row hr => ⟨(hrow row hr).1, ?_⟩⟩
        obtain ⟨x, hx, rfl⟩ := List.mem_map.1 hr
        intro f hf
        rcases List.mem_cons.1 hf with rfl | hf
        · exact ⟨(hrow _ hr).2, h1 _ (List.mem_map.2 ⟨x, hx, rfl⟩)⟩
        · exact h3 x f hf
    refine ⟨_, _, _, hd, hw, ?_, ?_⟩
    · rw [List.map_map]
      apply List.map_congr_left
      intro x _
      simp
    · unfold Readers.Spec.StableIds
      rw [List.map_map]
      exact hids

theorem kept_bright {c : Config.Cfg} {cull : Rec Str → Bool} {orb b : List (Rec Str)} {ts : List (List (Rec Str))} (hb : ∀ r ∈ b, r ∈ orb) :
    ∀ r ∈ Pipeline.left c cull ts b, r ∈ Spec.bright c cull orb ts ∧ r.id ∈ b.map (·.id) := by
  intro r hr
  unfold Pipeline.left at hr
  unfold Spec.bright
  rw [List.mem_filter] at hr ⊢
  obtain ⟨x, hx, rfl⟩ := List.mem_map.1 hr.1
  exact ⟨⟨List.mem_map.2 ⟨x, hb x hx, rfl⟩, hr.2⟩, List.mem_map.2 ⟨x, hx, rfl⟩⟩

theorem filterMap_frames {w : World G W V} {c : Config.Cfg} {a : Cli.CmdArgs} (ks : List (List (Rec Str))) :
    ks.filterMap (fun k => if k = [] ∧ c.expert.bruteForce = false then none else some (w.ephemFrame (w.ephem c a k))) =
      ((ks.filter fun k => ¬ (k = [] ∧ c.expert.bruteForce = false)).map (w.ephem c a)).map w.ephemFrame := by
  induction ks with
  | nil => rfl
  | cons k ks ih =>
    by_cases h : k = [] ∧ c.expert.bruteForce = false
    · rw [List.filterMap_cons_none (by rw [if_pos h]), List.filter_cons_of_neg (by simpa using h), ih]
    · rw [List.filterMap_cons_some (by rw [if_neg h]), List.filter_cons_of_pos (by simpa [or_iff_not_imp_left] using h), ih]
      rfl

theorem flatten_frames {w : World G W V} {c : Config.Cfg} {a : Cli.CmdArgs} (hnone : w.ephem c a [] = []) (ks : List (List (Rec Str))) :
    ((ks.filter fun k => ¬ (k = [] ∧ c.expert.bruteForce = false)).map (w.ephem c a)).flatten = ks.flatMap (w.ephem c a) := by
  induction ks with
  | nil => rfl
  | cons k ks ih =>
    by_cases h : k = [] ∧ c.expert.bruteForce = false
    · rw [List.filter_cons_of_neg (by simpa using h), ih, List.flatMap_cons, h.1, hnone, List.nil_append]
    · rw [List.filter_cons_of_pos (by simpa [or_iff_not_imp_left] using h), List.map_cons, List.flatten_cons, ih, List.flatMap_cons]

/-- What a run that saves its ephemerides leaves for another run: the table, which holds just the observations made for the blocks. -/
theorem saved_run {w : World G W V} {args1 : Cli.Args} {d1 d1' : Disk} {c : Config.Cfg} {a1 : Cli.CmdArgs} {orb : List (Rec Str)} {others : List (List (Rec Str))}
    (hext : c.input.ephemeridesType ≠ "external") (hin1 : Spec.Objects w.ids d1 args1 c orb others) {n : String} (hew : args1.ew = some n) (hne : n ≠ "")
    (hacc : Accepted w d1 args1 a1) {names : List Str} {fields : Pointing.Obs W → List Str}
    {shown : Cell → Str} (hshown : w.lines.ephemeris = Csv.savedLine c.input.ephFormat shown) (hsaves : Spec.Saves shown w.ephemFrame names fields) (hfmt : Spec.Readable c.input.ephFormat (orb.map (·.id)) names fields) (hnone : w.ephem c a1 [] = [])
    (hread : ∀ k, (∀ r ∈ k, r ∈ Spec.bright c (w.cull c a1) orb others) → ∀ o ∈ w.ephem c a1 k,
      o.obj ∈ k.map (·.id) ∧ Spec.obsOf w.parse (Readers.Spec.extend (orb :: others) ⟨o.obj, fields o⟩) = o)
    {bs : List (List (Pointing.Obs W) × Option Output.Frame)} (h3 : observations w c a1 (checked w args1 d1) = (bs, true)) {chunks : List Chunk}
    (heph : chunks.filterMap (·.ephemeris) = bs.filterMap (·.2))
    (hfile : ∀ n, args1.ew = some n → n ≠ "" → d1'.get (args1.o ++ "/" ++ n ++ ".csv") = History.Spec.csvOf w.lines.ephemeris (chunks.filterMap (·.ephemeris)))
    {d2 : Disk} {pe : String} {t : Str} (htext : d2.get pe = some (.text t)) (hcopy : d2.get pe = d1'.get (args1.o ++ "/" ++ n ++ ".csv")) :
    ∃ eph, Spec.Table w.ids c.input.ephFormat d2 pe eph ∧ Pipeline.externalBlocks w.parse orb others eph (roundSize c) = bs.map (·.1) ∧
      Spec.observed w.parse eph orb others = (bs.map (·.1)).flatten := by
  obtain ⟨e1, e2, -, -, -, -, -, e8⟩ := commandLine_ok hacc
  obtain ⟨g1, g2⟩ := generated_blocks_of hin1 hnone e1 e2 e8 hext h3
  have hsize : 1 ≤ roundSize c := le_max_left _ _
  have hflat := (Readers.Props.C12_partition orb (roundSize c) hsize).1
  rw [hfile n hew hne, heph, g2, filterMap_frames, hshown] at hcopy
  have hcons := Objects.consistent hin1
  have hsub : ∀ b ∈ Readers.Spec.chunks orb (roundSize c), ∀ r ∈ b, r ∈ orb := by
    intro b hb r hr
    rw [← hflat]
    exact List.mem_flatten.2 ⟨b, hb, hr⟩
  have hobj : ∀ b ∈ Readers.Spec.chunks orb (roundSize c), ∀ o ∈ w.ephem c a1 (keptObjects w c a1 others b),
      o.obj ∈ b.map (·.id) ∧ Spec.obsOf w.parse (Readers.Spec.extend (orb :: others) ⟨o.obj, fields o⟩) = o := by
    intro b hb o ho
    have hk := kept_bright (c := c) (cull := w.cull c a1) (ts := others) (hsub b hb)
    have := hread _ (fun r hr => (hk r hr).1) o ho
    refine ⟨?_, this.2⟩
    obtain ⟨r, hr, hri⟩ := List.mem_map.1 this.1
    rw [← hri]
    exact (hk r hr).2
  have hall : ∀ o ∈ (Readers.Spec.chunks orb (roundSize c)).flatMap (fun b => w.ephem c a1 (keptObjects w c a1 others b)),
      o.obj ∈ orb.map (·.id) ∧ Spec.obsOf w.parse (Readers.Spec.extend (orb :: others) ⟨o.obj, fields o⟩) = o := by
    intro o ho
    obtain ⟨b, hb, ho'⟩ := List.mem_flatMap.1 ho
    obtain ⟨h1, h2⟩ := hobj b hb o ho'
    obtain ⟨r, hr, hri⟩ := List.mem_map.1 h1
    exact ⟨List.mem_map.2 ⟨r, hsub b hb r hr, hri⟩, h2⟩
  have hrows := flatten_frames hnone ((Readers.Spec.chunks orb (roundSize c)).map (keptObjects w c a1 others))
  rw [List.flatMap_map] at hrows
  refine ⟨_, saved_table hsaves ?_ ?_ hcopy ?_ ?_, ?_, ?_⟩
  · intro h0
    rw [h0, htext] at hcopy
    cases hcopy
  · rw [hrows]
    refine hfmt.imp_right fun ⟨h1, h2, h3⟩ => ⟨h1, fun id hid => ?_, h3⟩
    obtain ⟨o, ho, rfl⟩ := List.mem_map.1 hid
    exact h2 _ (hall o ho).1
  · rw [hrows]
    refine Readers.Stable.sub hcons.stable ?_
    intro x hx
    obtain ⟨o, ho, rfl⟩ := List.mem_map.1 hx
    exact (hall o ho).1
  · rw [hrows]
    intro o ho e
    obtain ⟨r, hr, hri⟩ := List.mem_map.1 (hall o ho).1
    exact Table.named hin1.orbits r hr (hri.trans e)
  · rw [hrows, g1, ← filter_blocks (fun r : Rec Str => r.id) (fun o : Pointing.Obs W => o.obj) (fun b => w.ephem c a1 (keptObjects w c a1 others b)) _
      (fun b hb o ho => (hobj b hb o ho).1) (by rw [hflat]; exact hin1.unique)]
    unfold Pipeline.externalBlocks
    apply List.map_congr_left
    intro b hb
    rw [List.filter_map, List.map_map, List.map_map]
    conv_rhs => rw [← List.map_id (List.filter _ _)]
    apply List.map_congr_left
    intro o ho
    exact (hall o (List.mem_of_mem_filter ho)).2
  · rw [hrows, g1]
    unfold Spec.observed
    rw [List.filter_map, List.map_map, List.filter_eq_self.2 (fun o ho => by simpa using (hall o ho).1), ← List.flatMap_def]
    conv_rhs => rw [← List.map_id (List.flatMap _ _)]
    apply List.map_congr_left
    intro o ho
    exact (hall o ho).2

/-- C87 (saved ephemerides): let a run that makes its ephemerides and saves them with `-ew` finish, and let a run with these ephemerides from a file (the saved one, or a
copy), the same tables, visits and settings and the same seeds finish too, in any directory. If the numbers of the ephemerides are read from the file as they were
computed, then both leave the same file of results and the same statistics, to the letter. Random features and linking are included. -/
theorem C87_saved {w : World G W V} (hg : Cli.Spec.GlobSound w.glob) {argv1 argv2 : List Str} {args1 args2 : Cli.Args} {v1 v2 : Bool}
    (hargs1 : Argv.parseRun argv1 = .ok (args1, v1)) (hargs2 : Argv.parseRun argv2 = .ok (args2, v2)) {d1 d1' d2 d2' : Disk} {log1 log2 : List Char}
    (h1 : Invoked w argv1 d1 d1' log1 .finished) (h2 : Invoked w argv2 d2 d2' log2 .finished) {c : Config.Cfg} (hconf1 : Configured w d1 args1 c)
    (hconf2 : Configured w d2 args2 (Spec.fromFile c)) (hext : c.input.ephemeridesType ≠ "external")
    (hnames1 : History.Spec.NamesDiffer args1) (hnames2 : History.Spec.NamesDiffer args2)
    (hone1 : History.Spec.AtMostOne args1 d1) (hone2 : History.Spec.AtMostOne args2 d2)
    {orb : List (Rec Str)} {others : List (List (Rec Str))} (hin1 : Spec.Objects w.ids d1 args1 c orb others) (hin2 : Spec.Objects w.ids d2 args2 c orb others)
    {n pe : String} (hew : args1.ew = some n) (hne : n ≠ "") (her : args2.er = some pe) (hcopy : d2.get pe = d1'.get (args1.o ++ "/" ++ n ++ ".csv"))
    (hsame : ∀ a1 a2, Accepted w d1 args1 a1 → Accepted w d2 args2 a2 → w.env (Spec.fromFile c) a2 (checked w args2 d2) = w.env c a1 (checked w args1 d1) ∧
      w.state (Spec.fromFile c) a2 = w.state c a1 ∧ w.columns (Spec.fromFile c) a2 = w.columns c a1)
    {names : List Str} {fields : Pointing.Obs W → List Str} {shown : Cell → Str} (hshown : w.lines.ephemeris = Csv.savedLine c.input.ephFormat shown)
    (hsaves : Spec.Saves shown w.ephemFrame names fields) (hfmt : Spec.Readable c.input.ephFormat (orb.map (·.id)) names fields)
    (hread : ∀ a, Accepted w d1 args1 a → ∀ k, (∀ r ∈ k, r ∈ Spec.bright c (w.cull c a) orb others) → ∀ o ∈ w.ephem c a k,
      o.obj ∈ k.map (·.id) ∧ Spec.obsOf w.parse (Readers.Spec.extend (orb :: others) ⟨o.obj, fields o⟩) = o) :
    d2'.get (Spec.resultsAt args2 c) = d1'.get (Spec.resultsAt args1 c) ∧
      ∀ s1 s2, args1.st = some s1 → args2.st = some s2 → d2'.get (args2.o ++ "/" ++ s2 ++ ".csv") = d1'.get (args1.o ++ "/" ++ s1 ++ ".csv") := by
  obtain ⟨a1, E1, bs1, ch1, p1, p2, p3, p4, p5⟩ := run_parts hargs1 hconf1 h1
  obtain ⟨a2, E2, bs2, ch2, q1, q2, q3, q4, q5⟩ := run_parts hargs2 hconf2 h2
  obtain ⟨s1, s2, s3⟩ := hsame a1 a2 p1 q1
  rw [q2, p2] at s1
  cases s1
  obtain ⟨f1, f2, -, -, f5, -, -, f8⟩ := commandLine_ok q1
  obtain ⟨_, _, _, _, _, _, _, hcase⟩ := observations_ok q3
  rcases hcase with ⟨-, e, r, e5, -⟩ | ⟨hn, -⟩
  swap
  · exact absurd rfl hn
  rw [f5, her] at e5
  have htext := textAt_checked e5
  obtain ⟨o1, o2, o3⟩ := outputs_of (c := c) hg hnames1 hone1 p5
  obtain ⟨r1, r2, -⟩ := outputs_of (c := c) hg hnames2 hone2 q5
  obtain ⟨-, -, -, -, heph⟩ := rounds_ok w E1 c a1 bs1 _ _ p4
  have hnone : w.ephem c a1 [] = [] := by
    apply List.eq_nil_iff_forall_not_mem.2
    intro o ho
    have := (hread a1 p1 [] (by simp) o ho).1
    simp at this
  obtain ⟨eph, t1, t2, -⟩ := saved_run hext hin1 hew hne p1 hshown hsaves hfmt hnone (hread a1 p1) p3 heph o3 htext hcopy
  have hin2' : Spec.Objects w.ids d2 args2 (Spec.fromFile c) orb others := ⟨hin2.orbits, hin2.unique, hin2.given, hin2.same⟩
  obtain ⟨b1, -⟩ := external_blocks_of hin2' her t1 f1 f2 f5 f8 rfl q3
  have hbs : bs1.map (·.1) = bs2.map (·.1) := by rw [b1, ← t2]; rfl
  rw [s2] at q4
  have hres := rounds_results (process_fromFile E1 c) (rfl : outConfig (Spec.fromFile c) = outConfig c) s3 hbs p4 q4
  have hres1 := filterMap_results (·.1) hres
  have hres2 := filterMap_results (·.2) hres
  refine ⟨?_, fun x y hx hy => ?_⟩
  · rw [r1, o1, hres1]
  · rw [r2 y hy, o2 x hx, hres2]

/-- C87 (another chunk size): if the second run has another chunk size, and no random features are on, then the results have the same lines, in some order. Linking is
included. -/
theorem C87_chunks {w : World G W V} (hg : Cli.Spec.GlobSound w.glob) {argv1 argv2 : List Str} {args1 args2 : Cli.Args} {v1 v2 : Bool}
    (hargs1 : Argv.parseRun argv1 = .ok (args1, v1)) (hargs2 : Argv.parseRun argv2 = .ok (args2, v2)) {d1 d1' d2 d2' : Disk} {log1 log2 : List Char}
    (h1 : Invoked w argv1 d1 d1' log1 .finished) (h2 : Invoked w argv2 d2 d2' log2 .finished) {c : Config.Cfg} {m : ℤ} (hconf1 : Configured w d1 args1 c)
    (hconf2 : Configured w d2 args2 { Spec.fromFile c with input := { (Spec.fromFile c).input with chunk := m } })
    (hext : c.input.ephemeridesType ≠ "external") (hcsv : c.output.format = "csv")
    (hnames1 : History.Spec.NamesDiffer args1) (hnames2 : History.Spec.NamesDiffer args2)
    (hone1 : History.Spec.AtMostOne args1 d1) (hone2 : History.Spec.AtMostOne args2 d2)
    {orb : List (Rec Str)} {others : List (List (Rec Str))} (hin1 : Spec.Objects w.ids d1 args1 c orb others) (hin2 : Spec.Objects w.ids d2 args2 c orb others)
    {n pe : String} (hew : args1.ew = some n) (hne : n ≠ "") (her : args2.er = some pe) (hcopy : d2.get pe = d1'.get (args1.o ++ "/" ++ n ++ ".csv"))
    (hsame : ∀ a1 a2, Accepted w d1 args1 a1 → Accepted w d2 args2 a2 →
      w.env { Spec.fromFile c with input := { (Spec.fromFile c).input with chunk := m } } a2 (checked w args2 d2) = w.env c a1 (checked w args1 d1) ∧
      w.columns { Spec.fromFile c with input := { (Spec.fromFile c).input with chunk := m } } a2 = w.columns c a1)
    {names : List Str} {fields : Pointing.Obs W → List Str} {shown : Cell → Str} (hshown : w.lines.ephemeris = Csv.savedLine c.input.ephFormat shown)
    (hout : w.lines.output = Csv.line shown) (hsaves : Spec.Saves shown w.ephemFrame names fields) (hfmt : Spec.Readable c.input.ephFormat (orb.map (·.id)) names fields)
    (hread : ∀ a, Accepted w d1 args1 a → ∀ k, (∀ r ∈ k, r ∈ Spec.bright c (w.cull c a) orb others) → ∀ o ∈ w.ephem c a k,
      o.obj ∈ k.map (·.id) ∧ Spec.obsOf w.parse (Readers.Spec.extend (orb :: others) ⟨o.obj, fields o⟩) = o)
    (honce : ∀ a, Accepted w d1 args1 a → ∀ k k', (∀ r ∈ k ++ k', r ∈ Spec.bright c (w.cull c a) orb others) →
      Pipeline.Spec.OncePerTime (w.ephem c a k ++ w.ephem c a k'))
    (hcols : ∀ a, Accepted w d1 args1 a → 2 ≤ (w.columns c a).length)
    (hreg : ∀ a E, Accepted w d1 args1 a → w.env c a (checked w args1 d1) = some E → Pipeline.Spec.Regular E c) :
    Spec.SameLines Csv.read (d1'.get (args1.o ++ "/" ++ args1.t ++ ".csv")) (d2'.get (args2.o ++ "/" ++ args2.t ++ ".csv")) := by
  obtain ⟨a1, E1, bs1, ch1, p1, p2, p3, p4, p5⟩ := run_parts hargs1 hconf1 h1
  obtain ⟨a2, E2, bs2, ch2, q1, q2, q3, q4, q5⟩ := run_parts hargs2 hconf2 h2
  obtain ⟨s1, s3⟩ := hsame a1 a2 p1 q1
  rw [q2, p2] at s1
  cases s1
  obtain ⟨f1, f2, -, -, f5, -, -, f8⟩ := commandLine_ok q1
  obtain ⟨_, _, _, _, _, _, _, hcase⟩ := observations_ok q3
  rcases hcase with ⟨-, e, r, e5, -⟩ | ⟨hn, -⟩
  swap
  · exact absurd rfl hn
  rw [f5, her] at e5
  have htext := textAt_checked e5
  obtain ⟨o1, o2, o3⟩ := outputs_of (c := c) hg hnames1 hone1 p5
  obtain ⟨-, -, -, -, heph⟩ := rounds_ok w E1 c a1 bs1 _ _ p4
  have hnone : w.ephem c a1 [] = [] := by
    apply List.eq_nil_iff_forall_not_mem.2
    intro o ho
    have := (hread a1 p1 [] (by simp) o ho).1
    simp at this
  obtain ⟨eph, t1, t2, -⟩ := saved_run hext hin1 hew hne p1 hshown hsaves hfmt hnone (hread a1 p1) p3 heph o3 htext hcopy
  have hin2' : Spec.Objects w.ids d2 args2 { Spec.fromFile c with input := { (Spec.fromFile c).input with chunk := m } } orb others :=
    ⟨hin2.orbits, hin2.unique, hin2.given, hin2.same⟩
  obtain ⟨b1, -⟩ := external_blocks_of hin2' her t1 f1 f2 f5 f8 rfl q3
  have hcons := Objects.consistent hin1
  have hn1 : 1 ≤ roundSize c := le_max_left _ _
  have hn2 : 1 ≤ roundSize { Spec.fromFile c with input := { (Spec.fromFile c).input with chunk := m } } := le_max_left _ _
  have q5' : History.Runs false (existing w d2) w.isDir w.glob w.lines ⟨args2, .csv, ch2, w.stamp, w.start⟩ d2 d2' log2 .finished := by
    rwa [if_pos (show ({ Spec.fromFile c with input := { (Spec.fromFile c).input with chunk := m } } : Config.Cfg).output.format = "csv" from hcsv)] at q5
  rw [if_pos hcsv] at p5
  refine same_files (i := { (Spec.fromFile c).input with chunk := m }) (sm := none) (hreg _ _ p1 p2) hg hnames1 hnames2 hone1 hone2 hout (hcols a1 p1) s3.symm p4 q4 p5 q5' ?_ ?_ ?_ ?_
  · rw [← t2]; exact (Pipeline.external_split w.parse hcons eph hn1).2
  · rw [b1]; exact (Pipeline.external_split w.parse hcons eph hn2).2
  · obtain ⟨e1, e2, -, -, -, -, -, e8⟩ := commandLine_ok p1
    obtain ⟨g1, -⟩ := generated_blocks_of hin1 hnone e1 e2 e8 hext p3
    rw [g1]
    have hflat := (Readers.Props.C12_partition orb (roundSize c) hn1).1
    have key : ∀ o ∈ ((Readers.Spec.chunks orb (roundSize c)).map fun b => w.ephem c a1 (keptObjects w c a1 others b)).flatten,
        ∃ k, (∀ r ∈ k, r ∈ Spec.bright c (w.cull c a1) orb others) ∧ o ∈ w.ephem c a1 k := by
      intro o ho
      rw [← List.flatMap_def] at ho
      obtain ⟨b, hb, ho'⟩ := List.mem_flatMap.1 ho
      refine ⟨_, fun r hr => (kept_bright (b := b) (fun x hx => ?_) r hr).1, ho'⟩
      rw [← hflat]
      exact List.mem_flatten.2 ⟨b, hb, hx⟩
    intro o ho o' ho'
    obtain ⟨k, hk, hok⟩ := key o ho
    obtain ⟨k', hk', hok'⟩ := key o' ho'
    exact honce a1 p1 k k' (fun r hr => (List.mem_append.1 hr).elim (hk r) (hk' r)) o (List.mem_append_left _ hok) o' (List.mem_append_right _ hok')
  · intro id
    rw [b1, ← t2, (Pipeline.external_split w.parse hcons eph hn1).1, (Pipeline.external_split w.parse hcons eph hn2).1]

end Sorcha.Whole.Props
