import Verif.Whole.Props6
import Verif.Whole.StatSpec

/-!
# Lemmas on the statistics of a run
-/

namespace Sorcha.Whole.Props

open Sorcha.Csv (Str)
open Sorcha.Output (Cell)

variable {G W V : Type}

/-- The pairs of an object and a filter in the table of a round. -/
def statKeys (cats : List String) (rows : List Seen) : List (String × String) := ((((rows.map Seen.toObs).map (·.objId)).dedup.insertionSort (· ≤ ·)) ×ˢ cats)

theorem mem_statKeys (cats : List String) (rows : List Seen) (id f : String) : (id, f) ∈ statKeys cats rows ↔ (∃ r ∈ rows, r.objId = id) ∧ f ∈ cats := by
  unfold statKeys
  rw [Output.mem_keys]
  refine and_congr_left fun _ => ⟨?_, ?_⟩
  · rintro ⟨o, ho, rfl⟩
    obtain ⟨r, hr, rfl⟩ := List.mem_map.1 ho
    exact ⟨r, hr, rfl⟩
  · rintro ⟨r, hr, rfl⟩
    exact ⟨_, List.mem_map.2 ⟨r, hr, rfl⟩, rfl⟩

theorem statColumns_eq (c : Config.Cfg) : statColumns c.linking = Spec.statisticsColumns c := by
  unfold statColumns Spec.statisticsColumns
  cases c.linking.ssp <;> cases c.linking.dropUnlinked <;> rfl

theorem value_numCell (o : Option ℚ) : Spec.Value o (numCell o) := by
  cases o with
  | none => exact .missing
  | some q => exact .number q

theorem obsOf_group (rows : List Seen) (id f : String) : Output.Props.obsOf (rows.map Seen.toObs) id f = (Spec.groupOf rows id f).map Seen.toObs := by
  unfold Output.Props.obsOf Spec.groupOf
  rw [List.filter_map]
  rfl

theorem linkDates_eq (g : List Seen) : Spec.linkDates g = (g.map Seen.toObs).map (·.date) := by
  unfold Spec.linkDates
  rw [List.map_map]
  apply List.map_congr_left
  rintro ⟨_, _, _, _, l⟩ _
  rcases l with _ | ⟨b, _ | n⟩ <;> rfl

theorem magnitudes_eq (g : List Seen) : Spec.magnitudes g = (g.map Seen.toObs).filterMap (·.mag) := by
  unfold Spec.magnitudes
  rw [List.filterMap_map]
  rfl

/-- The cells of a row of the statistics. -/
theorem statCell_spec {cats : List String} {rows : List Seen} {id f : String} (hk : (id, f) ∈ statKeys cats rows) (column : String) :
    Spec.StatCell id f (Spec.groupOf rows id f) column (statCell (Output.statRow (rows.map Seen.toObs) id f) column) := by
  have hs : Output.statRow (rows.map Seen.toObs) id f ∈ Output.stats cats (rows.map Seen.toObs) := by
    rw [Output.stats_eq]
    exact List.mem_map.2 ⟨(id, f), hk, rfl⟩
  obtain ⟨h1, h2, h3, h4, h5, h6, h7, h8, h9⟩ := Output.Props.C20_values cats _ _ hs
  generalize hr : Output.statRow (rows.map Seen.toObs) id f = s at *
  have hid : s.objId = id := by rw [← hr]; rfl
  have hf : s.optFilter = f := by rw [← hr]; rfl
  have hlinked : s.linked = if (Output.Props.obsOf (rows.map Seen.toObs) id f) = [] then none else some ((Output.Props.obsOf (rows.map Seen.toObs) id f).all (·.linked)) := by
    rw [← hr]; rfl
  rw [hid, hf, obsOf_group] at h1 h2 h3 h4 h5 h6 h7 h8 h9
  rw [← magnitudes_eq] at h2 h3 h4
  rw [← linkDates_eq] at h9
  rw [List.filterMap_map] at h5 h6
  rw [obsOf_group] at hlinked
  constructor
  · rintro rfl; rw [← hid]; rfl
  · rintro rfl; rw [← hf]; rfl
  · rintro rfl
    rw [List.length_map] at h1
    rw [← h1]; rfl
  · rintro rfl _; exact ⟨_, value_numCell _, h2⟩
  · rintro rfl _; exact ⟨_, value_numCell _, h3⟩
  · rintro rfl _; exact ⟨_, value_numCell _, h4⟩
  · rintro rfl; exact ⟨_, value_numCell _, h5⟩
  · rintro rfl; exact ⟨_, value_numCell _, h6⟩
  · rintro rfl
    have e : statCell s "object_linked" = match s.linked with | none => .null | some b => .flag b := rfl
    rw [e]
    refine ⟨fun hg => ?_, fun hg hall => ?_, fun hex => ?_⟩
    · rw [hlinked, if_pos (by rw [hg]; rfl)]
    · rw [h7.2 ⟨by simpa using hg, ?_⟩]
      intro o ho
      obtain ⟨r, hr, rfl⟩ := List.mem_map.1 ho
      obtain ⟨x, hx⟩ := hall r hr
      simp [Seen.toObs, hx]
    · obtain ⟨r, hr, x, hx⟩ := hex
      rw [h8.2 ⟨_, List.mem_map.2 ⟨r, hr, rfl⟩, by simp [Seen.toObs, hx]⟩]
  · rintro rfl; exact ⟨_, value_numCell _, h9⟩

/-- The rows of different rounds are of different objects. -/
def Apart (outs : List (List Seen)) : Prop := outs.Pairwise fun o o' => ∀ r ∈ o, ∀ r' ∈ o', r.objId ≠ r'.objId

theorem group_here {outs : List (List Seen)} (h : Apart outs) {o : List Seen} (ho : o ∈ outs) {id : String} (hid : ∃ r ∈ o, r.objId = id) (f : String) :
    Spec.groupOf outs.flatten id f = Spec.groupOf o id f := by
  obtain ⟨r0, hr0, rfl⟩ := hid
  induction outs with
  | nil => simp at ho
  | cons a outs ih =>
    obtain ⟨h1, h2⟩ := List.pairwise_cons.1 h
    unfold Spec.groupOf at *
    rw [List.flatten_cons, List.filter_append]
    rcases List.mem_cons.1 ho with rfl | ho
    · rw [List.append_right_eq_self, List.filter_eq_nil_iff]
      intro r hr hd
      obtain ⟨b, hb, hr⟩ := List.mem_flatten.1 hr
      simp only [decide_eq_true_eq] at hd
      exact h1 b hb r0 hr0 r hr hd.1.symm
    · rw [ih h2 ho, List.append_left_eq_self, List.filter_eq_nil_iff]
      intro r hr hd
      simp only [decide_eq_true_eq] at hd
      exact h1 o ho r hr r0 hr0 hd.1

theorem statKeys_all (cats : List String) (hc : cats.Nodup) {outs : List (List Seen)} (h : Apart outs) :
    (outs.flatMap (statKeys cats)).Nodup ∧ ∀ id f, (id, f) ∈ outs.flatMap (statKeys cats) ↔ (∃ r ∈ outs.flatten, r.objId = id) ∧ f ∈ cats := by
  have hm : ∀ id f, (id, f) ∈ outs.flatMap (statKeys cats) ↔ (∃ r ∈ outs.flatten, r.objId = id) ∧ f ∈ cats := by
    intro id f
    rw [List.mem_flatMap]
    constructor
    · rintro ⟨o, ho, hk⟩
      obtain ⟨⟨r, hr, e⟩, hf⟩ := (mem_statKeys ..).1 hk
      exact ⟨⟨r, List.mem_flatten.2 ⟨o, ho, hr⟩, e⟩, hf⟩
    · rintro ⟨⟨r, hr, e⟩, hf⟩
      obtain ⟨o, ho, hr⟩ := List.mem_flatten.1 hr
      exact ⟨o, ho, (mem_statKeys ..).2 ⟨⟨r, hr, e⟩, hf⟩⟩
  refine ⟨?_, hm⟩
  rw [List.nodup_flatMap]
  refine ⟨fun o _ => Output.keys_nodup cats hc _, ?_⟩
  refine h.imp ?_
  intro o o' ho k hk hk'
  obtain ⟨id, f⟩ := k
  obtain ⟨⟨r, hr, e⟩, -⟩ := (mem_statKeys ..).1 hk
  obtain ⟨⟨r', hr', e'⟩, -⟩ := (mem_statKeys ..).1 hk'
  exact ho r hr r' hr' (e.trans e'.symm)

/-- The file of statistics made of the tables of the rounds. -/
theorem statistics_file {c : Config.Cfg} {cats : List String} (hc : cats.Nodup) {shown : Cell → Str} {outs : List (List Seen)} (hne : ∀ o ∈ outs, o ≠ [])
    (hap : Apart outs) (hf : ∀ o ∈ outs, ∀ r ∈ o, r.filter ∈ cats) :
    Spec.StatisticsFile shown Csv.read c cats outs.flatten (History.Spec.csvOf (Csv.line shown) (outs.map (statistics cats c.linking))) := by
  cases outs with
  | nil => exact .inl ⟨rfl, rfl⟩
  | cons o os =>
    right
    obtain ⟨k1, k2⟩ := statKeys_all cats hc hap
    have hlines : Csv.Props.linesOf shown (statistics cats c.linking o :: os.map (statistics cats c.linking)) = (Spec.statisticsColumns c).map String.toList ::
        ((o :: os).flatMap fun o => (statKeys cats o).map fun k => (Spec.statisticsColumns c).map (statCell (Output.statRow (o.map Seen.toObs) k.1 k.2))).map fun l => l.map shown := by
      simp only [Csv.Props.linesOf]
      rw [show (statistics cats c.linking o).cols = Spec.statisticsColumns c from statColumns_eq c, ← List.map_cons, List.flatMap_map, List.map_flatMap]
      congr 2
      funext o
      rw [show (statistics cats c.linking o).cells = ((Output.stats cats (o.map Seen.toObs)).map statCell).map fun r => (statColumns c.linking).map r from rfl,
        statColumns_eq, Output.stats_eq]
      unfold statKeys
      simp only [List.map_map, Function.comp_def]
    refine ⟨?_, _, (o :: os).flatMap (statKeys cats),
      (o :: os).flatMap fun o => (statKeys cats o).map fun k => (Spec.statisticsColumns c).map (statCell (Output.statRow (o.map Seen.toObs) k.1 k.2)),
      Csv.Props.csvOf_lines shown _ _, ?_, k1, k2, ?_, ?_⟩
    · intro h
      rw [List.flatten_cons, List.append_eq_nil_iff] at h
      exact hne o (List.mem_cons_self ..) h.1
    · rw [Csv.Props.C83_read_back, hlines]
      intro row hrow
      rw [hlines] at hrow
      left
      rcases List.mem_cons.1 hrow with rfl | hrow
      · rw [List.length_map]; simp [Spec.statisticsColumns]
      · obtain ⟨l, hl, rfl⟩ := List.mem_map.1 hrow
        obtain ⟨o', -, hl⟩ := List.mem_flatMap.1 hl
        obtain ⟨k, -, rfl⟩ := List.mem_map.1 hl
        rw [List.length_map, List.length_map]; simp [Spec.statisticsColumns]
    · generalize hall : (o :: os) = outs at *
      have key : ∀ l : List (List Seen), (∀ o ∈ l, o ∈ outs) → List.Forall₂ (fun (k : String × String) line =>
          List.Forall₂ (Spec.StatCell k.1 k.2 (Spec.groupOf outs.flatten k.1 k.2)) (Spec.statisticsColumns c) line) (l.flatMap (statKeys cats))
          (l.flatMap fun o => (statKeys cats o).map fun k => (Spec.statisticsColumns c).map (statCell (Output.statRow (o.map Seen.toObs) k.1 k.2))) := by
        intro l
        induction l with
        | nil => intro _; exact .nil
        | cons o l ih =>
          intro hl
          rw [List.flatMap_cons, List.flatMap_cons]
          refine List.rel_append ?_ (ih fun o ho => hl o (List.mem_cons_of_mem _ ho))
          rw [List.forall₂_map_right_iff, List.forall₂_same]
          rintro ⟨id, f⟩ hk
          rw [List.forall₂_map_right_iff, List.forall₂_same]
          intro col _
          rw [group_here hap (hl o (List.mem_cons_self ..)) ((mem_statKeys ..).1 hk).1]
          exact statCell_spec hk col
      exact key _ fun o ho => ho
    · have := Output.sum_filter_all (o :: os).flatten (fun r => (r.objId, r.filter)) _ k1 fun r hr => (k2 _ _).2 ⟨⟨r, hr, rfl⟩, by
        obtain ⟨o', ho', hr⟩ := List.mem_flatten.1 hr
        exact hf o' ho' r hr⟩
      rw [← this]
      congr 1
      apply List.map_congr_left
      intro k _
      unfold Spec.groupOf
      congr 1
      apply List.filter_congr
      intro r _
      rw [decide_eq_decide, Prod.ext_iff]

end Sorcha.Whole.Props
