import Verif.Inputs.Props
import Verif.Config.Lemmas
import Verif.Tables.Spec

/-!
# Lemmas about input tables
-/

namespace Sorcha.Tables

open Inputs.Spec (Spaced Blank)
open Inputs (words)

theorem spaced_cons {l : List Char} {ws : List (List Char)} (h : Spaced l ws) (c : Char) (hc : Blank c) : Spaced (c :: l) ws := by
  cases h with
  | blank l h => exact .blank _ (by intro x hx; rcases List.mem_cons.1 hx with rfl | hx; exacts [hc, h x hx])
  | last g w h hw hb =>
    exact Spaced.last (c :: g) w (by intro x hx; rcases List.mem_cons.1 hx with rfl | hx; exacts [hc, h x hx]) hw hb
  | word g w b r ws h hw hb hs hr =>
    exact Spaced.word (c :: g) w b r ws (by intro x hx; rcases List.mem_cons.1 hx with rfl | hx; exacts [hc, h x hx]) hw hb hs hr

theorem spaced_words (l : List Char) : Spaced l (words [] l) ∧
    ∀ cur : List Char, cur ≠ [] → (∀ c ∈ cur, ¬ Blank c) → Spaced (cur.reverse ++ l) (words cur l) := by
  induction l with
  | nil =>
    refine ⟨Spaced.blank [] (by simp), fun cur h1 h2 => ?_⟩
    have := Spaced.last [] cur.reverse (by simp) (by simpa using h1) (by simpa using h2)
    have he : cur.isEmpty = false := by simpa using h1
    simpa [words, he] using this
  | cons c cs ih =>
    by_cases hc : Blank c
    · have hs := (Inputs.Props.isSpace_iff c).2 hc
      constructor
      · simp only [words, hs, if_true, List.isEmpty_nil]
        exact spaced_cons ih.1 c hc
      · intro cur h1 h2
        have he : cur.isEmpty = false := by simpa using h1
        simp only [words, hs, if_true, he, Bool.false_eq_true, if_false]
        have := Spaced.word [] cur.reverse c cs _ (by simp) (by simpa using h1) (by simpa using h2) hc ih.1
        simpa using this
    · have hs : Config.isSpace c = false := by rw [← Bool.not_eq_true, Inputs.Props.isSpace_iff]; exact hc
      constructor
      · simp only [words, hs, Bool.false_eq_true, if_false]
        exact ih.2 [c] (by simp) (by simpa using hc)
      · intro cur h1 h2
        simp only [words, hs, Bool.false_eq_true, if_false]
        have := ih.2 (c :: cur) (by simp) (by simpa [hc] using h2)
        simpa using this

theorem words_iff (l : List Char) (ws : List (List Char)) : words [] l = ws ↔ Spaced l ws :=
  ⟨fun h => h ▸ (spaced_words l).1, Inputs.Props.words_spaced⟩

theorem commas_iff (l : List Char) (ps : List (List Char)) : l.splitOn ',' = ps ↔ Commas l ps := by
  constructor
  · rintro rfl
    exact ⟨List.splitOn_ne_nil _ _, Config.not_mem_splitOn ',' l, (List.intercalate_splitOn ',').symm⟩
  · rintro ⟨h1, h2, rfl⟩
    exact List.splitOn_intercalate ',' h2 h1

theorem cut_iff {sep : String} (hs : Known sep) (l : List Char) (ps : List (List Char)) : cut sep l = ps ↔ Cut sep l ps := by
  rcases hs with rfl | rfl | rfl
  · have h : ¬ ("whitespace" = "csv" ∨ "whitespace" = "comma") := by decide
    simp only [cut, h, if_false, words_iff]
    constructor
    · exact fun h => Or.inr ⟨rfl, h⟩
    · rintro (⟨h', _⟩ | ⟨_, h'⟩)
      · exact absurd h' h
      · exact h'
  · simp only [cut, true_or, if_true, commas_iff]
    constructor
    · exact fun h => Or.inl ⟨Or.inl rfl, h⟩
    · rintro (⟨_, h'⟩ | ⟨h', _⟩)
      · exact h'
      · exact absurd h' (by decide)
  · simp only [cut, or_true, if_true, commas_iff]
    constructor
    · exact fun h => Or.inl ⟨Or.inr rfl, h⟩
    · rintro (⟨_, h'⟩ | ⟨h', _⟩)
      · exact h'
      · exact absurd h' (by decide)

theorem objId_eq : objId = ['O', 'b', 'j', 'I', 'D'] := by decide

theorem starts_iff (l : Line) : starts l = true ↔ objId <+: l := by
  rw [starts, List.isPrefixOf_iff_prefix, objId_eq]

theorem checkHeader_ok {sep : String} (l : Line) : checkHeader sep l = .ok () ↔ 2 ≤ (cut sep l).length ∧ objId ∈ cut sep l := by
  simp only [checkHeader, ← objId_eq]
  by_cases h1 : (cut sep l).length < 2
  · simp [h1, Nat.not_le.2 h1]
  · by_cases h2 : objId ∈ cut sep l
    · simp [h1, h2, Nat.not_lt.1 h1]
    · simp [h1, h2]

theorem search_ok {sep : String} (ls : List Line) : ∀ i h : ℕ, i ≤ 101 → (search sep i ls = .ok h ↔
    i ≤ h ∧ h ≤ 101 ∧ ∃ l, FirstAt ls (h - i) l ∧ 2 ≤ (cut sep l).length ∧ objId ∈ cut sep l) := by
  induction ls with
  | nil =>
    intro i h _
    simp only [search, reduceCtorEq, false_iff]
    rintro ⟨_, _, l, ⟨hl, _⟩, _⟩
    simp at hl
  | cons x xs ih =>
    intro i h hi
    by_cases hx : starts x = true
    · simp only [search, hx, if_true]
      have hp := (starts_iff x).1 hx
      constructor
      · intro he
        cases hc : checkHeader sep x with
        | error e => simp [hc, Except.map] at he
        | ok u =>
          simp only [hc, Except.map, Except.ok.injEq] at he
          subst he
          exact ⟨le_refl _, hi, x, ⟨by simp, hp, by simp⟩, (checkHeader_ok x).1 hc⟩
      · rintro ⟨h1, h2, l, ⟨hl, _, hf⟩, hcut⟩
        have h0 : h - i = 0 := by
          by_contra hne
          exact hf 0 (by omega) x (by simp) hp
        rw [h0] at hl
        obtain rfl : x = l := by simpa using hl
        have hh : i = h := by omega
        rw [(checkHeader_ok x).2 hcut, hh]
        rfl
    · have hp : ¬ objId <+: x := fun h => hx ((starts_iff x).2 h)
      simp only [search, hx, Bool.false_eq_true, if_false]
      by_cases h100 : 100 < i
      · simp only [h100, if_true, reduceCtorEq, false_iff]
        rintro ⟨h1, h2, l, ⟨hl, hpl, _⟩, _⟩
        have h0 : h - i = 0 := by omega
        rw [h0] at hl
        obtain rfl : x = l := by simpa using hl
        exact hp hpl
      · simp only [h100, if_false]
        rw [ih (i + 1) h (by omega)]
        constructor
        · rintro ⟨h1, h2, l, ⟨hl, hpl, hf⟩, hcut⟩
          refine ⟨by omega, h2, l, ⟨?_, hpl, ?_⟩, hcut⟩
          · rw [show h - i = (h - (i + 1)) + 1 by omega, List.getElem?_cons_succ]; exact hl
          · intro k hk l' hl'
            cases k with
            | zero => obtain rfl : x = l' := by simpa using hl'
                      exact hp
            | succ k => exact hf k (by omega) l' (by simpa using hl')
        · rintro ⟨h1, h2, l, ⟨hl, hpl, hf⟩, hcut⟩
          have hne : h - i ≠ 0 := by
            intro h0
            rw [h0] at hl
            obtain rfl : x = l := by simpa using hl
            exact hp hpl
          refine ⟨by omega, h2, l, ⟨?_, hpl, ?_⟩, hcut⟩
          · rw [show h - i = (h - (i + 1)) + 1 by omega, List.getElem?_cons_succ] at hl; exact hl
          · intro k hk l' hl'
            exact hf (k + 1) (by omega) l' (by simpa using hl')

theorem openFile_ok {sep : String} (hs : Known sep) (ls : List Line) (h : ℕ) : openFile sep ls = .ok h ↔
    h ≤ 101 ∧ ∃ l, FirstAt ls h l ∧ 2 ≤ (cut sep l).length ∧ objId ∈ cut sep l := by
  have hm : sep ∈ ["whitespace", "csv", "comma"] := by
    rcases hs with rfl | rfl | rfl <;> decide
  simp only [openFile, hm, if_true]
  rw [search_ok ls 0 h (by omega)]
  simp

theorem known_of_cut {sep : String} {l : List Char} {ps : List (List Char)} (h : Cut sep l ps) : Known sep := by
  rcases h with ⟨h | h, _⟩ | ⟨h, _⟩
  · exact Or.inr (Or.inl h)
  · exact Or.inr (Or.inr h)
  · exact Or.inl h

theorem words_eol (l : List Char) : ∀ cur, words cur (l ++ ['\n']) = words cur l := by
  have hn : Config.isSpace '\n' = true := by decide
  induction l with
  | nil =>
    intro cur
    by_cases h : cur.isEmpty = true
    · simp [words, hn, h]
    · simp [words, hn, h]
  | cons c cs ih =>
    intro cur
    simp only [List.cons_append, words, ih]

/-- The end of the line does not matter for a header that begins with ObjID and a separator. -/
theorem cut_eol {sep : String} {l : List Char} {ps : List (List Char)} (h : Cut sep l ps) (hh : ps.head? = some objId) (hl : 2 ≤ ps.length) :
    2 ≤ (cut sep (l ++ ['\n'])).length ∧ objId ∈ cut sep (l ++ ['\n']) := by
  rcases h with ⟨hs, h1, h2, h3⟩ | ⟨rfl, h⟩
  · simp only [cut, hs, if_true]
    match ps, hh, hl with
    | p :: q :: qs, hh, _ =>
      obtain rfl : p = objId := by simpa using hh
      have hc : Commas (l ++ ['\n']) (objId :: ([','].intercalate (q :: qs) ++ ['\n']).splitOn ',') := by
        have h0 := (commas_iff ([','].intercalate (q :: qs) ++ ['\n']) _).1 rfl
        refine ⟨by simp, ?_, ?_⟩
        · intro p hp
          rcases List.mem_cons.1 hp with rfl | hp
          · exact h2 _ (by simp)
          · exact h0.2.1 p hp
        · rw [h3]
          cases hr : ([','].intercalate (q :: qs) ++ ['\n']).splitOn ',' with
          | nil => exact absurd hr (List.splitOn_ne_nil _ _)
          | cons r rs =>
            have h4 := h0.2.2
            rw [hr] at h4
            rw [List.intercalate_cons_cons, List.intercalate_cons_cons, ← h4]
            simp
      rw [(commas_iff _ _).2 hc]
      refine ⟨?_, by simp⟩
      have := List.length_pos_of_ne_nil (List.splitOn_ne_nil ',' ([','].intercalate (q :: qs) ++ ['\n']))
      simp only [List.length_cons]
      omega
  · have hw : ¬ ("whitespace" = "csv" ∨ "whitespace" = "comma") := by decide
    simp only [cut, hw, if_false, words_eol, (words_iff _ _).2 h]
    refine ⟨hl, ?_⟩
    cases ps with
    | nil => simp at hh
    | cons p ps => obtain rfl : p = objId := by simpa using hh
                   simp

variable {V : Type}

theorem load_of {sep : String} {ls ps : List (List Char)} (fix : List String → List String) (h : HasHeader sep ls ps) (rows : List (List V)) :
    load fix sep ls rows = .ok ⟨fix (ps.map String.ofList), rows⟩ := by
  obtain ⟨pre, l, post, rfl, hlen, hpre, hobj, hcut, hh, h2⟩ := h
  have hk := known_of_cut hcut
  have ho : openFile sep (pre ++ (l ++ ['\n']) :: post) = .ok pre.length := by
    rw [openFile_ok hk]
    refine ⟨hlen, l ++ ['\n'], ⟨by simp, hobj.trans (List.prefix_append _ _), ?_⟩, cut_eol hcut hh h2⟩
    intro k hkk l' hl'
    rw [List.getElem?_append_left hkk] at hl'
    exact hpre l' (List.mem_of_getElem? hl')
  simp only [load, ho, Except.map, readCsv]
  have : (pre ++ (l ++ ['\n']) :: post).getD pre.length [] = l ++ ['\n'] := by simp
  rw [this]
  have hd : dropEol (l ++ ['\n']) = l := by simp [dropEol]
  rw [hd, (cut_iff hk l ps).2 hcut]

theorem named_strip {ps : List (List Char)} {ns : List String} (h : Named ps ns) : (ps.map String.ofList).map Config.strip = ns := by
  have := h.1.imp fun a b h => (Config.strip_iff a b).2 h
  generalize ps.map String.ofList = qs at this
  clear h
  induction this with
  | nil => rfl
  | cons h _ ih => simp [h, ih]

theorem named_nodup {ps : List (List Char)} {ns : List String} (h : Named ps ns) : (ps.map String.ofList).Nodup ∧ "" ∉ ps.map String.ofList := by
  have hs := named_strip h
  constructor
  · have := h.2.1
    rw [← hs] at this
    exact List.Nodup.of_map _ this
  · intro hm
    have := List.mem_map_of_mem (f := Config.strip) hm
    rw [hs] at this
    have he : Config.strip "" = "" := by decide +kernel
    rw [he] at this
    exact h.2.2 this

theorem named_idem {ps : List (List Char)} {ns : List String} (h : Named ps ns) : ns.map Config.strip = ns := by
  rw [← named_strip h, List.map_map]
  refine List.map_congr_left fun s _ => ?_
  rw [Function.comp_apply]
  have h1 := (Config.strip_iff s _).1 rfl
  obtain ⟨_, _, _, _, _, h4, h5⟩ := h1
  exact (Config.strip_iff _ _).2 ⟨[], [], by simp, by simp, by simp, h4, h5⟩

theorem read_of {sep : String} {ls ps : List (List Char)} {ns : List String} {fix : List String → List String} (hf : KeepsNames fix)
    (h : HasHeader sep ls ps) (hn : Named ps ns) (rows : List (List V)) :
    readParams fix sep ls rows = .ok ⟨ns, rows⟩ ∧ readOrbits fix sep ls rows = .ok ⟨ps.map String.ofList, rows⟩ := by
  have hl := load_of fix h rows
  rw [hf _ (named_nodup hn).1 (named_nodup hn).2] at hl
  obtain ⟨pre, l, post, _, _, _, _, _, hh, h2⟩ := h
  have hv : validate (⟨ps.map String.ofList, rows⟩ : Frame V) = .ok ⟨ps.map String.ofList, rows⟩ := by
    have h3 : ¬ (ps.map String.ofList).length ≤ 1 := by simp; omega
    have h4 : "ObjID" ∈ ps.map String.ofList := by
      cases ps with
      | nil => simp at hh
      | cons p ps =>
        obtain rfl : p = objId := by simpa using hh
        simp [objId]
    simp only [validate, h3, h4, if_false, not_true]
  have hp : readParams fix sep ls rows = .ok ⟨ns, rows⟩ := by
    simp only [readParams, hl, hv, Except.bind, bind, pure, Except.pure, stripNames, named_strip hn]
  refine ⟨hp, ?_⟩
  simp only [readOrbits, hl, hp, Except.bind, bind, pure, Except.pure]

/-! ## Columns -/

theorem at_iff (names : List String) (row : List V) (n : String) (v : V) : At names row n v ↔ (n, v) ∈ names.zip row := by
  rw [List.mem_iff_getElem?, At]
  simp only [List.getElem?_zip_eq_some]

theorem zip_filter (p : String → Bool) (names : List String) (row : List V) (h : row.length = names.length) :
    (names.filter p).zip (((names.zip row).filter fun q => p q.1).map (·.2)) = (names.zip row).filter fun q => p q.1 := by
  induction names generalizing row with
  | nil => simp
  | cons n ns ih =>
    cases row with
    | nil => simp at h
    | cons v vs =>
      have ih' := ih vs (by simpa using h)
      by_cases hp : p n = true
      · simp [List.zip_cons_cons, hp, ih']
      · simp [List.zip_cons_cons, hp, ih']

theorem zip_filter_length (p : String → Bool) (names : List String) (row : List V) (h : row.length = names.length) :
    (((names.zip row).filter fun q => p q.1).map (·.2)).length = (names.filter p).length := by
  induction names generalizing row with
  | nil => simp
  | cons n ns ih =>
    cases row with
    | nil => simp at h
    | cons v vs =>
      have ih' := ih vs (by simpa using h)
      by_cases hp : p n = true
      · simpa [List.zip_cons_cons, hp] using ih'
      · simpa [List.zip_cons_cons, hp] using ih'

theorem pick_name {names : List String} (hn : names.Nodup) {n : String} (h : n ∈ names) : names.filter (· = n) = [n] := by
  induction names with
  | nil => simp at h
  | cons x xs ih =>
    have hx := List.nodup_cons.1 hn
    rcases List.mem_cons.1 h with rfl | h
    · have : xs.filter (· = n) = [] := by
        rw [List.filter_eq_nil_iff]
        intro a ha
        simp only [decide_eq_true_eq]
        rintro rfl
        exact hx.1 ha
      simp [this]
    · have hne : x ≠ n := by rintro rfl; exact hx.1 h
      simp [hne, ih hx.2 h]

theorem zip_pick {names : List String} (hn : names.Nodup) {row : List V} (hl : row.length = names.length) {n : String} (h : n ∈ names) :
    ∃ v, ((names.zip row).filter fun p => p.1 = n).map (·.2) = [v] ∧ At names row n v := by
  have h1 := zip_filter (fun x => decide (x = n)) names row hl
  have h2 := zip_filter_length (fun x => decide (x = n)) names row hl
  rw [pick_name hn h] at h1 h2
  cases hx : ((names.zip row).filter fun p => decide (p.1 = n)).map (·.2) with
  | nil => rw [hx] at h2; simp at h2
  | cons v vs =>
    rw [hx] at h2 h1
    have : vs = [] := by simpa using h2
    subst this
    refine ⟨v, rfl, ?_⟩
    rw [at_iff]
    have hm : (n, v) ∈ (names.zip row).filter fun p => decide (p.1 = n) := by rw [← h1]; simp
    exact (List.mem_filter.1 hm).1

theorem at_unique {names : List String} (hn : names.Nodup) {row : List V} {n : String} {v w : V} (h : At names row n v) (h' : At names row n w) : v = w := by
  obtain ⟨i, hi, hv⟩ := h
  obtain ⟨j, hj, hw⟩ := h'
  have hij : i = j := by
    have hi' := List.getElem?_eq_some_iff.1 hi
    have hj' := List.getElem?_eq_some_iff.1 hj
    obtain ⟨a, ha⟩ := hi'
    obtain ⟨b, hb⟩ := hj'
    exact (List.Nodup.getElem_inj_iff hn).1 (ha.trans hb.symm)
  subst hij
  rw [hv] at hw
  exact Option.some.inj hw

/-- The cells of the columns `ns`, in that order. -/
def Cells (names : List String) (ns : List String) (row row' : List V) : Prop := List.Forall₂ (At names row) ns row'

theorem cells_unique {names : List String} (hn : names.Nodup) {ns : List String} {row a b : List V} (ha : Cells names ns row a) (hb : Cells names ns row b) :
    a = b := by
  unfold Cells at ha hb
  induction ha generalizing b with
  | nil => cases hb; rfl
  | cons h _ ih =>
    cases hb with
    | cons h' hb' => rw [at_unique hn h h', ih hb']

theorem select_row {names : List String} (hn : names.Nodup) {row : List V} (hl : row.length = names.length) {ns : List String} (h : ∀ n ∈ ns, n ∈ names) :
    Cells names ns row (ns.flatMap fun n => ((names.zip row).filter fun p => p.1 = n).map (·.2)) := by
  unfold Cells
  induction ns with
  | nil => exact List.Forall₂.nil
  | cons n ns ih =>
    obtain ⟨v, hv, ha⟩ := zip_pick hn hl (h n (by simp))
    rw [List.flatMap_cons, hv]
    exact List.Forall₂.cons ha (ih fun m hm => h m (by simp [hm]))

theorem select_names {names : List String} (hn : names.Nodup) {ns : List String} (h : ∀ n ∈ ns, n ∈ names) :
    (ns.flatMap fun n => names.filter (· = n)) = ns := by
  induction ns with
  | nil => rfl
  | cons n ns ih => rw [List.flatMap_cons, pick_name hn (h n (by simp)), ih fun m hm => h m (by simp [hm])]; rfl

end Sorcha.Tables
