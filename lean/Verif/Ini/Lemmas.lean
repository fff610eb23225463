import Verif.Ini.Model
import Verif.Ini.Spec
import Verif.Config.Lemmas

/-!
# Lemmas about the reading of configuration files
-/

namespace Sorcha.Ini

open Sorcha.Config (isSpace stripChars isSpace_iff stripChars_mid dropWhile_append_left dropWhile_of_head)
open Spec (Spaces Trimmed EndsInk Comment Noise Header Key Setting Tail Meaning Body Sections)

theorem spaces_iff (w : Line) : Spaces w ↔ ∀ c ∈ w, isSpace c = true := by
  simp only [Spaces, isSpace_iff]

theorem not_space (c : Char) : ¬Config.Spec.Space c ↔ isSpace c = false := by
  rw [← isSpace_iff]; simp

/-- A core without white space at its ends, between white space. -/
theorem strip_core (pre core post : Line) (h1 : Spaces pre) (h2 : Spaces post) (h : Trimmed core) :
    stripChars isSpace (pre ++ core ++ post) = core :=
  stripChars_mid isSpace pre core post ((spaces_iff _).1 h1) ((spaces_iff _).1 h2) (fun c hc => (not_space c).1 (h.1 c hc))
    (fun c hc => (not_space c).1 (h.2 c hc))

theorem strip_spaces (w : Line) (h : Spaces w) : stripChars isSpace w = [] := by
  have := strip_core w [] [] h (by simp [Spaces]) ⟨by simp, by simp [EndsInk]⟩
  simpa using this

theorem rstrip_core (core post : Line) (h2 : Spaces post) (h : EndsInk core) :
    ((core ++ post).reverse.dropWhile isSpace).reverse = core := by
  rw [List.reverse_append, dropWhile_append_left isSpace _ _ (by simpa using (spaces_iff _).1 h2),
    dropWhile_of_head isSpace _ (fun c hc => (not_space c).1 (h c (by simpa using hc))), List.reverse_reverse]

theorem takeWhile_zero (c : Char) (r : Line) (h : isSpace c = false) : ((c :: r).takeWhile isSpace).length = 0 := by
  simp [h]

/-! ## Sections and keys -/

theorem modify_last (pre : List (String × List Opt)) (n : String) (os : List Opt) (f : List Opt → List Opt)
    (h : n ∉ pre.map Prod.fst) : modify (pre ++ [(n, os)]) n f = pre ++ [(n, f os)] := by
  unfold modify
  rw [List.map_append]
  congr 1
  · conv_rhs => rw [← List.map_id pre]
    refine List.map_congr_left fun s hs => ?_
    have : s.1 ≠ n := fun e => h (e ▸ List.mem_map.2 ⟨s, hs, rfl⟩)
    simp [this]
  · simp

theorem append_last (pre : List (String × List Opt)) (n : String) (os : List Opt) (k : String) (ls : List Line) (v : Line)
    (h : n ∉ pre.map Prod.fst) (hk : k ∉ os.map Prod.fst) :
    appendTo (pre ++ [(n, os ++ [(k, ls)])]) n k v = pre ++ [(n, os ++ [(k, ls ++ [v])])] := by
  unfold appendTo
  rw [modify_last _ _ _ _ h, List.map_append]
  congr 4
  · conv_rhs => rw [← List.map_id os]
    refine List.map_congr_left fun s hs => ?_
    have : s.1 ≠ k := fun e => hk (e ▸ List.mem_map.2 ⟨s, hs, rfl⟩)
    simp [this]
  · simp

theorem hasKey_last (pre : List (String × List Opt)) (n : String) (os : List Opt) (k : String) (h : n ∉ pre.map Prod.fst) :
    hasKey (pre ++ [(n, os)]) n k = true ↔ k ∈ os.map Prod.fst := by
  unfold hasKey
  simp only [List.any_append, List.any_cons, List.any_nil, Bool.or_false, decide_true, Bool.true_and, Bool.or_eq_true, List.any_eq_true,
    decide_eq_true_eq, List.mem_map, Bool.and_eq_true]
  constructor
  · rintro (⟨s, hs, rfl, -⟩ | ⟨o, ho, e⟩)
    · exact absurd (List.mem_map.2 ⟨s, hs, rfl⟩) h
    · exact ⟨o, ho, e⟩
  · rintro ⟨o, ho, e⟩
    exact .inr ⟨o, ho, e⟩

/-! ## One line -/

theorem step_comment (lower : String → String) (st : St) (l : Line) (h : Comment l) : step lower st l = .ok st := by
  obtain ⟨pad, c, rest, rfl, hp, hc⟩ := h
  have hcs : isSpace c = false := by rcases hc with rfl | rfl <;> decide
  obtain ⟨pre, post, he, h1, h2, h3, h4⟩ := Config.stripChars_spec isSpace (c :: rest)
  have hpre : pre = [] := by
    cases pre with
    | nil => rfl
    | cons a as =>
      simp only [List.cons_append, List.cons.injEq] at he
      have := h1 a (by simp)
      rw [← he.1, hcs] at this
      exact absurd this (by simp)
  subst hpre
  have hst : stripChars isSpace (pad ++ c :: rest) = stripChars isSpace (c :: rest) := by
    unfold stripChars
    rw [dropWhile_append_left isSpace pad _ ((spaces_iff _).1 hp)]
  unfold step
  rw [hst]
  cases hs : stripChars isSpace (c :: rest) with
  | nil =>
    rw [hs] at he
    have := h2 c (by simp at he; simp [← he])
    rw [hcs] at this
    exact absurd this (by simp)
  | cons a as =>
    rw [hs] at he
    have hac : c = a := by simpa using (List.cons.inj he).1
    subst hac
    have : (c = '#' || c = ';') = true := by rcases hc with rfl | rfl <;> decide
    simp [this]

theorem step_blank (lower : String → String) (st : St) (l : Line) (h : Spaces l) :
    step lower st l = .ok (match st.target with
      | some (n, k) => { st with secs := appendTo st.secs n k [] }
      | none => st) := by
  unfold step
  rw [strip_spaces l h]
  cases st.target <;> rfl

theorem step_noise (lower : String → String) (st : St) (hopt : st.opt = none) (l : Line) (h : Noise l) : step lower st l = .ok st := by
  rcases h with h | h
  · rw [step_blank lower st l h]
    have : st.target = none := by
      unfold St.target
      rw [hopt]
      cases st.cur <;> rfl
    rw [this]
  · exact step_comment lower st l h

theorem parse_noise (lower : String → String) (st : St) (hopt : st.opt = none) (noise rest : List Line) (h : ∀ x ∈ noise, Noise x) :
    parse lower st (noise ++ rest) = parse lower st rest := by
  induction noise with
  | nil => rfl
  | cons a as ih =>
    rw [List.cons_append, parse, step_noise lower st hopt a (h a (by simp))]
    exact ih fun x hx => h x (by simp [hx])

/-- A line that starts in the first column and is neither empty nor a comment. -/
theorem step_heading (lower : String → String) (st : St) (c : Char) (v post : Line) (hp : Spaces post) (ht : Trimmed (c :: v)) (h1 : c ≠ '#')
    (h2 : c ≠ ';') : step lower st (c :: v ++ post) = heading lower { st with indent := 0 } (c :: v) := by
  have hcs : isSpace c = false := (not_space c).1 (ht.1 c rfl)
  have hs : stripChars isSpace (c :: v ++ post) = c :: v := strip_core [] (c :: v) post (by simp [Spaces]) hp ht
  unfold step
  rw [hs]
  have e : ((c :: v ++ post).takeWhile isSpace).length = 0 := by simp [hcs]
  simp only [h1, h2, decide_false, Bool.or_self, Bool.false_eq_true, if_false, e, Nat.not_lt_zero]
  cases st.target <;> rfl

theorem dropWhile_ne_append (d : Char) (a b : Line) (h : d ∉ a) : (a ++ d :: b).dropWhile (· ≠ d) = d :: b := by
  induction a with
  | nil => simp
  | cons x xs ih =>
    have hx : x ≠ d := fun e => h (by simp [e])
    simp only [List.cons_append]
    rw [List.dropWhile_cons_of_pos (by simpa using hx)]
    exact ih fun hm => h (by simp [hm])

theorem header_some (name : Line) (h1 : name ≠ []) : header ('[' :: name ++ [']']) = some name := by
  simp only [header, List.cons_append, List.reverse_append, List.reverse_cons, List.reverse_nil, List.nil_append]
  rw [List.dropWhile_cons_of_neg (by simp)]
  simp [h1]

theorem step_header (lower : String → String) (st : St) (name l : Line) (h : Header name l) (hd : name ≠ "DEFAULT".toList) :
    step lower st l = if (st.secs.map Prod.fst).contains (String.ofList name) then .error .sectionTwice
      else .ok ⟨st.secs ++ [(String.ofList name, [])], some (String.ofList name), none, 0⟩ := by
  obtain ⟨post, rfl, hp, hne, hb⟩ := h
  have ht : Trimmed ('[' :: (name ++ [']'])) := by
    refine ⟨?_, ?_⟩
    · intro c hc
      simp only [List.head?_cons, Option.some.injEq] at hc
      subst hc
      rw [not_space]; decide
    · intro c hc
      have : (('[' :: name) ++ [']']).getLast? = some ']' := by rw [List.getLast?_append]; simp
      rw [← List.cons_append, this] at hc
      cases hc
      rw [not_space]; decide
  have e : '[' :: name ++ ']' :: post = '[' :: (name ++ [']']) ++ post := by simp
  rw [e, step_heading lower st '[' _ post hp ht (by decide) (by decide)]
  have hh : header ('[' :: (name ++ [']'])) = some name := header_some name hne
  have hnd : String.ofList name ≠ "DEFAULT" := by
    intro e
    apply hd
    rw [← e, String.toList_ofList]
  unfold heading
  rw [hh]
  simp only [hnd, if_false]

theorem takeWhile_delim (a : Line) (d : Char) (b : Line) (h : ∀ c ∈ a, isDelim c = false) (hd : isDelim d = true) :
    (a ++ d :: b).takeWhile (fun c => !isDelim c) = a ∧ (a ++ d :: b).dropWhile (fun c => !isDelim c) = d :: b := by
  induction a with
  | nil => simp [hd]
  | cons x xs ih =>
    have hx := h x (by simp)
    obtain ⟨i1, i2⟩ := ih fun c hc => h c (by simp [hc])
    simp [hx, i1, i2]

theorem space_not_delim (c : Char) (h : isSpace c = true) : isDelim c = false := by
  unfold isDelim
  by_contra hn
  simp only [Bool.not_eq_false, Bool.or_eq_true, decide_eq_true_eq] at hn
  rcases hn with rfl | rfl <;> exact absurd h (by decide)

/-- The regular expression for a setting. -/
theorem option_some (k w₁ w₂ text : Line) (d : Char) (h1 : Spaces w₁) (h2 : Spaces w₂) (hd : d = '=' ∨ d = ':') (hk : Key k) (ht : Trimmed text) :
    option (k ++ w₁ ++ d :: w₂ ++ text) = some (k, text) := by
  have hdel : ∀ c ∈ k ++ w₁, isDelim c = false := by
    intro c hc
    rcases List.mem_append.1 hc with hc | hc
    · unfold isDelim
      have a1 : c ≠ '=' := fun e => hk.delim.1 (e ▸ hc)
      have a2 : c ≠ ':' := fun e => hk.delim.2 (e ▸ hc)
      simp [a1, a2]
    · exact space_not_delim c ((spaces_iff _).1 h1 c hc)
  have hdd : isDelim d = true := by rcases hd with rfl | rfl <;> decide
  have e : k ++ w₁ ++ d :: w₂ ++ text = (k ++ w₁) ++ d :: (w₂ ++ text) := by simp
  obtain ⟨t1, t2⟩ := takeWhile_delim (k ++ w₁) d (w₂ ++ text) hdel hdd
  unfold option
  rw [e, t1, t2]
  simp only [Option.some.injEq, Prod.mk.injEq]
  refine ⟨rstrip_core k w₁ h1 hk.trimmed.2, ?_⟩
  have := strip_core w₂ text [] h2 (by simp [Spaces]) ht
  simpa using this

theorem step_setting (lower : String → String) (st : St) (pre : List (String × List Opt)) (n : String) (os : List Opt)
    (hs : st.secs = pre ++ [(n, os)]) (hc : st.cur = some n) (hn : n ∉ pre.map Prod.fst) (k text l : Line) (h : Setting k text l) :
    step lower st l = if lower (String.ofList k) ∈ os.map Prod.fst then .error .keyTwice
      else .ok ⟨pre ++ [(n, os ++ [(lower (String.ofList k), [text])])], some n, some (lower (String.ofList k)), 0⟩ := by
  obtain ⟨w₁, d, w₂, w₃, rfl, h1, h2, h3, hd, hk, ht⟩ := h
  obtain ⟨c, hkc, c1, c2, c3⟩ := hk.head
  obtain ⟨r, rfl⟩ : ∃ r, k = c :: r := by
    cases k with
    | nil => simp at hkc
    | cons a as => exact ⟨as, by simpa using hkc⟩
  have hcs : ¬Config.Spec.Space c := hk.trimmed.1 c rfl
  have hds : ¬Config.Spec.Space d := by rw [not_space]; rcases hd with rfl | rfl <;> decide
  -- the stripped line
  obtain ⟨core, post, he, hpost, hcore, hopt⟩ : ∃ core post, (c :: r) ++ w₁ ++ d :: w₂ ++ text ++ w₃ = c :: core ++ post ∧ Spaces post ∧
      Trimmed (c :: core) ∧ option (c :: core) = some (c :: r, text) := by
    by_cases hte : text = []
    · subst hte
      refine ⟨r ++ w₁ ++ [d], w₂ ++ w₃, by simp, ?_, ⟨?_, ?_⟩, ?_⟩
      · intro x hx
        rcases List.mem_append.1 hx with hx | hx
        · exact h2 x hx
        · exact h3 x hx
      · intro x hx
        simp only [List.head?_cons, Option.some.injEq] at hx
        exact hx ▸ hcs
      · intro x hx
        have : (c :: (r ++ w₁ ++ [d])).getLast? = some d := by rw [← List.cons_append, List.getLast?_append]; simp
        rw [this] at hx
        cases hx
        exact hds
      · have := option_some (c :: r) w₁ [] [] d h1 (by simp [Spaces]) hd hk ht
        simpa using this
    · refine ⟨r ++ w₁ ++ d :: w₂ ++ text, w₃, by simp, h3, ⟨?_, ?_⟩, ?_⟩
      · intro x hx
        simp only [List.head?_cons, Option.some.injEq] at hx
        exact hx ▸ hcs
      · intro x hx
        have : (c :: (r ++ w₁ ++ d :: w₂ ++ text)).getLast? = text.getLast? := by
          rw [← List.cons_append, List.getLast?_append]
          cases hl : text.getLast? with
          | none => exact absurd (List.getLast?_eq_none_iff.1 hl) hte
          | some y => simp
        rw [this] at hx
        exact ht.2 x hx
      · have := option_some (c :: r) w₁ w₂ text d h1 h2 hd hk ht
        simpa using this
  rw [he, step_heading lower st c core post hpost hcore c1 c2]
  have hh : header (c :: core) = none := by
    unfold header
    split
    · rename_i r' heq
      exact absurd (List.cons.inj heq).1 c3
    · rfl
  unfold heading
  rw [hh]
  simp only [hc, hopt, hs]
  rw [if_neg (by simp)]
  by_cases hm : lower (String.ofList (c :: r)) ∈ os.map Prod.fst
  · rw [if_pos ((hasKey_last pre n os _ hn).2 hm), if_pos hm]
  · rw [if_neg (fun hx => hm ((hasKey_last pre n os _ hn).1 hx)), if_neg hm, modify_last pre n os _ hn]

/-! ## Several lines -/

theorem parse_tail (lower : String → String) (pre : List (String × List Opt)) (n : String) (os : List Opt) (k : String) (hk : k ≠ "")
    (hn : n ∉ pre.map Prod.fst) (hko : k ∉ os.map Prod.fst) {ls : List Line} {t : Line} (h : Tail ls t) :
    ∀ (vs : List Line) (rest : List Line), ∃ ps : List Line, t = ps.flatMap ('\n' :: ·) ∧
      parse lower ⟨pre ++ [(n, os ++ [(k, vs)])], some n, some k, 0⟩ (ls ++ rest) =
        parse lower ⟨pre ++ [(n, os ++ [(k, vs ++ ps)])], some n, some k, 0⟩ rest := by
  have htgt : ∀ secs, St.target ⟨secs, some n, some k, 0⟩ = some (n, k) := by
    intro secs
    simp [St.target, hk]
  induction h with
  | nil =>
    intro vs rest
    exact ⟨[], by simp, by simp⟩
  | comment hc _ ih =>
    intro vs rest
    obtain ⟨ps, h1, h2⟩ := ih vs rest
    refine ⟨ps, h1, ?_⟩
    rw [List.cons_append, parse, step_comment lower _ _ hc]
    exact h2
  | blank hb _ ih =>
    intro vs rest
    obtain ⟨ps, h1, h2⟩ := ih (vs ++ [[]]) rest
    refine ⟨[] :: ps, by simp [h1], ?_⟩
    rw [List.cons_append, parse, step_blank lower _ _ hb, htgt]
    simp only
    rw [append_last pre n os k vs [] hn hko, h2]
    simp
  | @more pad x post ls t hp hne hq hx hc _ ih =>
    intro vs rest
    obtain ⟨ps, h1, h2⟩ := ih (vs ++ [x]) rest
    refine ⟨x :: ps, by simp [h1], ?_⟩
    obtain ⟨c, hxc, c1, c2⟩ := hc
    obtain ⟨r, rfl⟩ : ∃ r, x = c :: r := by
      cases x with
      | nil => simp at hxc
      | cons a as => exact ⟨as, by simpa using hxc⟩
    have hs : step lower ⟨pre ++ [(n, os ++ [(k, vs)])], some n, some k, 0⟩ (pad ++ (c :: r) ++ post) =
        .ok ⟨pre ++ [(n, os ++ [(k, vs ++ [c :: r])])], some n, some k, 0⟩ := by
      unfold step
      rw [strip_core pad (c :: r) post hp hq hx]
      have hlen : 0 < ((pad ++ (c :: r) ++ post).takeWhile isSpace).length := by
        cases pad with
        | nil => exact absurd rfl hne
        | cons a as =>
          have := (spaces_iff _).1 hp a (by simp)
          simp [this]
      simp only [c1, c2, decide_false, Bool.or_self, Bool.false_eq_true, if_false, htgt, hlen, decide_true]
      rw [append_last pre n os k vs (c :: r) hn hko]
    rw [List.cons_append, parse, hs]
    simp only
    rw [h2]
    simp

theorem join_pieces (text : Line) (ps : List Line) : ['\n'].intercalate (text :: ps) = text ++ ps.flatMap ('\n' :: ·) := by
  induction ps generalizing text with
  | nil => simp [List.intercalate]
  | cons p ps ih =>
    have := ih p
    simp only [List.intercalate, List.intersperse_cons₂, List.flatten_cons] at this ⊢
    rw [this]
    simp

/-- The key and the lines of a value as the reader keeps them, for a key and value of the text. -/
def Kept (lower : String → String) (o : Line × Line) (p : Opt) : Prop :=
  p.1 = lower (String.ofList o.1) ∧ Meaning (join p.2) o.2

theorem parse_body (lower : String → String) (hlow : ∀ s, s ≠ "" → lower s ≠ "") (pre : List (String × List Opt)) (n : String)
    (hn : n ∉ pre.map Prod.fst) {ls : List Line} {os : List (Line × Line)} (h : Body ls os) :
    ∀ (st : St) (qs : List Opt) (rest : List Line), st.secs = pre ++ [(n, qs)] → st.cur = some n → (qs.map Prod.fst).Nodup →
      if (qs.map Prod.fst ++ os.map fun o => lower (String.ofList o.1)).Nodup then
        ∃ (st' : St) (ps : List Opt), List.Forall₂ (Kept lower) os ps ∧ st'.secs = pre ++ [(n, qs ++ ps)] ∧ st'.cur = some n ∧
          parse lower st (ls ++ rest) = parse lower st' rest
      else ∃ e, parse lower st (ls ++ rest) = .error e := by
  induction h with
  | nil =>
    intro st qs rest hs hc hq
    rw [if_pos (by simpa using hq)]
    exact ⟨st, [], .nil, by simpa using hs, hc, rfl⟩
  | @setting k text l ls t raw w v rest' os h ht hv hw he hm _ ih =>
    intro st qs rest hs hc hq
    have hst := step_setting lower st pre n qs hs hc hn k text l h
    have e0 : l :: ls ++ rest' ++ rest = l :: (ls ++ (rest' ++ rest)) := by simp
    by_cases hmem : lower (String.ofList k) ∈ qs.map Prod.fst
    · rw [if_neg]
      · refine ⟨.keyTwice, ?_⟩
        rw [e0, parse, hst, if_pos hmem]
      · intro hnd
        have := List.disjoint_of_nodup_append hnd hmem
        simp at this
    · rw [if_neg hmem] at hst
      have hkne : k ≠ [] := by
        obtain ⟨_, _, _, _, _, _, _, _, _, hk, _⟩ := h
        obtain ⟨c, hc, _⟩ := hk.head
        intro e
        simp [e] at hc
      have hlk : lower (String.ofList k) ≠ "" := by
        apply hlow
        intro e
        apply hkne
        have := congrArg String.toList e
        simpa using this
      obtain ⟨ps, hp1, hp2⟩ := parse_tail lower pre n qs (lower (String.ofList k)) hlk hn hmem ht [text] (rest' ++ rest)
      have hq' : ((qs ++ [(lower (String.ofList k), [text] ++ ps)]).map Prod.fst).Nodup := by
        rw [List.map_append, List.nodup_append]
        refine ⟨hq, by simp, ?_⟩
        rintro a ha b hb rfl
        simp only [List.map_cons, List.map_nil, List.mem_singleton] at hb
        exact hmem (hb ▸ ha)
      have key := ih ⟨pre ++ [(n, qs ++ [(lower (String.ofList k), [text] ++ ps)])], some n, some (lower (String.ofList k)), 0⟩
        (qs ++ [(lower (String.ofList k), [text] ++ ps)]) rest rfl rfl hq'
      have hl : (qs.map Prod.fst ++ ((k, v) :: os).map fun o => lower (String.ofList o.1)) =
          ((qs ++ [(lower (String.ofList k), [text] ++ ps)]).map Prod.fst ++ os.map fun o => lower (String.ofList o.1)) := by simp
      have hpar : parse lower st (l :: ls ++ rest' ++ rest) =
          parse lower ⟨pre ++ [(n, qs ++ [(lower (String.ofList k), [text] ++ ps)])], some n, some (lower (String.ofList k)), 0⟩ (rest' ++ rest) := by
        rw [e0, parse, hst]
        exact hp2
      rw [hl]
      split at key
      · rename_i hnd
        rw [if_pos hnd]
        obtain ⟨st', ps', k1, k2, k3, k4⟩ := key
        refine ⟨st', (lower (String.ofList k), [text] ++ ps) :: ps', .cons ⟨rfl, ?_⟩ k1, by simpa using k2, k3, hpar.trans k4⟩
        have : join ([text] ++ ps) = raw := by
          unfold join
          rw [List.singleton_append, join_pieces, ← hp1, hv]
          exact rstrip_core raw w hw he
        rw [this]
        exact hm
      · rename_i hnd
        rw [if_neg hnd]
        obtain ⟨e, he⟩ := key
        exact ⟨e, hpar.trans he⟩

theorem parse_sections (lower : String → String) (hlow : ∀ s, s ≠ "" → lower s ≠ "") {lines : List Line} {ss : List (Line × List (Line × Line))}
    (h : Sections lines ss) : (∀ s ∈ ss, s.1 ≠ "DEFAULT".toList) → ∀ (st : St), (st.secs.map Prod.fst).Nodup →
      if (st.secs.map Prod.fst ++ ss.map fun s => String.ofList s.1).Nodup ∧ ∀ s ∈ ss, (s.2.map fun o => lower (String.ofList o.1)).Nodup then
        ∃ (st' : St) (qs : List (String × List Opt)),
          List.Forall₂ (fun s q => q.1 = String.ofList s.1 ∧ List.Forall₂ (Kept lower) s.2 q.2) ss qs ∧ st'.secs = st.secs ++ qs ∧
            parse lower st lines = .ok st'
      else ∃ e, parse lower st lines = .error e := by
  induction h with
  | nil =>
    intro _ st hs
    rw [if_pos ⟨by simpa using hs, by simp⟩]
    exact ⟨st, [], .nil, by simp, rfl⟩
  | @cons name l noise ls rest os ss h hnoise hb _ ih =>
    intro hd st hs
    have hst := step_header lower st name l h (hd (name, os) (by simp))
    have e0 : l :: noise ++ ls ++ rest = l :: (noise ++ (ls ++ rest)) := by simp
    by_cases hmem : String.ofList name ∈ st.secs.map Prod.fst
    · rw [if_neg]
      · refine ⟨.sectionTwice, ?_⟩
        rw [e0, parse, hst, if_pos (by simpa using hmem)]
      · rintro ⟨hnd, -⟩
        have := List.disjoint_of_nodup_append hnd hmem
        simp at this
    · rw [if_neg (by simpa using hmem)] at hst
      have hpar : parse lower st (l :: noise ++ ls ++ rest) =
          parse lower ⟨st.secs ++ [(String.ofList name, [])], some (String.ofList name), none, 0⟩ (ls ++ rest) := by
        rw [e0, parse, hst]
        exact parse_noise lower _ rfl noise _ hnoise
      have hbody := parse_body lower hlow st.secs (String.ofList name) hmem hb
        ⟨st.secs ++ [(String.ofList name, [])], some (String.ofList name), none, 0⟩ [] rest rfl rfl (by simp)
      simp only [List.map_nil, List.nil_append] at hbody
      split at hbody
      · rename_i hkeys
        obtain ⟨st', ps, b1, b2, b3, b4⟩ := hbody
        have hs' : (st'.secs.map Prod.fst).Nodup := by
          rw [b2, List.map_append, List.nodup_append]
          refine ⟨hs, by simp, ?_⟩
          rintro a ha b hb rfl
          simp only [List.map_cons, List.map_nil, List.mem_singleton] at hb
          exact hmem (hb ▸ ha)
        have key := ih (fun s hs => hd s (by simp [hs])) st' hs'
        have hl : (st'.secs.map Prod.fst ++ ss.map fun s => String.ofList s.1) =
            (st.secs.map Prod.fst ++ ((name, os) :: ss).map fun s => String.ofList s.1) := by
          rw [b2]; simp
        have hl2 : (∀ s ∈ (name, os) :: ss, (s.2.map fun o => lower (String.ofList o.1)).Nodup) ↔
            ∀ s ∈ ss, (s.2.map fun o => lower (String.ofList o.1)).Nodup := by
          simp only [List.mem_cons, forall_eq_or_imp]
          exact ⟨fun h => h.2, fun h => ⟨hkeys, h⟩⟩
        rw [hl] at key
        split at key
        · rename_i hc
          rw [if_pos ⟨hc.1, hl2.2 hc.2⟩]
          obtain ⟨st'', qs, k1, k2, k3⟩ := key
          refine ⟨st'', (String.ofList name, ps) :: qs, .cons ⟨rfl, b1⟩ k1, ?_, hpar.trans (b4.trans k3)⟩
          rw [k2, b2]; simp
        · rename_i hc
          rw [if_neg fun h => hc ⟨h.1, hl2.1 h.2⟩]
          obtain ⟨e, he⟩ := key
          exact ⟨e, hpar.trans (b4.trans he)⟩
      · rename_i hkeys
        rw [if_neg fun h => hkeys (h.2 (name, os) (by simp))]
        obtain ⟨e, he⟩ := hbody
        exact ⟨e, hpar.trans he⟩

/-! ## The values -/

theorem interpGo_meaning (lower : String → String) (look : String → Option Line) (sub : Line → Except Err Line) {raw v : Line}
    (h : Meaning raw v) : interpGo lower look sub 0 raw = .ok v := by
  induction h with
  | nil => rfl
  | @char c r t hc _ ih =>
    unfold interpGo
    simp [hc, ih, Except.map]
  | @percent r t _ ih =>
    have h1 : interpGo lower look sub 1 ('%' :: r) = interpGo lower look sub 0 r := by conv_lhs => unfold interpGo
    unfold interpGo
    simp [h1, ih, Except.map]

theorem dictGo_meaning (lower : String → String) (raw : List (String × Line)) {os : List (Line × Line)} {ps : List Opt}
    (h : List.Forall₂ (Kept lower) os ps) : dictGo lower raw (ps.map fun o => (o.1, join o.2)) =
      .ok (os.map fun o => (lower (String.ofList o.1), String.ofList o.2)) := by
  induction h with
  | nil => rfl
  | @cons o p os ps hk _ ih =>
    obtain ⟨h1, h2⟩ := hk
    simp only [List.map_cons, dictGo, interp, bind, Except.bind]
    rw [interpGo_meaning lower _ _ h2, ih]
    simp [h1]

end Sorcha.Ini
