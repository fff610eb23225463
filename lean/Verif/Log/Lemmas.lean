import Verif.Log.Spec

namespace Sorcha.Log
open Spec

/-- Neither text begins with the other. -/
def clashes : List Char → List Char → Bool
  | [], _ => false
  | _, [] => false
  | a :: p, b :: q => a ≠ b || clashes p q

theorem clash {p q : List Char} (h : clashes p q = true) (x y : Line) : fixed p ++ x ≠ fixed q ++ y := by
  unfold fixed
  induction p generalizing q with
  | nil => simp [clashes] at h
  | cons a p ih =>
    cases q with
    | nil => simp [clashes] at h
    | cons b q =>
      simp only [clashes, Bool.or_eq_true, decide_eq_true_eq] at h
      intro he
      simp only [List.cons_append, List.cons.injEq] at he
      rcases h with h | h
      · simp [he.1] at h
      · exact ih h he.2

theorem clash₁ {p q : List Char} (h : clashes p q = true) (x : Line) : fixed p ++ x ≠ fixed q := by
  have := clash h x []
  rwa [List.append_nil] at this

theorem clash₂ {p q : List Char} (h : clashes p q = true) (y : Line) : fixed p ≠ fixed q ++ y := by
  have := clash h [] y
  rwa [List.append_nil] at this

theorem clash₃ {p q : List Char} (h : clashes p q = true) : fixed p ≠ fixed q := by
  have := clash h [] []
  rwa [List.append_nil, List.append_nil] at this

theorem toList_inj {s t : String} (h : s.toList = t.toList) : s = t := String.toList_injective h

/-- An impossible equality of two lists of lines: the first ones differ. -/
macro "differ " h:ident : tactic => `(tactic| first
  | exact absurd (List.cons.inj $h).1 (clash (by decide) _ _)
  | exact absurd (List.cons.inj $h).1 (clash₁ (by decide) _)
  | exact absurd (List.cons.inj $h).1 (clash₂ (by decide) _)
  | exact absurd (List.cons.inj $h).1 (clash₃ (by decide)))

/-- The values of the first lines agree, and so does the rest. -/
theorem peel {p x y : Line} {l m : List Line} (h : (p ++ x) :: l = (p ++ y) :: m) : x = y ∧ l = m :=
  ⟨List.append_cancel_left (List.cons.inj h).1, (List.cons.inj h).2⟩

theorem peelS {p : Line} {s t : String} {l m : List Line} (h : (p ++ s.toList) :: l = (p ++ t.toList) :: m) : s = t ∧ l = m :=
  ⟨toList_inj (peel h).1, (peel h).2⟩

theorem drop1 {x y : Line} {l m : List Line} (h : x :: l = y :: m) : l = m := (List.cons.inj h).2

theorem given_of {s : Option String} : given s = false → s = none ∨ s = some "" := by
  cases s with
  | none => simp
  | some t => simp [given]

theorem sameText {s s' : Option String} (h : given s = given s') (h2 : given s = true → s.getD "" = s'.getD "") : SameText s s' := by
  cases hs : given s with
  | false => exact .inr ⟨given_of hs, given_of (h ▸ hs)⟩
  | true =>
    left
    have h3 := h2 hs
    rw [hs] at h
    cases s <;> cases s' <;> simp_all [given]

/-- The first line begins with one of these texts. -/
def Starts (ps : List (List Char)) (l : List Line) : Prop := ∃ p ∈ ps, ∃ x t, l = (fixed p ++ x) :: t

theorem starts_cons (p : List Char) (x : Line) (t : List Line) : Starts [p] ((fixed p ++ x) :: t) := ⟨p, by simp, x, t, rfl⟩

theorem starts_const (p : List Char) (t : List Line) : Starts [p] (fixed p :: t) := ⟨p, by simp, [], t, by simp⟩

theorem starts_opt {ps : List (List Char)} {l : List Line} (h : Starts ps l) (p : List Char) (x : Line) (b : Prop) [Decidable b] :
    Starts (p :: ps) ((if b then [fixed p ++ x] else []) ++ l) := by
  by_cases hb : b
  · simp only [hb, if_true]
    exact ⟨p, by simp, x, l, rfl⟩
  · simp only [hb, if_false, List.nil_append]
    obtain ⟨q, hq, h⟩ := h
    exact ⟨q, by simp [hq], h⟩

theorem starts_clash {ps : List (List Char)} {l : List Line} (h : Starts ps l) {p : List Char} (hc : ps.all (clashes p) = true) (x : Line)
    (t : List Line) : (fixed p ++ x) :: t ≠ l := by
  obtain ⟨q, hq, y, u, rfl⟩ := h
  intro he
  exact clash (List.all_eq_true.1 hc q hq) x y (List.cons.inj he).1

theorem starts_clash₁ {ps : List (List Char)} {l : List Line} (h : Starts ps l) {p : List Char} (hc : ps.all (clashes p) = true)
    (t : List Line) : fixed p :: t ≠ l := by
  have := starts_clash h hc [] t
  rwa [List.append_nil] at this

/-- A line that is written only on a condition. -/
theorem peel_opt {b b' : Bool} {p : List Char} {v v' : Line} {ps : List (List Char)} {l m : List Line}
    (h : (if b = true then [fixed p ++ v] else []) ++ l = (if b' = true then [fixed p ++ v'] else []) ++ m) (hl : Starts ps l) (hm : Starts ps m)
    (hc : ps.all (clashes p) = true) : b = b' ∧ (b = true → v = v') ∧ l = m := by
  cases b <;> cases b' <;> simp only [if_true, Bool.false_eq_true, if_false, List.nil_append, List.cons_append] at h
  · exact ⟨rfl, by simp, h⟩
  · exact absurd h.symm (starts_clash hl hc _ _)
  · exact absurd h (starts_clash hm hc _ _)
  · exact ⟨rfl, fun _ => (peel h).1, (peel h).2⟩

theorem peel_text {s s' : Option String} {p : List Char} {ps : List (List Char)} {l m : List Line}
    (h : (if given s = true then [fixed p ++ (s.getD "").toList] else []) ++ l = (if given s' = true then [fixed p ++ (s'.getD "").toList] else []) ++ m)
    (hl : Starts ps l) (hm : Starts ps m) (hc : ps.all (clashes p) = true) : SameText s s' ∧ l = m := by
  obtain ⟨h1, h2, h3⟩ := peel_opt h hl hm hc
  exact ⟨sameText h1 fun hg => toList_inj (h2 hg), h3⟩

/-- One of two fixed texts. -/
theorem peel_switch {b b' : Bool} {p q : List Char} {l m : List Line}
    (h : (if b = true then fixed p else fixed q) :: l = (if b' = true then fixed p else fixed q) :: m) (hc : clashes p q = true) : b = b' ∧ l = m := by
  cases b <;> cases b' <;> simp only [if_true, Bool.false_eq_true, if_false] at h
  · exact ⟨rfl, drop1 h⟩
  · exact absurd (List.cons.inj h).1.symm (clash₃ hc)
  · exact absurd (List.cons.inj h).1 (clash₃ hc)
  · exact ⟨rfl, drop1 h⟩

/-- A value or a fixed text. -/
theorem peel_value {b b' : Bool} {p q : List Char} {v v' : Line} {l m : List Line}
    (h : (if b = true then fixed p ++ v else fixed q) :: l = (if b' = true then fixed p ++ v' else fixed q) :: m) (hc : clashes p q = true) :
    b = b' ∧ (b = true → v = v') ∧ l = m := by
  cases b <;> cases b' <;> simp only [if_true, Bool.false_eq_true, if_false] at h
  · exact ⟨rfl, by simp, drop1 h⟩
  · exact absurd (List.cons.inj h).1.symm (clash₁ hc _)
  · exact absurd (List.cons.inj h).1 (clash₁ hc _)
  · exact ⟨rfl, fun _ => (peel h).1, (peel h).2⟩

theorem peel_number {e e' : Option Fl} {p q : List Char} {f : Option Fl → Line} {l m : List Line}
    (h : (match e with | some x => fixed p ++ f (some x) | none => fixed q) :: l = (match e' with | some x => fixed p ++ f (some x) | none => fixed q) :: m)
    (hf : Function.Injective f) (hc : clashes p q = true) : e = e' ∧ l = m := by
  cases e <;> cases e' <;> simp only at h
  · exact ⟨rfl, drop1 h⟩
  · exact absurd (List.cons.inj h).1.symm (clash₁ hc _)
  · exact absurd (List.cons.inj h).1 (clash₁ hc _)
  · exact ⟨hf (peel h).1, (peel h).2⟩

/-! ## Joined words -/

theorem spaced_cons_cons (s t : String) (l : List String) : spaced (s :: t :: l) = s.toList ++ ' ' :: spaced (t :: l) := rfl

theorem append_blank {u v a b : List Char} (hu : ' ' ∉ u) (hv : ' ' ∉ v) (h : u ++ ' ' :: a = v ++ ' ' :: b) : u = v ∧ a = b := by
  induction u generalizing v with
  | nil =>
    cases v with
    | nil => simpa using h
    | cons c v => simp at h; exact absurd (by rw [← h.1]; simp) hv
  | cons c u ih =>
    cases v with
    | nil => simp at h; exact absurd (by rw [h.1]; simp) hu
    | cons d v =>
      simp only [List.cons_append, List.cons.injEq] at h
      simp only [List.mem_cons, not_or] at hu hv
      obtain ⟨h1, h2⟩ := ih hu.2 hv.2 h.2
      exact ⟨by rw [h.1, h1], h2⟩

theorem spaced_inj {l m : List String} (hl : ∀ s ∈ l, Word s) (hm : ∀ s ∈ m, Word s) (h : spaced l = spaced m) : l = m := by
  induction l generalizing m with
  | nil =>
    match m with
    | [] => rfl
    | [t] =>
      have := (hm t (by simp)).1
      simp only [spaced] at h
      exact absurd (toList_inj (by rw [← h]; rfl) : t = "") this
    | t :: t' :: m => simp [spaced] at h
  | cons s l ih =>
    have hs := hl s (by simp)
    match l, m with
    | [], [] => exact absurd (toList_inj (by simpa [spaced] using h) : s = "") hs.1
    | _ :: _, [] => simp [spaced] at h
    | [], [t] => rw [(toList_inj (by simpa [spaced] using h) : s = t)]
    | [], t :: t' :: m =>
      rw [spaced_cons_cons] at h
      simp only [spaced] at h
      exact absurd (by rw [h]; simp) hs.2
    | s' :: l, [t] =>
      rw [spaced_cons_cons] at h
      simp only [spaced] at h
      exact absurd (by rw [← h]; simp) (hm t (by simp)).2
    | s' :: l, t :: t' :: m =>
      rw [spaced_cons_cons, spaced_cons_cons] at h
      obtain ⟨h1, h2⟩ := append_blank hs.2 (hm t (by simp)).2 h
      rw [toList_inj h1, ih (fun u hu => hl u (by simp [hu])) (fun u hu => hm u (by simp [hu])) h2]

/-! ## The sections -/

theorem files_peel {a a' : Args} {c c' : Config.Cfg} {l m : List Line} (hl : Starts [text! "Format of ephemerides file is: "] l)
    (hm : Starts [text! "Format of ephemerides file is: "] m) (h : files a c ++ l = files a' c' ++ m) :
    (a.configfile = a'.configfile ∧ a.paramsinput = a'.paramsinput ∧ a.orbinfile = a'.orbinfile ∧ SameText a.inputEphemeris a'.inputEphemeris ∧
      SameText a.outputEphemeris a'.outputEphemeris ∧ a.survey = a'.survey ∧
      (c.activity = c'.activity ∨ (∃ m m', m ≠ "comet" ∧ m' ≠ "comet" ∧ c.activity = some m ∧ c'.activity = some m'))) ∧ l = m := by
  unfold files at h
  simp only [List.append_assoc, List.cons_append, List.nil_append] at h
  obtain ⟨e1, h⟩ := peelS h
  obtain ⟨e2, h⟩ := peelS h
  obtain ⟨e3, h⟩ := peelS h
  obtain ⟨e4, h⟩ := peel_text h (starts_opt (starts_cons _ _ _) _ _ _) (starts_opt (starts_cons _ _ _) _ _ _) (by decide)
  obtain ⟨e5, h⟩ := peel_text h (starts_cons _ _ _) (starts_cons _ _ _) (by decide)
  obtain ⟨e6, h⟩ := peelS h
  have key : (c.activity = c'.activity ∨ (∃ m m', m ≠ "comet" ∧ m' ≠ "comet" ∧ c.activity = some m ∧ c'.activity = some m')) ∧ l = m := by
    by_cases h1 : c.activity = some "comet" <;> by_cases h2 : c'.activity = some "comet" <;>
      simp only [h1, h2, if_true, if_false, List.cons_append, List.nil_append] at h
    · exact ⟨.inl (by rw [h1, h2]), drop1 h⟩
    · by_cases h3 : c'.activity = none <;> simp only [h3, if_true, if_false, List.cons_append, List.nil_append] at h
      · differ h
      · exact absurd h (starts_clash hm (by decide) _ _)
    · by_cases h3 : c.activity = none <;> simp only [h3, if_true, if_false, List.cons_append, List.nil_append] at h
      · differ h
      · exact absurd h.symm (starts_clash hl (by decide) _ _)
    · by_cases h3 : c.activity = none <;> by_cases h4 : c'.activity = none <;>
        simp only [h3, h4, if_true, if_false, List.cons_append, List.nil_append] at h
      · exact ⟨.inl (by rw [h3, h4]), drop1 h⟩
      · exact absurd h (starts_clash₁ hm (by decide) _)
      · exact absurd h.symm (starts_clash₁ hl (by decide) _)
      · obtain ⟨u, hu⟩ := Option.ne_none_iff_exists'.1 h3
        obtain ⟨v, hv⟩ := Option.ne_none_iff_exists'.1 h4
        exact ⟨.inr ⟨u, v, fun hh => h1 (by rw [hu, hh]), fun hh => h2 (by rw [hv, hh]), hu, hv⟩, h⟩
  exact ⟨⟨e1, e2, e3, e4, e5, e6, key.1⟩, key.2⟩

theorem inputs_peel {str : Str} (hs : Faithful str) {a a' : Args} {c c' : Config.Cfg} {l m : List Line} (hw : ∀ f ∈ c.filters, Word f)
    (hw' : ∀ f ∈ c'.filters, Word f) (h : inputs str a c ++ l = inputs str a' c' ++ m) :
    (c.input.ephFormat = c'.input.ephFormat ∧ c.input.auxFormat = c'.input.auxFormat ∧ a.pointing = a'.pointing ∧ c.input.query = c'.input.query ∧
      c.input.chunk = c'.input.chunk ∧ a.main = a'.main ∧ c.filters = c'.filters ∧ c.phase = c'.phase ∧
      c.expert.trailing.on = c'.expert.trailing.on ∧ c.expert.randomization.on = c'.expert.randomization.on ∧
      c.expert.vignetting.on = c'.expert.vignetting.on) ∧ l = m := by
  unfold inputs at h
  simp only [List.append_assoc, List.cons_append, List.nil_append] at h
  obtain ⟨e1, h⟩ := peelS h
  obtain ⟨e2, h⟩ := peelS h
  obtain ⟨e3, h⟩ := peelS h
  obtain ⟨e4, h⟩ := peelS h
  obtain ⟨e5, h⟩ := peelS h
  obtain ⟨e6, h⟩ := peelS h
  obtain ⟨e7, h⟩ := peel h
  have h8 : ∀ (b : Prop) [Decidable b] (t : List Line), (if b then t else []) = if decide b = true then t else [] := by
    intro b _ t; by_cases hb : b <;> simp [hb]
  rw [h8, h8 (a'.colours.length > 0)] at h
  obtain ⟨-, -, h⟩ := peel_opt h (starts_cons _ _ _) (starts_cons _ _ _) (by decide)
  obtain ⟨e8, h⟩ := peelS h
  obtain ⟨e9, h⟩ := peel_switch h (by decide)
  obtain ⟨e10, h⟩ := peel_switch h (by decide)
  obtain ⟨e11, h⟩ := peel_switch h (by decide)
  exact ⟨⟨e1, e2, e3, e4, hs.int e5, e6, spaced_inj hw hw' e7, e8, e9, e10, e11⟩, h⟩

theorem idle_of {e : Option Fl} (h : Rng.truthy e = false) : Idle e := by
  cases e with
  | none => exact .inl rfl
  | some x => cases x <;> simp_all [Rng.truthy, Fl.eq, Idle]

theorem of_idle {e : Option Fl} (h : Idle e) : Rng.truthy e = false := by
  rcases h with rfl | rfl <;> simp [Rng.truthy, Fl.eq]

theorem sameNumber {str : Str} (hs : Faithful str) {e e' : Option Fl} (h : Rng.truthy e = Rng.truthy e')
    (h2 : Rng.truthy e = true → (str.fl (e.getD .nan)).toList = (str.fl (e'.getD .nan)).toList) : SameNumber e e' := by
  cases hb : Rng.truthy e with
  | false => exact .inr ⟨idle_of hb, idle_of (h ▸ hb)⟩
  | true =>
    left
    have h3 := hs.fl (toList_inj (h2 hb))
    rw [hb] at h
    cases e <;> cases e' <;> simp_all [Rng.truthy]

theorem peel_edge {b b' : Bool} {p q r : List Char} {v v' : Line} {l m : List Line}
    (h : (if b = true then fixed p ++ (v ++ fixed r) else fixed q) :: l = (if b' = true then fixed p ++ (v' ++ fixed r) else fixed q) :: m)
    (hc : clashes p q = true) : b = b' ∧ (b = true → v = v') ∧ l = m := by
  obtain ⟨h1, h2, h3⟩ := peel_value h hc
  exact ⟨h1, fun hb => List.append_cancel_right (h2 hb), h3⟩

theorem starts_value (b : Bool) (p q : List Char) (v : Line) (t : List Line) : Starts [p, q] ((if b = true then fixed p ++ v else fixed q) :: t) := by
  cases b
  · exact ⟨q, by simp, [], t, by simp⟩
  · exact ⟨p, by simp, v, t, by simp⟩

/-- The path of the footprint, or what is written without one. -/
theorem peel_path {s s' : Option String} {p q r : List Char} {u v : Prop} [Decidable u] [Decidable v] {ps : List (List Char)} {l m : List Line}
    (h : (if given s = true then [fixed p ++ (s.getD "").toList] else (if u then [fixed q] else []) ++ (if v then [fixed r] else [])) ++ l =
      (if given s' = true then [fixed p ++ (s'.getD "").toList] else (if u then [fixed q] else []) ++ (if v then [fixed r] else [])) ++ m)
    (hl : Starts ps l) (hm : Starts ps m) (hc : (q :: r :: ps).all (clashes p) = true) : SameText s s' ∧ l = m := by
  have key : ∀ k, Starts ps k → Starts (q :: r :: ps) ((if u then [fixed q] else []) ++ (if v then [fixed r] else []) ++ k) := by
    intro k hk
    by_cases hu : u
    · simp only [hu, if_true, List.cons_append]
      exact ⟨q, by simp, [], _, by rw [List.append_nil]⟩
    · by_cases hv : v
      · simp only [hu, hv, if_true, if_false, List.nil_append, List.cons_append]
        exact ⟨r, by simp, [], _, by rw [List.append_nil]⟩
      · simp only [hu, hv, if_false, List.nil_append]
        obtain ⟨q, hq, hk⟩ := hk
        exact ⟨q, by simp [hq], hk⟩
  cases h1 : given s <;> cases h2 : given s' <;> simp only [h1, h2, if_true, Bool.false_eq_true, if_false, List.cons_append, List.nil_append] at h
  · exact ⟨sameText (by rw [h1, h2]) (by simp [h1]), List.append_cancel_left h⟩
  · exact absurd h.symm (starts_clash (key l hl) hc _ _)
  · exact absurd h (starts_clash (key m hm) hc _ _)
  · exact ⟨sameText (by rw [h1, h2]) fun _ => (peelS h).1, (peelS h).2⟩

theorem camera_peel {lower : String → String} {str : Str} (hs : Faithful str) {a a' : Args} {c c' : Config.Cfg} {l m : List Line}
    (ha : a.survey = a'.survey) (hl : Starts [text! "The upper saturation limit(s) is/are: ", text! "Saturation limit is turned OFF."] l)
    (hm : Starts [text! "The upper saturation limit(s) is/are: ", text! "Saturation limit is turned OFF."] m)
    (h : camera lower str a c ++ l = camera lower str a' c' ++ m) : SameCamera c.fov c'.fov ∧ l = m := by
  unfold camera at h
  rw [← ha] at h
  cases hf : c.fov <;> cases hf' : c'.fov <;> simp only [hf, hf', List.append_assoc, List.cons_append, List.nil_append] at h <;> try differ h
  · rename_i p e p' e'
    have h := drop1 h
    obtain ⟨k1, h⟩ := peel_path h (starts_value _ _ _ _ _) (starts_value _ _ _ _ _) (by decide)
    obtain ⟨k2, k3, h⟩ := peel_edge h (by decide)
    exact ⟨.footprint k1 (sameNumber hs k2 k3), h⟩
  · exact ⟨.visits, drop1 (drop1 h)⟩
  · rename_i f r f' r'
    have h := drop1 h
    cases h1 : Rng.truthy f <;> cases h2 : Rng.truthy f' <;>
      simp only [h1, h2, if_true, Bool.false_eq_true, if_false, List.nil_append, List.cons_append] at h
    · obtain ⟨h3, h4, h5⟩ := peel_opt h hl hm (by decide)
      exact ⟨.circle (.inr ⟨idle_of h1, idle_of h2⟩) fun _ => sameNumber hs h3 h4, h5⟩
    · exact absurd h.symm (starts_clash (starts_opt hl _ _ _) (by decide) _ _)
    · exact absurd h (starts_clash (starts_opt hm _ _ _) (by decide) _ _)
    · exact ⟨.circle (sameNumber hs (by rw [h1, h2]) fun _ => (peel h).1) (fun hi => by rw [of_idle hi] at h1; simp at h1), (peel h).2⟩
  · exact ⟨.none, drop1 h⟩

theorem fls_orNone {str : Str} (hs : Faithful str) : Function.Injective (orNone str.fls) := by
  intro x y h
  cases x <;> cases y <;> simp only [orNone] at h
  · rfl
  · exact absurd h.symm (hs.flsNone _)
  · exact absurd h (hs.flsNone _)
  · rw [hs.fls h]

theorem limits_peel {str : Str} (hs : Faithful str) {c c' : Config.Cfg} {l m : List Line} (h : limits str c ++ l = limits str c' ++ m) :
    ((c.saturation.on.on = c'.saturation.on.on ∧ (c.saturation.on.on = true → c.saturation.limits = c'.saturation.limits)) ∧
      c.expert.snrLimit = c'.expert.snrLimit ∧ c.expert.defaultSnrCut = c'.expert.defaultSnrCut ∧ c.expert.magLimit = c'.expert.magLimit ∧
      (c.fading = c'.fading ∨ ∃ t t', c.fading = .des t ∧ c'.fading = .des t')) ∧ l = m := by
  unfold limits at h
  simp only [List.append_assoc, List.cons_append, List.nil_append] at h
  obtain ⟨e1, e2, h⟩ := peel_value h (by decide)
  have hn : ∀ (e e' : Option Fl) (p q : List Char) (l m : List Line), clashes p q = true →
      (match e with | some x => fixed p ++ (str.fl x).toList | none => fixed q) :: l =
        (match e' with | some x => fixed p ++ (str.fl x).toList | none => fixed q) :: m → e = e' ∧ l = m := by
    intro e e' p q l m hc h
    cases e <;> cases e' <;> simp only at h
    · exact ⟨rfl, drop1 h⟩
    · exact absurd (List.cons.inj h).1.symm (clash₁ hc _)
    · exact absurd (List.cons.inj h).1 (clash₁ hc _)
    · exact ⟨by rw [hs.fl (peelS h).1], (peelS h).2⟩
  obtain ⟨e3, h⟩ := hn _ _ _ _ _ _ (by decide) h
  have hm : ∀ (e : Option Fl) (p q : List Char) (l : List Line),
      Starts [p, q] ((match e with | some x => fixed p ++ (str.fl x).toList | none => fixed q) :: l) := by
    intro e p q l
    cases e
    · exact ⟨q, by simp, [], l, by simp⟩
    · exact ⟨p, by simp, _, l, rfl⟩
  have hcut : ∀ (b : Bool) (p : List Char), (if b = true then [fixed p] else []) = if b = true then [fixed p ++ []] else [] := by simp
  rw [hcut, hcut c'.expert.defaultSnrCut] at h
  obtain ⟨e4, -, h⟩ := peel_opt h (hm _ _ _ _) (hm _ _ _ _) (by decide)
  obtain ⟨e5, h⟩ := hn _ _ _ _ _ _ (by decide) h
  have key : (c.fading = c'.fading ∨ ∃ t t', c.fading = .des t ∧ c'.fading = .des t') ∧ l = m := by
    cases hf : c.fading <;> cases hf' : c'.fading <;> simp only [hf, hf', List.cons_append, List.nil_append] at h <;> try differ h
    · exact ⟨.inl rfl, drop1 h⟩
    · exact ⟨.inr ⟨_, _, rfl, rfl⟩, drop1 (drop1 (drop1 h))⟩
    · exact absurd (peelS (drop1 h)).1.symm (hs.flNone _)
    · exact absurd (peelS (drop1 h)).1 (hs.flNone _)
    · obtain ⟨k1, h⟩ := peelS (drop1 h)
      obtain ⟨k2, h⟩ := peelS h
      exact ⟨.inl (by rw [hs.fl k1, hs.fl k2]), h⟩
  exact ⟨⟨⟨e1, fun hb => fls_orNone hs (toList_inj (e2 hb))⟩, e3, e4, e5, key.1⟩, key.2⟩

theorem linking_peel {str : Str} (hs : Faithful str) {c c' : Config.Cfg} {l m : List Line}
    (hl : Starts [text! "The auxiliary files used for emphemris generation..."] l)
    (hm : Starts [text! "The auxiliary files used for emphemris generation..."] m) (h : linking str c ++ l = linking str c' ++ m) :
    (c.linking.ssp = c'.linking.ssp ∧ (c.linking.ssp ≠ none → c.linking.dropUnlinked = c'.linking.dropUnlinked)) ∧ l = m := by
  unfold linking at h
  cases h1 : c.linking.ssp <;> cases h2 : c'.linking.ssp <;> simp only [h1, h2, List.append_assoc, List.cons_append, List.nil_append] at h <;> try differ h
  · exact ⟨⟨rfl, by simp⟩, drop1 h⟩
  · rename_i s s'
    have h := drop1 (drop1 h)
    obtain ⟨e1, h⟩ := peelS h
    obtain ⟨e2, h⟩ := peelS h
    obtain ⟨e3, h⟩ := peelS h
    obtain ⟨e4, h⟩ := peelS h
    obtain ⟨e5, h⟩ := peelS h
    obtain ⟨e6, h⟩ := peelS h
    obtain ⟨e7, h⟩ := peelS h
    have hd : ∀ (b : Bool) (p : List Char), (if b = true then [] else [fixed p]) = if (!b) = true then [fixed p ++ []] else [] := by
      intro b p; cases b <;> simp
    rw [hd, hd c'.linking.dropUnlinked] at h
    obtain ⟨e8, -, h⟩ := peel_opt h hl hm (by decide)
    refine ⟨⟨?_, fun _ => by simpa using e8⟩, h⟩
    cases s; cases s'
    simp only [Option.some.injEq, Config.Ssp.mk.injEq]
    exact ⟨hs.fl e1, hs.int e2, hs.fl e5, hs.fl e6, hs.int e3, hs.int e4, hs.fl e7⟩

theorem auxiliary_peel {x x' : Aux} {l m : List Line} (h : auxiliary x ++ l = auxiliary x' ++ m) : ToldAux x x' ∧ l = m := by
  unfold auxiliary at h
  simp only [List.append_assoc, List.cons_append, List.nil_append] at h
  have h := drop1 h
  obtain ⟨e1, h⟩ := peelS h
  obtain ⟨e2, h⟩ := peelS h
  obtain ⟨e3, h⟩ := peelS h
  obtain ⟨e4, h⟩ := peelS h
  obtain ⟨e5, h⟩ := peelS h
  obtain ⟨e6, h⟩ := peelS h
  have h := drop1 h
  obtain ⟨e7, h⟩ := peelS h
  obtain ⟨e8, h⟩ := peelS h
  obtain ⟨e9, h⟩ := peelS h
  exact ⟨⟨e1, e2, e3, e4, e5, e6, e7, e8, e9⟩, h⟩

theorem ephemerides_peel {str : Str} (hs : Faithful str) {c c' : Config.Cfg} {l m : List Line}
    (h : ephemerides str c ++ l = ephemerides str c' ++ m) :
    ((c.input.ephemeridesType = "ar" ↔ c'.input.ephemeridesType = "ar") ∧ (c.input.ephemeridesType = "ar" → c.simulation = c'.simulation) ∧
      SameText c.lightcurve c'.lightcurve) ∧ l = m := by
  unfold ephemerides at h
  have key : ∀ (s s' : Option String) (l m : List Line) (p q r : List Char), clashes p r = true →
      (if given s = true then [fixed p, fixed q ++ (s.getD "").toList] else [fixed r]) ++ l =
        (if given s' = true then [fixed p, fixed q ++ (s'.getD "").toList] else [fixed r]) ++ m → SameText s s' ∧ l = m := by
    intro s s' l m p q r hc h
    cases h1 : given s <;> cases h2 : given s' <;> simp only [h1, h2, if_true, Bool.false_eq_true, if_false, List.cons_append, List.nil_append] at h
    · exact ⟨sameText (by rw [h1, h2]) (by simp [h1]), drop1 h⟩
    · exact absurd (List.cons.inj h).1.symm (clash₃ hc)
    · exact absurd (List.cons.inj h).1 (clash₃ hc)
    · exact ⟨sameText (by rw [h1, h2]) fun _ => (peelS (drop1 h)).1, (peelS (drop1 h)).2⟩
  by_cases h1 : c.input.ephemeridesType = "ar" <;> by_cases h2 : c'.input.ephemeridesType = "ar" <;>
    simp only [h1, h2, if_true, if_false, List.append_assoc, List.cons_append, List.nil_append] at h <;> try differ h
  · have h := drop1 (drop1 h)
    obtain ⟨e1, h⟩ := peelS h
    obtain ⟨e2, h⟩ := peelS h
    obtain ⟨e3, h⟩ := peelS h
    obtain ⟨e4, h⟩ := peelS h
    obtain ⟨e5, h⟩ := peelS h
    obtain ⟨e6, h⟩ := peelS h
    obtain ⟨e7, h⟩ := key _ _ _ _ _ _ _ (by decide) h
    refine ⟨⟨by simp [h1, h2], fun _ => ?_, e7⟩, h⟩
    cases hs1 : c.simulation with
    | none =>
      cases hs2 : c'.simulation with
      | none => rfl
      | some y => rw [hs1, hs2] at e1; exact absurd e1.symm (hs.flNone _)
    | some x =>
      cases hs2 : c'.simulation with
      | none => rw [hs1, hs2] at e1; exact absurd e1 (hs.flNone _)
      | some y =>
        rw [hs1, hs2] at e1 e2 e3 e4 e5 e6
        simp only [orNone] at e1 e2 e3 e4 e5 e6
        cases x; cases y
        simp only [Option.some.injEq, Config.SimAR.mk.injEq]
        exact ⟨hs.fl e1, hs.fl e2, hs.int e3, e4, hs.int e5, hs.int e6⟩
  · obtain ⟨e7, h⟩ := key _ _ _ _ _ _ _ (by decide) (drop1 h)
    exact ⟨⟨by simp [h1, h2], fun hh => absurd hh h1, e7⟩, h⟩

theorem sameDecimals {str : Str} (hs : Faithful str) {d d' : Option ℤ} (h : nonzero d = nonzero d')
    (h2 : nonzero d = true → (str.int (d.getD 0)).toList = (str.int (d'.getD 0)).toList) : SameDecimals d d' := by
  have hz : ∀ e : Option ℤ, nonzero e = false → e = none ∨ e = some 0 := by
    intro e he
    cases e <;> simp_all [nonzero]
  cases hb : nonzero d with
  | false => exact .inr ⟨hz d hb, hz d' (h ▸ hb)⟩
  | true =>
    left
    have h3 := hs.int (toList_inj (h2 hb))
    rw [hb] at h
    cases d <;> cases d' <;> simp_all [nonzero]

theorem output_peel {str : Str} (hs : Faithful str) {a a' : Args} {c c' : Config.Cfg} (h : output str a c = output str a' c') :
    c.output.format = c'.output.format ∧ (Clear c.output.columns → Clear c'.output.columns → c.output.columns = c'.output.columns) ∧
      SameDecimals c.output.posDecimals c'.output.posDecimals ∧ SameDecimals c.output.magDecimals c'.output.magDecimals := by
  unfold output at h
  simp only [List.append_assoc] at h
  have h := drop1 h
  obtain ⟨e1, h⟩ := peelS h
  obtain ⟨e2, e3, h⟩ := peel_edge h (by decide)
  obtain ⟨e4, e5, h⟩ := peel_edge h (by decide)
  refine ⟨e1, fun hc hc' => ?_, sameDecimals hs e2 e3, sameDecimals hs e4 e5⟩
  have hb : ∀ (s : String) (l : List String), Word s → 2 ≤ l.length → s.toList = spaced l → False := by
    intro s l h1 h2 h3
    match l with
    | [] => simp at h2
    | [_] => simp at h2
    | t :: t' :: l => rw [spaced_cons_cons] at h3; exact h1.2 (by rw [h3]; simp)
  cases k : c.output.columns <;> cases k' : c'.output.columns <;> rw [k, k'] at h <;> rw [k] at hc <;> rw [k'] at hc' <;>
    simp only at h <;> have h := (peel h).1
  · rw [toList_inj h]
  · exact (hb _ _ hc hc'.1 h).elim
  · exact (hb _ _ hc' hc.1 h.symm).elim
  · rw [spaced_inj hc.2 hc'.2 h]

end Sorcha.Log
