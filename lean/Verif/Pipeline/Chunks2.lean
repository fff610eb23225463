import Verif.Pipeline.Chunks

/-! # Lemmas: the rounds over blocks that keep objects whole -/

namespace Sorcha.Pipeline
open Sorcha.Pipeline.Spec Sorcha.Pipeline.Props Sorcha.Filters.Spec Sorcha.Filters

variable {G W V : Type}

theorem perm_of_filters {α : Type} (f : α → String) (l l' : List α)
    (h : ∀ i, (l.filter fun a => f a = i).Perm (l'.filter fun a => f a = i)) : l.Perm l' := by
  classical
  rw [List.perm_iff_count]
  intro a
  have := (h (f a)).count_eq a
  rwa [List.count_filter (by simp), List.count_filter (by simp)] at this

theorem once_own {obs : List (Pointing.Obs W)} (h : OncePerTime obs) (id : String) : OncePerTime (own id obs) :=
  fun o ho o' ho' => h o (mem_own.1 ho).1 o' (mem_own.1 ho').1

theorem own_own (id : String) (obs : List (Pointing.Obs W)) : own id (own id obs) = own id obs := by
  unfold own; rw [List.filter_filter]; simp

theorem mem_pairs_own {E : Env G W V} {id : String} {obs : List (Pointing.Obs W)} {p : Pointing.Obs W × Pointing.Visit V} :
    p ∈ pairs E (own id obs) ↔ p ∈ pairs E obs ∧ p.1.obj = id := by
  rw [mem_pairs, mem_pairs, mem_own]
  tauto

theorem Ok.own {E : Env G W V} {c : Config.Cfg} {k : ℕ} {obs : List (Pointing.Obs W)} (h : Ok E c k obs) (id : String) : Ok E c k (own id obs) := by
  refine ⟨?_, ?_, ?_, ?_⟩
  · intro hne
    apply h.camera
    rintro rfl
    exact hne rfl
  · intro p hp
    exact h.match_ p (mem_pairs_own.1 hp).1
  · intro hne
    apply h.limits
    intro hnil
    rw [← reach_own, hnil] at hne
    exact hne rfl
  · intro ssp hc hne
    have hne' : survivors E c obs ≠ [] := by
      intro hnil
      rw [← survivors_own, hnil] at hne
      exact hne rfl
    obtain ⟨lc, hs, v, hv⟩ := h.link ssp hc hne'
    refine ⟨lc, hs, v, ?_⟩
    rintro id' ⟨r, hr, hid⟩
    rw [← survivors_own] at hr
    obtain ⟨hr1, hr2⟩ := List.mem_filter.1 hr
    simp only [decide_eq_true_eq] at hr2
    have : id' = id := by rw [← hid, hr2]
    subst this
    obtain ⟨hA, L, hL, hvL⟩ := hv id' ⟨r, hr1, hid⟩
    refine ⟨hA, L, ?_, hvL⟩
    rw [seenOf_own, own_own]
    rwa [seenOf_own] at hL

theorem ok_of_own {E : Env G W V} {c : Config.Cfg} (hS : Regular E c) (k' : ℕ) {obs : List (Pointing.Obs W)} (ho : OncePerTime obs)
    (h : ∀ id, ∃ k, Ok E c k (own id obs)) : Ok E c k' obs := by
  refine ⟨?_, ?_, ?_, ?_⟩
  · intro hne
    obtain ⟨o, hmem⟩ := List.exists_mem_of_ne_nil _ hne
    obtain ⟨k, hk⟩ := h o.obj
    exact hk.camera (List.ne_nil_of_mem (mem_own.2 ⟨hmem, rfl⟩))
  · intro p hp
    obtain ⟨k, hk⟩ := h p.1.obj
    exact hk.match_ p (mem_pairs_own.2 ⟨hp, rfl⟩)
  · intro hne
    obtain ⟨r, hmem⟩ := List.exists_mem_of_ne_nil _ hne
    obtain ⟨k, hk⟩ := h r.objId
    apply hk.limits
    rw [← reach_own]
    exact List.ne_nil_of_mem (List.mem_filter.2 ⟨hmem, by simp⟩)
  · intro ssp hc hne
    obtain ⟨r0, hr0⟩ := List.exists_mem_of_ne_nil _ hne
    have hsne : ∀ r ∈ survivors E c obs, survivors E c (own r.objId obs) ≠ [] := by
      intro r hr
      rw [← survivors_own]
      exact List.ne_nil_of_mem (List.mem_filter.2 ⟨hr, by simp⟩)
    obtain ⟨k, hk⟩ := h r0.objId
    obtain ⟨lc, hs, -⟩ := hk.link ssp hc (hsne r0 hr0)
    have hw := Settings.pos hs (hS.window ssp hc)
    have hv : ∀ id, ∃ d : Option ℤ, (∃ r ∈ survivors E c obs, r.objId = id) →
        Linking.Spec.Ascii id ∧
          ∃ L, Linking.linkObject E.sortT lc (E.weights k' id) E.draws (seenOf id (survivors E c obs)) = .ok L ∧ d = L.date := by
      intro id
      by_cases hex : ∃ r ∈ survivors E c obs, r.objId = id
      · obtain ⟨r, hr, rfl⟩ := hex
        obtain ⟨k, hk⟩ := h r.objId
        obtain ⟨lc', hs', v, hv⟩ := hk.link ssp hc (hsne r hr)
        have := Settings.unique hs hs'
        subst this
        have hv' := hv.perm hS hw (once_own ho r.objId) (k' := k') (List.Perm.refl _) (List.Perm.refl _)
        obtain ⟨hA, L, hL, hvL⟩ := hv' r.objId ⟨r, by rw [← survivors_own]; exact List.mem_filter.2 ⟨hr, by simp⟩, rfl⟩
        refine ⟨v r.objId, fun _ => ⟨hA, L, ?_, hvL⟩⟩
        rw [seenOf_own]
        rwa [seenOf_own, own_own] at hL
      · exact ⟨none, fun h => absurd h hex⟩
    choose v hv using hv
    exact ⟨lc, hs, v, fun id hex => hv id hex⟩

theorem once_left {a b : List (Pointing.Obs W)} (h : OncePerTime (a ++ b)) : OncePerTime a :=
  fun o ho o' ho' => h o (by simp [ho]) o' (by simp [ho'])

theorem once_right {a b : List (Pointing.Obs W)} (h : OncePerTime (a ++ b)) : OncePerTime b :=
  fun o ho o' ho' => h o (by simp [ho]) o' (by simp [ho'])

theorem whole_own {b : List (Pointing.Obs W)} {bs : List (List (Pointing.Obs W))} (h : Whole (b :: bs)) (id : String) :
    own id b = [] ∨ own id bs.flatten = [] := by
  by_contra hcon
  push Not at hcon
  obtain ⟨o, ho⟩ := List.exists_mem_of_ne_nil _ hcon.1
  obtain ⟨o', ho'⟩ := List.exists_mem_of_ne_nil _ hcon.2
  obtain ⟨h1, h2⟩ := mem_own.1 ho
  obtain ⟨h3, h4⟩ := mem_own.1 ho'
  obtain ⟨b', hb', h3⟩ := List.mem_flatten.1 h3
  exact (List.pairwise_cons.1 h).1 b' hb' o h1 o' h3 (by rw [h2, h4])

theorem rounds_cons_ok {E : Env G W V} {c : Config.Cfg} {s : State G} {b : List (Pointing.Obs W)} {bs : List (List (Pointing.Obs W))}
    {outs : List (List (Final W V))} (h : rounds E c s (b :: bs) = .ok outs) :
    ∃ out s1 rest, process E c s b = .ok (out, s1) ∧ rounds E c s1 bs = .ok rest ∧ outs.flatten = out ++ rest.flatten := by
  simp only [rounds, bind, Except.bind] at h
  cases hp : process E c s b with
  | error e => simp [hp] at h
  | ok x =>
    obtain ⟨out, s1⟩ := x
    simp only [hp] at h
    cases hr : rounds E c s1 bs with
    | error e => simp [hr] at h
    | ok rest =>
      simp only [hr, pure, Except.pure] at h
      refine ⟨out, s1, rest, rfl, hr, ?_⟩
      rw [← Except.ok.inj h]
      split
      · rfl
      · rename_i hl
        have : out = [] := by simpa using hl
        subst this
        rfl

theorem rounds_own {E : Env G W V} {c : Config.Cfg} (hS : Regular E c) {blocks : List (List (Pointing.Obs W))} : ∀ {s : State G} {outs : List (List (Final W V))},
    Whole blocks → OncePerTime blocks.flatten → rounds E c s blocks = .ok outs →
    ∀ id, ∃ k, Ok E c k (own id blocks.flatten) ∧ ObjOut E c k id (own id blocks.flatten) (outs.flatten.filter fun f => f.row.objId = id) := by
  induction blocks with
  | nil =>
    intro s outs _ _ h id
    cases h
    exact ⟨0, ⟨fun h => absurd rfl h, by simp [pairs, own], fun h => absurd rfl h, fun _ _ h => absurd rfl h⟩, objOut_nil E c 0 id⟩
  | cons b bs ih =>
    intro s outs hw ho h id
    obtain ⟨out, s1, rest, hp, hr, hflat⟩ := rounds_cons_ok h
    rw [List.flatten_cons] at ho
    obtain ⟨k, hk, hobj⟩ := ih (List.pairwise_cons.1 hw).2 (once_right ho) hr id
    have hok := process_is_ok hS (once_left ho) hp
    have hob := process_objOut hS (once_left ho) hp id
    rw [hflat, List.flatten_cons, own_append, List.filter_append]
    rcases whole_own hw id with hnil | hnil
    · rw [hnil] at hob ⊢
      rw [hob.nil]
      exact ⟨k, hk, hobj⟩
    · rw [hnil] at hobj ⊢
      rw [hobj.nil, List.append_nil, List.append_nil]
      exact ⟨s.round, hok.own id, hob⟩

theorem rounds_good {E : Env G W V} {c : Config.Cfg} (hS : Regular E c) {blocks : List (List (Pointing.Obs W))} : ∀ (s : State G),
    Whole blocks → OncePerTime blocks.flatten → (∀ id, ∃ k, Ok E c k (own id blocks.flatten)) → ∃ outs, rounds E c s blocks = .ok outs := by
  induction blocks with
  | nil => intro s _ _ _; exact ⟨_, rfl⟩
  | cons b bs ih =>
    intro s hw ho hok
    rw [List.flatten_cons] at ho hok
    have h1 : ∀ id, ∃ k, Ok E c k (own id b) := by
      intro id
      obtain ⟨k, hk⟩ := hok id
      rw [own_append] at hk
      rcases whole_own hw id with hnil | hnil
      · rw [hnil]
        exact ⟨k, ⟨fun h => absurd rfl h, by simp [pairs], fun h => absurd rfl h, fun _ _ h => absurd rfl h⟩⟩
      · rw [hnil, List.append_nil] at hk
        exact ⟨k, hk⟩
    have h2 : ∀ id, ∃ k, Ok E c k (own id bs.flatten) := by
      intro id
      obtain ⟨k, hk⟩ := hok id
      rw [own_append] at hk
      rcases whole_own hw id with hnil | hnil
      · rw [hnil, List.nil_append] at hk
        exact ⟨k, hk⟩
      · rw [hnil]
        exact ⟨k, ⟨fun h => absurd rfl h, by simp [pairs], fun h => absurd rfl h, fun _ _ h => absurd rfl h⟩⟩
    obtain ⟨out, s1, hp⟩ := process_good hS s (once_left ho) 0 (ok_of_own hS 0 (once_left ho) h1)
    obtain ⟨rest, hr⟩ := ih s1 (List.pairwise_cons.1 hw).2 (once_right ho) h2
    simp only [rounds, bind, Except.bind, hp, hr, pure, Except.pure]
    exact ⟨_, rfl⟩

theorem own_mem {a b : List (Pointing.Obs W)} (h : ∀ id, own id a = own id b) {o : Pointing.Obs W} (ho : o ∈ a) : o ∈ b := by
  have : o ∈ own o.obj a := mem_own.2 ⟨ho, rfl⟩
  rw [h] at this
  exact (mem_own.1 this).1

theorem rounds_same {E : Env G W V} {c : Config.Cfg} (hS : Regular E c) (s s' : State G) {A B : List (List (Pointing.Obs W))} (hA : Whole A) (hB : Whole B)
    (ho : OncePerTime A.flatten) (hAB : ∀ id, own id A.flatten = own id B.flatten) {outs : List (List (Final W V))} (h : rounds E c s A = .ok outs) :
    ∃ outs', rounds E c s' B = .ok outs' ∧ outs.flatten.Perm outs'.flatten := by
  have ho' : OncePerTime B.flatten := fun o h1 o' h2 => ho o (own_mem (fun id => (hAB id).symm) h1) o' (own_mem (fun id => (hAB id).symm) h2)
  have hown := rounds_own hS hA ho h
  obtain ⟨outs', h'⟩ := rounds_good hS s' hB ho' (fun id => by
    obtain ⟨k, hk, -⟩ := hown id
    rw [← hAB]
    exact ⟨k, hk⟩)
  refine ⟨outs', h', perm_of_filters (fun f => f.row.objId) _ _ ?_⟩
  intro id
  obtain ⟨k, -, hk⟩ := hown id
  obtain ⟨k', -, hk'⟩ := rounds_own hS hB ho' h' id
  rw [← hAB] at hk'
  exact hk.perm hS (once_own ho id) (own_own id _) hk'

/-! ## Blocks made from the chunks of a table -/

/-- If the block of each chunk holds `X id` for the objects in the chunk, it does not matter how the table is chunked. -/
theorem own_blocks {R : Type} (idOf : R → String) (F : List R → List (Pointing.Obs W)) (X : String → List (Pointing.Obs W)) (l : List (List R))
    (hn : (l.flatten.map idOf).Nodup) (hF : ∀ b ∈ l, ∀ id, own id (F b) = if id ∈ b.map idOf then X id else []) :
    (∀ id, own id (l.map F).flatten = if id ∈ l.flatten.map idOf then X id else []) ∧ Whole (l.map F) := by
  induction l with
  | nil => exact ⟨fun id => by simp [own], List.Pairwise.nil⟩
  | cons b l ih =>
    rw [List.flatten_cons, List.map_append] at hn
    obtain ⟨h1, h2, h3⟩ := List.nodup_append.1 hn
    obtain ⟨ih1, ih2⟩ := ih h2 fun b hb => hF b (by simp [hb])
    constructor
    · intro id
      rw [List.map_cons, List.flatten_cons, own_append, ih1, hF b (by simp), List.flatten_cons, List.map_append]
      by_cases hb : id ∈ b.map idOf
      · have hl : id ∉ l.flatten.map idOf := fun hl => h3 id hb id hl rfl
        rw [if_pos hb, if_neg hl, if_pos (List.mem_append.2 (.inl hb)), List.append_nil]
      · rw [if_neg hb, List.nil_append]
        by_cases hl : id ∈ l.flatten.map idOf
        · rw [if_pos hl, if_pos (List.mem_append.2 (.inr hl))]
        · rw [if_neg hl, if_neg (by rw [List.mem_append]; tauto)]
    · rw [List.map_cons]
      refine List.pairwise_cons.2 ⟨?_, ih2⟩
      intro x hx o ho o' ho' he
      obtain ⟨b', hb', rfl⟩ := List.mem_map.1 hx
      have m1 : o ∈ own o.obj (F b) := mem_own.2 ⟨ho, rfl⟩
      have m2 : o' ∈ own o'.obj (F b') := mem_own.2 ⟨ho', rfl⟩
      rw [hF b (by simp)] at m1
      rw [hF b' (by simp [hb'])] at m2
      by_cases c1 : o.obj ∈ b.map idOf
      · by_cases c2 : o'.obj ∈ b'.map idOf
        · refine h3 _ c1 _ ?_ he
          obtain ⟨r, hr, hri⟩ := List.mem_map.1 c2
          exact List.mem_map.2 ⟨r, List.mem_flatten.2 ⟨b', hb', hr⟩, hri⟩
        · rw [if_neg c2] at m2; simp at m2
      · rw [if_neg c1] at m1; simp at m1

theorem own_filter_map {C : Type} (g : Readers.Rec C → Pointing.Obs W) (hg : ∀ r, (g r).obj = r.id) (ids : List String) (eph : List (Readers.Rec C)) (id : String) :
    own id ((eph.filter fun r => r.id ∈ ids).map g) = if id ∈ ids then own id (eph.map g) else [] := by
  unfold own
  by_cases h : id ∈ ids
  · rw [if_pos h, List.filter_map, List.filter_map, List.filter_filter]
    congr 1
    apply List.filter_congr
    intro r _
    by_cases hr : r.id = id
    · simp [hg, hr, h]
    · simp [hg, hr]
  · rw [if_neg h, List.filter_map, List.map_eq_nil_iff, List.filter_filter, List.filter_eq_nil_iff]
    intro r _
    by_cases hr : r.id = id
    · simp [hg, hr, h]
    · simp [hg, hr]

theorem process_input (E : Env G W V) (c : Config.Cfg) (i) (s : State G) (obs : List (Pointing.Obs W)) :
    process E { c with input := i } s obs = process E c s obs := rfl

theorem rounds_input (E : Env G W V) (c : Config.Cfg) (i) (blocks : List (List (Pointing.Obs W))) : ∀ s : State G,
    rounds E { c with input := i } s blocks = rounds E c s blocks := by
  induction blocks with
  | nil => intro s; rfl
  | cons b bs ih =>
    intro s
    simp only [rounds, process_input]
    simp only [ih]

theorem rounds_simulation (E : Env G W V) (c : Config.Cfg) (i sm) (blocks : List (List (Pointing.Obs W))) : ∀ s : State G,
    rounds E { c with input := i, simulation := sm } s blocks = rounds E c s blocks := by
  have hp : ∀ s obs, process E { c with input := i, simulation := sm } s obs = process E c s obs := fun _ _ => rfl
  induction blocks with
  | nil => intro s; rfl
  | cons b bs ih =>
    intro s
    simp only [rounds, hp]
    simp only [ih]

end Sorcha.Pipeline
