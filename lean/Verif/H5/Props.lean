import Verif.H5.Lemmas
import Verif.Driver.Run

/-! # Ephemerides kept in HDF5 (C76) -/

namespace Sorcha.H5.Props
open Sorcha.Readers Sorcha.Readers.Spec Sorcha.H5.Spec Sorcha.Pipeline.Spec

variable {C : Type}

/-- C76 (when it works): if no two rows of the file with equal labels belong to objects of different chunks, each round delivers the rows of its objects, in file order, each with
its object's orbit and auxiliary cells: the same as with a text file of these rows (`C15_blocks`). -/
theorem C76_same {emptyOk : Bool} {P : IdParse} {missing : List C} {t : List (ℕ × Rec C)} {fo : List (Line C)} {orb : List (Rec C)} {fs : List (List (Line C))}
    {ts : List (List (Rec C))} (h : Readers.Props.Consistent P fo orb fs ts) {c : ℕ} (hc : 1 ≤ c) {fuel : ℕ} (hf : (orb.length + c - 1) / c ≤ fuel)
    (hp : emptyOk = true ∨ ∀ blk ∈ chunks orb c, Present t blk) (ha : ∀ blk ∈ chunks orb c, Apart t blk) :
    blocks emptyOk P missing t fo fs c fuel =
      some (.ok ((chunks orb c).map fun blk => ((t.map (·.2)).filter fun r => r.id ∈ idsOf blk).map (extend (orb :: ts)))) := by
  rw [blocks_eq emptyOk P missing t fo orb fs ts h c hc fuel hf]
  congr 1
  exact mapM_ok fun blk hb => blockOf_ok (hp.imp id fun h => h blk hb) (ha blk hb)

/-- C76 (otherwise it stops): if two rows with equal labels belong to objects of different chunks, the run ends with the message that an object is missing. -/
theorem C76_stops {P : IdParse} {missing : List C} {t : List (ℕ × Rec C)} {fo : List (Line C)} {orb : List (Rec C)} {fs : List (List (Line C))}
    {ts : List (List (Rec C))} (h : Readers.Props.Consistent P fo orb fs ts) {c : ℕ} (hc : 1 ≤ c) {fuel : ℕ} (hf : (orb.length + c - 1) / c ≤ fuel)
    (ha : ∃ blk ∈ chunks orb c, ¬ Apart t blk) : blocks true P missing t fo fs c fuel = some (.error .missingId) := by
  rw [blocks_eq true P missing t fo orb fs ts h c hc fuel hf]
  congr 1
  apply mapM_error
  · intro blk _
    by_cases hb : Apart t blk
    · exact .inl ⟨_, blockOf_ok (.inl rfl) hb⟩
    · exact .inr (blockOf_missing hb)
  · obtain ⟨blk, hb, hn⟩ := ha
    exact ⟨blk, hb, blockOf_missing hn⟩

/-- C76 (never a wrong row): whatever the labels are, a run that is not stopped has delivered exactly the rows of the objects of each chunk. -/
theorem C76_safe {emptyOk : Bool} {P : IdParse} {missing : List C} {t : List (ℕ × Rec C)} {fo : List (Line C)} {orb : List (Rec C)} {fs : List (List (Line C))}
    {ts : List (List (Rec C))} (h : Readers.Props.Consistent P fo orb fs ts) {c : ℕ} (hc : 1 ≤ c) {fuel : ℕ} (hf : (orb.length + c - 1) / c ≤ fuel)
    {rounds : List (List (Rec C))} (hr : blocks emptyOk P missing t fo fs c fuel = some (.ok rounds)) :
    rounds = (chunks orb c).map fun blk => ((t.map (·.2)).filter fun r => r.id ∈ idsOf blk).map (extend (orb :: ts)) := by
  have hr' := hr
  rw [blocks_eq emptyOk P missing t fo orb fs ts h c hc fuel hf, Option.some.injEq] at hr'
  have hall := mapM_mem hr'
  have ha : ∀ blk ∈ chunks orb c, Apart t blk := by
    intro blk hb
    by_contra hn
    obtain ⟨r, e⟩ := hall blk hb
    rw [blockOf_missing hn] at e
    cases e
  have hp : emptyOk = true ∨ ∀ blk ∈ chunks orb c, Present t blk := by
    cases emptyOk with
    | true => exact .inl rfl
    | false =>
      right
      intro blk hb
      by_contra hn
      obtain ⟨r, e⟩ := hall blk hb
      rw [blockOf_empty hn] at e
      cases e
  rw [C76_same h hc hf hp ha, Option.some.injEq, Except.ok.injEq] at hr
  exact hr.symm

section reuse

variable {K U R S V G Γ : Type} [Field K] [LinearOrder K] [IsStrictOrderedRing K] [FloorRing K]

/-- The rows a round of the generating run appends. -/
private def table (E : Driver.Env K U R S V G) (start : Rec C → S) (idle : S) (P : IdParse) (render : Pointing.Obs G → List C) (v : Pointing.Visit V)
    (vs : List (Pointing.Visit V)) (b : List (Rec C)) : List (Rec C) :=
  (Driver.readBack P (Driver.ephemeris E start idle v vs b)).map fun o => ⟨o.obj, render o⟩

private theorem file_some (render : Pointing.Obs G → List C) (f : List (Rec C) → List (Pointing.Obs G)) : ∀ (bs : List (List (Rec C))) (file : List (Line C)),
    bs.foldl (fun file b => Driver.writeEphemeris render file (f b)) (some file) =
      some (file ++ (bs.map fun b => (f b).map fun o => (⟨o.obj, render o⟩ : Rec C)).flatten.map .data)
  | [], file => by simp
  | b :: bs, file => by
    rw [List.foldl_cons]
    show List.foldl _ (some (file ++ (f b).map fun o => Line.data ⟨o.obj, render o⟩)) _ = _
    rw [file_some render f bs]
    simp [Function.comp_def]

private theorem file_none (render : Pointing.Obs G → List C) (f : List (Rec C) → List (Pointing.Obs G)) (b : List (Rec C)) (bs : List (List (Rec C))) :
    (b :: bs).foldl (fun file b => Driver.writeEphemeris render file (f b)) none =
      some (.header :: ((b :: bs).map fun b => (f b).map fun o => (⟨o.obj, render o⟩ : Rec C)).flatten.map .data) := by
  rw [List.foldl_cons]
  show List.foldl _ (some (.header :: (f b).map fun o => Line.data ⟨o.obj, render o⟩)) _ = _
  rw [file_some render f bs]
  simp [Function.comp_def]

private theorem label_mem {rows : List (Rec C)} (h : rows ≠ []) : ∃ r ∈ rows, (0, r) ∈ rows.zipIdx.map Prod.swap := by
  cases rows with
  | nil => exact absurd rfl h
  | cons r rows => exact ⟨r, by simp, List.mem_map.2 ⟨(r, 0), by simp [List.zipIdx_cons], rfl⟩⟩

private theorem labels_nodup (rows : List (Rec C)) : ((rows.zipIdx.map Prod.swap).map (·.1)).Nodup := by
  rw [List.map_map, show (fun x : ℕ × Rec C => x.1) ∘ Prod.swap = Prod.snd from rfl, List.zipIdx_map_snd]
  exact List.nodup_range'

/-- C76 (ephemerides can be reused): if either the run that generated the ephemerides or the run that reads them takes all objects in one chunk, the later run outputs the same rows. -/
theorem C76_reuse {Q : Pipeline.Env Γ (G × List C) V} {c : Config.Cfg} (hr : Regular Q c) (s s' : Pipeline.State Γ) {E : Driver.Env K U R S V G} (hi : Driver.Spec.Iterates E)
    (start : Rec C → S) (idle : S) {v : Pointing.Visit V} {vs : List (Pointing.Visit V)} (hdb : Q.db = v :: vs) (hmid : ((v :: vs).map (·.mid)).Nodup)
    {cull : Rec C → Bool} {P : IdParse} {missing : List C} {fo : List (Line C)}
    {orb : List (Rec C)} {fs : List (List (Line C))} {ts : List (List (Rec C))} (hcons : Readers.Props.Consistent P fo orb fs ts)
    {render : Pointing.Obs G → List C} {parse : List C → ℕ × ℚ × (G × List C)} (hparse : ∀ o xs, parse (render o ++ xs) = (o.field, o.mjd, (o.rest, xs)))
    (n n' : ℕ) (h1 : 1 ≤ n) (h1' : 1 ≤ n') (fuel fuel' : ℕ) (hf : (orb.length + n - 1) / n ≤ fuel) (hf' : (orb.length + n' - 1) / n' ≤ fuel')
    {outs : List (List (Pipeline.Final (G × List C) V))} {st : Store C} (inp' : Config.Input)
    (h : Pipeline.runGenerated Q { c with input := { c.input with chunk := n } } s cull (Driver.generate E start idle P missing v vs) P missing fo fs fuel = some (.ok outs))
    (hfile : ephemerisStore E start idle P render v vs ((chunks orb n).map (kept c cull ts)) = .ok (some st))
    (hone : orb.length ≤ n ∨ orb.length ≤ n') {emptyOk : Bool} (hp : emptyOk = true ∨ ∀ blk ∈ chunks orb n', Present st.rows blk) :
    ∃ outs', run emptyOk Q { c with input := { inp' with chunk := n' } } s' parse P missing st.rows fo fs fuel' = some (.ok outs') ∧ outs.flatten.Perm outs'.flatten := by
  have hrows := appends_none _ hfile
  have hne := appends_nonempty _ hfile
  set bs := ((chunks orb n).map (kept c cull ts)).filter fun b => b.length ≠ 0 with hbs
  set eph := (bs.map (table E start idle P render v vs)).flatten with heph
  have hst : st.rows.map (·.2) = eph := by rw [hrows, stored_rows]; rfl
  -- the text file of the same run
  obtain ⟨b0, bs0, e0⟩ : ∃ b0 bs0, bs = b0 :: bs0 := by
    cases hb : bs with
    | nil => rw [hb] at hne; simp at hne
    | cons a l => exact ⟨a, l, rfl⟩
  have htext : Driver.ephemerisFile E start idle P render v vs ((chunks orb n).map fun b =>
      (b.map (extend ts)).filter fun r => c.expert.bruteForce || !cull r) = some (.header :: eph.map .data) := by
    have := file_none render (fun b => Driver.readBack P (Driver.ephemeris E start idle v vs b)) b0 bs0
    rw [← e0] at this
    exact this
  obtain ⟨outs', e1, e2⟩ := Driver.Props.C62_reuse hr s s' hi start idle hdb hmid hcons hparse n n' h1 h1' fuel fuel' hf hf' inp' h htext
  refine ⟨outs', ?_, e2⟩
  -- the objects of the file are objects of the orbit file
  have hflat := (Readers.Props.C12_partition orb n h1).1
  have hids : ∀ x ∈ st.rows, x.2.id ∈ idsOf orb := by
    intro x hx
    have : x.2 ∈ eph := by rw [← hst]; exact List.mem_map_of_mem hx
    obtain ⟨l, hl, hxl⟩ := List.mem_flatten.1 this
    obtain ⟨b, hb, rfl⟩ := List.mem_map.1 hl
    obtain ⟨b', hb', rfl⟩ := List.mem_map.1 (List.mem_filter.1 hb).1
    unfold table at hxl
    obtain ⟨o, ho, e⟩ := List.mem_map.1 hxl
    rw [← e]
    have hpart : ∀ r ∈ kept c cull ts b', r.id ∈ idsOf orb := by
      intro r hr'
      obtain ⟨y, hy, rfl⟩ := List.mem_map.1 (List.mem_filter.1 hr').1
      exact List.mem_map.2 ⟨y, by rw [← hflat]; exact List.mem_flatten.2 ⟨b', hb', hy⟩, rfl⟩
    have hstable : Driver.readBack P (Driver.ephemeris E start idle v vs (kept c cull ts b')) = Driver.ephemeris E start idle v vs (kept c cull ts b') := by
      apply Driver.Props.readBack_stable
      refine Readers.Stable.sub hcons.stable fun s hs => ?_
      obtain ⟨o, ho, rfl⟩ := List.mem_map.1 hs
      obtain ⟨r, hr', e⟩ := List.mem_map.1 (Driver.Props.ephemeris_ids hi start idle v vs _ o ho)
      rw [← e]
      exact hpart r hr'
    rw [hstable] at ho
    obtain ⟨r, hr', e⟩ := List.mem_map.1 (Driver.Props.ephemeris_ids hi start idle v vs _ o ho)
    rw [← e]
    exact hpart r hr'
  have hse : StableIds P eph := by
    refine Readers.Stable.sub hcons.stable fun s hs => ?_
    obtain ⟨r, hr', rfl⟩ := List.mem_map.1 hs
    rw [← hst] at hr'
    obtain ⟨x, hx, rfl⟩ := List.mem_map.1 hr'
    exact hids x hx
  have hlen : ∀ m, 1 ≤ m → orb.length ≤ m → ∀ blk ∈ chunks orb m, blk = orb := by
    intro m hm hle blk hb
    obtain ⟨k, hk, rfl⟩ := List.mem_map.1 hb
    have hk' := (lt_rounds orb.length m k hm).1 (List.mem_range.1 hk)
    have : k = 0 := by
      rcases Nat.eq_zero_or_pos k with h | h
      · exact h
      · have := Nat.le_mul_of_pos_left m h; omega
    subst this
    simp [chunk, List.take_of_length_le hle]
  have hapart : ∀ blk ∈ chunks orb n', Apart st.rows blk := by
    intro blk hb x hx y hy e hxi
    rcases hone with hle | hle
    · have huniq : (st.rows.map (·.1)).Nodup := by
        have hsingle : bs = [kept c cull ts orb] := by
          have hch : ∀ b ∈ bs, b = kept c cull ts orb := by
            intro b hb'
            obtain ⟨b', hb'', rfl⟩ := List.mem_map.1 (List.mem_filter.1 hb').1
            rw [hlen n h1 hle b' hb'']
          have hl : bs.length ≤ 1 := by
            refine le_trans (List.length_filter_le _ _) ?_
            simp only [List.length_map, chunks, List.length_range]
            rw [← Nat.lt_succ_iff, Nat.div_lt_iff_lt_mul (by omega)]
            omega
          have hb0 := hch b0 (by rw [e0]; simp)
          rw [e0] at hl ⊢
          simp only [List.length_cons] at hl
          have : bs0 = [] := List.length_eq_zero_iff.1 (by omega)
          rw [this, hb0]
        have hs1 : st.rows = stored (bs.map (table E start idle P render v vs)) := hrows
        rw [hs1, hsingle]
        simp only [stored, List.map_cons, List.map_nil, List.flatMap_cons, List.flatMap_nil, List.append_nil]
        exact labels_nodup _
      have : x = y := List.inj_on_of_nodup_map huniq hx hy e
      rw [← this]; exact hxi
    · rw [hlen n' h1' hle blk hb]
      exact hids y hy
  unfold Pipeline.runExternal at e1
  unfold run
  simp only at e1 ⊢
  rw [Readers.Props.C15_blocks P missing (.header :: eph.map .data) fo eph orb fs ts hcons ⟨0, by omega, rfl⟩ hse n' h1' fuel' hf'] at e1
  rw [C76_same hcons h1' hf' hp hapart, hst]
  exact e1

omit [IsStrictOrderedRing K] in
/-- C76 fails when both runs go by chunks: if two rounds of the generating run have ephemerides and the first rows of the two are of objects in different chunks of the
later run, the later run cannot be completed. -/
theorem C76_rounds_fails {Q : Pipeline.Env Γ (G × List C) V} {c c' : Config.Cfg} (s' : Pipeline.State Γ) {E : Driver.Env K U R S V G}
    (start : Rec C → S) (idle : S) {v : Pointing.Visit V} {vs : List (Pointing.Visit V)}
    {cull : Rec C → Bool} {P : IdParse} {missing : List C} {fo : List (Line C)}
    {orb : List (Rec C)} {fs : List (List (Line C))} {ts : List (List (Rec C))} (hcons : Readers.Props.Consistent P fo orb fs ts)
    {render : Pointing.Obs G → List C} {parse : List C → ℕ × ℚ × (G × List C)}
    (n n' : ℕ) (h1' : 1 ≤ n') (fuel' : ℕ) (hf' : (orb.length + n' - 1) / n' ≤ fuel') (hc' : c'.input.chunk = n') {st : Store C}
    (hfile : ephemerisStore E start idle P render v vs ((chunks orb n).map (kept c cull ts)) = .ok (some st))
    {b1 b2 : List (Rec C)} (hb1 : b1 ∈ chunks orb n) (hb2 : b2 ∈ chunks orb n) {o1 o2 : Pointing.Obs G} {l1 l2 : List (Pointing.Obs G)}
    (ho1 : Driver.readBack P (Driver.ephemeris E start idle v vs (kept c cull ts b1)) = o1 :: l1)
    (ho2 : Driver.readBack P (Driver.ephemeris E start idle v vs (kept c cull ts b2)) = o2 :: l2)
    (hk1 : kept c cull ts b1 ≠ []) (hk2 : kept c cull ts b2 ≠ [])
    {blk : List (Rec C)} (hblk : blk ∈ chunks orb n') (hin : o1.obj ∈ idsOf blk) (hout : o2.obj ∉ idsOf blk) :
    run true Q c' s' parse P missing st.rows fo fs fuel' = some (.error .reader) := by
  have hrows := appends_none _ hfile
  have hm : ∀ b ∈ chunks orb n, ∀ o l, Driver.readBack P (Driver.ephemeris E start idle v vs (kept c cull ts b)) = o :: l → kept c cull ts b ≠ [] →
      (0, (⟨o.obj, render o⟩ : Rec C)) ∈ st.rows := by
    intro b hb o l e hk
    rw [hrows]
    refine List.mem_flatMap.2 ⟨_, List.mem_map.2 ⟨kept c cull ts b, List.mem_filter.2 ⟨List.mem_map_of_mem hb, by simpa using hk⟩, rfl⟩, ?_⟩
    rw [e, List.map_cons, List.zipIdx_cons]
    exact List.mem_cons_self
  unfold run
  rw [hc', C76_stops hcons h1' hf' ⟨blk, hblk, fun ha => hout (ha _ (hm b1 hb1 o1 l1 ho1 hk1) _ (hm b2 hb2 o2 l2 ho2 hk2) rfl hin)⟩]

/-- C76 fails for equal chunk sizes: a file written in rounds of which two have ephemerides cannot be read in a run with the same chunk size. -/
theorem C76_same_size_fails {Q : Pipeline.Env Γ (G × List C) V} {c c' : Config.Cfg} (s' : Pipeline.State Γ) {E : Driver.Env K U R S V G} (hi : Driver.Spec.Iterates E)
    (start : Rec C → S) (idle : S) {v : Pointing.Visit V} {vs : List (Pointing.Visit V)}
    {cull : Rec C → Bool} {P : IdParse} {missing : List C} {fo : List (Line C)}
    {orb : List (Rec C)} {fs : List (List (Line C))} {ts : List (List (Rec C))} (hcons : Readers.Props.Consistent P fo orb fs ts)
    {render : Pointing.Obs G → List C} {parse : List C → ℕ × ℚ × (G × List C)}
    (n : ℕ) (h1 : 1 ≤ n) (fuel' : ℕ) (hf' : (orb.length + n - 1) / n ≤ fuel') (hc' : c'.input.chunk = n) {st : Store C}
    (hfile : ephemerisStore E start idle P render v vs ((chunks orb n).map (kept c cull ts)) = .ok (some st))
    {b1 b2 : List (Rec C)} (hb1 : b1 ∈ chunks orb n) (hb2 : b2 ∈ chunks orb n) (hne : b1 ≠ b2)
    (ho1 : Driver.ephemeris E start idle v vs (kept c cull ts b1) ≠ []) (ho2 : Driver.ephemeris E start idle v vs (kept c cull ts b2) ≠ []) :
    run true Q c' s' parse P missing st.rows fo fs fuel' = some (.error .reader) := by
  have hflat := (Readers.Props.C12_partition orb n h1).1
  have hfirst : ∀ b ∈ chunks orb n, Driver.ephemeris E start idle v vs (kept c cull ts b) ≠ [] →
      kept c cull ts b ≠ [] ∧ ∃ o l, Driver.readBack P (Driver.ephemeris E start idle v vs (kept c cull ts b)) = o :: l ∧ o.obj ∈ idsOf b := by
    intro b hb h
    have hid : ∀ o ∈ Driver.ephemeris E start idle v vs (kept c cull ts b), o.obj ∈ idsOf b := by
      intro o ho
      obtain ⟨r, hr, e⟩ := List.mem_map.1 (Driver.Props.ephemeris_ids hi start idle v vs _ o ho)
      obtain ⟨y, hy, rfl⟩ := List.mem_map.1 (List.mem_filter.1 hr).1
      rw [← e]
      exact List.mem_map.2 ⟨y, hy, rfl⟩
    have hstable : Driver.readBack P (Driver.ephemeris E start idle v vs (kept c cull ts b)) = Driver.ephemeris E start idle v vs (kept c cull ts b) := by
      apply Driver.Props.readBack_stable
      refine Readers.Stable.sub hcons.stable fun s hs => ?_
      obtain ⟨o, ho, rfl⟩ := List.mem_map.1 hs
      obtain ⟨y, hy, e⟩ := List.mem_map.1 (hid o ho)
      rw [← e]
      exact List.mem_map.2 ⟨y, by rw [← hflat]; exact List.mem_flatten.2 ⟨b, hb, hy⟩, rfl⟩
    rw [hstable]
    constructor
    · intro e
      apply h
      rw [e, List.eq_nil_iff_forall_not_mem]
      intro o ho
      simpa using Driver.Props.ephemeris_ids hi start idle v vs [] o ho
    · obtain ⟨o, l, e⟩ := List.exists_cons_of_ne_nil h
      exact ⟨o, l, e, hid o (by rw [e]; simp)⟩
  obtain ⟨hk1, o1, l1, e1, i1⟩ := hfirst b1 hb1 ho1
  obtain ⟨hk2, o2, l2, e2, i2⟩ := hfirst b2 hb2 ho2
  refine C76_rounds_fails s' start idle hcons n n h1 fuel' hf' hc' hfile hb1 hb2 e1 e2 hk1 hk2 hb1 i1 fun hin => ?_
  have hnd : ((chunks orb n).map idsOf).flatten.Nodup := by
    have : ((chunks orb n).map idsOf).flatten = idsOf orb := by
      unfold idsOf
      rw [← List.map_flatten, hflat]
    rw [this]
    exact hcons.unique
  have hpw := (List.nodup_flatten.1 hnd).2
  rw [List.pairwise_map] at hpw
  have : Std.Symm fun a b : List (Rec C) => List.Disjoint (idsOf a) (idsOf b) := ⟨fun _ _ h => h.symm⟩
  exact hpw.forall hb1 hb2 hne hin i2

end reuse

/-- C76 fails for IDs of growing length: the ephemerides of a round with an ID longer than those of the first round cannot be appended; the generating run breaks off. -/
theorem C76_long_id_fails (rows rows' : List (Rec C)) (hrows : rows ≠ []) (more : List (List (Rec C))) {r : Rec C} (hr : r ∈ rows')
    (hlong : ∀ x ∈ rows, x.id.utf8ByteSize < r.id.utf8ByteSize) : appends none (rows :: rows' :: more) = .error .tooLong := by
  have h0 : ¬ rows.length = 0 := fun e => hrows (List.length_eq_zero_iff.1 e)
  have h1 : ¬ rows'.length = 0 := fun e => by rw [List.length_eq_zero_iff.1 e] at hr; cases hr
  have hmax : ∀ (l : List ℕ) (m k : ℕ), m < k → (∀ a ∈ l, a < k) → l.foldl max m < k := by
    intro l
    induction l with
    | nil => intro m k h _; simpa using h
    | cons a l ih =>
      intro m k h hl
      rw [List.foldl_cons]
      exact ih _ _ (max_lt h (hl a (by simp))) fun b hb => hl b (List.mem_cons_of_mem _ hb)
  obtain ⟨x0, hx0⟩ := List.exists_mem_of_ne_nil rows hrows
  simp only [appends, append, if_neg h0, if_neg h1]
  rw [if_neg]
  intro hall
  have := List.all_eq_true.1 hall r hr
  rw [decide_eq_true_eq] at this
  exact absurd (hmax _ 0 _ (lt_of_le_of_lt (Nat.zero_le _) (hlong x0 hx0)) fun a ha => by
    obtain ⟨x, hx, rfl⟩ := List.mem_map.1 ha
    exact hlong x hx) (by omega)

/-! ## A small instance: the runs of `Driver/Run.lean` with two objects -/

open Sorcha.Driver.Props Sorcha.Driver

/-- The table of the run with one object at a time: the labels start again with the second object. -/
def exByOne : List (ℕ × Rec ℚ) := [(0, ⟨"A", [1, 60000, 10]⟩), (1, ⟨"A", [3, 60002 + 1/2, 12 + 1/2]⟩), (0, ⟨"B", [2, 60000 + 1/2, 20 - 1/2]⟩)]

/-- The table of the run with both objects at once. -/
def exAtOnce : List (ℕ × Rec ℚ) := [(0, ⟨"A", [1, 60000, 10]⟩), (1, ⟨"B", [2, 60000 + 1/2, 20 - 1/2]⟩), (2, ⟨"A", [3, 60002 + 1/2, 12 + 1/2]⟩)]

example : ((ephemerisStore (exE 1 (1/2)) exStart (0, 0, 0) exIds exRender exV exVs ((chunks exObjs 1).map (kept exC (fun _ => false) exTs))).toOption.bind
    (Option.map (·.rows))) = some exByOne := by decide +kernel

example : ((ephemerisStore (exE 1 (1/2)) exStart (0, 0, 0) exIds exRender exV exVs ((chunks exObjs 2).map (kept exC (fun _ => false) exTs))).toOption.bind
    (Option.map (·.rows))) = some exAtOnce := by decide +kernel

/-- Written in two rounds, read in one. -/
example : exOut (run false exQ { exC with input := { exC.input with chunk := 2 } } ⟨⟨0, []⟩, 0, 0⟩ exParse exIds [] exByOne (exFile exObjs) (exTs.map exFile) 1) =
    some [("A", 1, [10, 1, 8]), ("A", 3, [10, 1, 8]), ("B", 2, [20, -1, 7])] := by decide +kernel

/-- Written in one round, read in two. -/
example : exOut (run false exQ { exC with input := { exC.input with chunk := 1 } } ⟨⟨0, []⟩, 0, 0⟩ exParse exIds [] exAtOnce (exFile exObjs) (exTs.map exFile) 2) =
    some [("A", 1, [10, 1, 8]), ("A", 3, [10, 1, 8]), ("B", 2, [20, -1, 7])] := by decide +kernel

/-- Written and read in two rounds: the run stops. -/
example : (run true exQ { exC with input := { exC.input with chunk := 1 } } ⟨⟨0, []⟩, 0, 0⟩ exParse exIds [] exByOne (exFile exObjs) (exTs.map exFile) 2).map
    (fun r => match r with | .error e => some e | .ok _ => none) = some (some .reader) := by decide +kernel

example : (∃ blk ∈ chunks exObjs 1, ¬ Apart exByOne blk) ∧ (∀ blk ∈ chunks exObjs 1, Apart exAtOnce blk) ∧ ∀ blk ∈ chunks exObjs 1, Present exAtOnce blk := by
  unfold Apart Present
  decide +kernel

end Sorcha.H5.Props
