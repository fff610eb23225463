import Verif.Sqlite.Lemmas
import Verif.Ini.Data

namespace Sorcha.Sqlite.Props
open Sorcha.Sqlite Spec

/-- C78 (one input). Whatever is in the database before, the table of an input is made when every file has only names that the first one has. -/
theorem C78_input {V : Type} (L : Lib V) (db : Db V) (name : String) (files : List File) (lines : List (List Line)) (hr : Reading files lines)
    (ha : CaseApart L files) :
    (∃ db', createInputs L db name lines = .ok db') ↔ Fitting files := by
  by_cases hne : files = []
  · subst hne
    cases hr
    simp [createInputs, Fitting]
  · have h := createInputs_eq L db name hr ha hne
    constructor
    · rintro ⟨db', h1⟩
      by_contra h2
      rw [h.2 h2] at h1
      simp at h1
    · intro h1
      obtain ⟨t, h2, -⟩ := h.1 h1
      exact ⟨_, h2⟩

/-- C78 (one input). The table that is made holds all rows of all files, in order, and nothing else; the other tables stay as they were. -/
theorem C78_rows {V : Type} (L : Lib V) (db db' : Db V) (name : String) (files : List File) (lines : List (List Line)) (hr : Reading files lines)
    (ha : CaseApart L files) (h : createInputs L db name lines = .ok db') :
    (∃ t, Has db' name t ∧ Holds L files t) ∧ ∀ other ≠ name, ∀ t, Has db' other t ↔ Has db other t := by
  have hf := (C78_input L db name files lines hr ha).1 ⟨db', h⟩
  have hne : files ≠ [] := by
    obtain ⟨f, fs, rfl, -⟩ := hf
    simp
  obtain ⟨t, h1, h2⟩ := (createInputs_eq L db name hr ha hne).1 hf
  rw [h] at h1
  obtain rfl := Except.ok.inj h1
  exact ⟨⟨t, has_put db name t, h2⟩, fun other ho t' => has_put_other db ho t t'⟩

/-- What the command does, in steps. -/
theorem createDatabase_ok {V : Type} {L : Lib V} {content : String → Option (Cli.Tab V)} {found : List String} {inputs out : String} {db db' : Db V}
    {params orbits : List (List Line)} {complex : Option (List (List Line))} :
    createDatabase L content found inputs out db params orbits complex = .ok db' ↔
      ∃ r, Cli.createResults content found inputs out = .ok r ∧ ∃ d1, createInputs L (put db "sorcha_results" r) "params" params = .ok d1 ∧
        ∃ d2, createInputs L d1 "orbits" orbits = .ok d2 ∧
          ((complex = none ∧ db' = d2) ∨ ∃ files, complex = some files ∧ createInputs L d2 "complex" files = .ok db') := by
  unfold createDatabase
  cases h0 : Cli.createResults content found inputs out with
  | error e => simp [Except.mapError, bind, Except.bind]
  | ok r =>
    simp only [Except.mapError, bind, Except.bind, Except.ok.injEq, exists_eq_left']
    cases h1 : createInputs L (put db "sorcha_results" r) "params" params with
    | error e => simp
    | ok d1 =>
      simp only [Except.ok.injEq, exists_eq_left']
      cases h2 : createInputs L d1 "orbits" orbits with
      | error e => simp
      | ok d2 =>
        simp only [Except.ok.injEq, exists_eq_left']
        cases complex with
        | none => simp [eq_comm]
        | some files => simp

/-- C78. When the command succeeds, the database has the results as they are collected from the result databases, the physical parameters, the orbits
and, if asked for, the complex parameters, each with all rows of all its files; any other table is as before. -/
theorem C78_database {V : Type} (L : Lib V) (content : String → Option (Cli.Tab V)) (found : List String) (inputs out : String) (db db' : Db V)
    (fp fo : List File) (fc : Option (List File)) (params orbits : List (List Line)) (complex : Option (List (List Line)))
    (hp : Reading fp params) (ho : Reading fo orbits) (hc : Option.Rel Reading fc complex)
    (ap : CaseApart L fp) (ao : CaseApart L fo) (ac : ∀ f, fc = some f → CaseApart L f)
    (h : createDatabase L content found inputs out db params orbits complex = .ok db') :
    (∃ t, Cli.createResults content found inputs out = .ok t ∧ Has db' "sorcha_results" t) ∧
    (∃ t, Has db' "params" t ∧ Holds L fp t) ∧ (∃ t, Has db' "orbits" t ∧ Holds L fo t) ∧
    (∀ f, fc = some f → ∃ t, Has db' "complex" t ∧ Holds L f t) ∧
    (∀ name, name ≠ "sorcha_results" → name ≠ "params" → name ≠ "orbits" → (name = "complex" → fc = none) → ∀ t, Has db' name t ↔ Has db name t) := by
  obtain ⟨r, h0, d1, h1, d2, h2, h3⟩ := createDatabase_ok.1 h
  obtain ⟨⟨tp, p1, p2⟩, p3⟩ := C78_rows L _ _ _ fp params hp ap h1
  obtain ⟨⟨tO, o1, o2⟩, o3⟩ := C78_rows L _ _ _ fo orbits ho ao h2
  have hput := has_put db "sorcha_results" r
  rcases h3 with ⟨rfl, rfl⟩ | ⟨files, rfl, h3⟩
  · cases hc
    refine ⟨⟨r, h0, (o3 _ (by decide) _).2 ((p3 _ (by decide) _).2 hput)⟩, ⟨tp, (o3 _ (by decide) _).2 p1, p2⟩, ⟨tO, o1, o2⟩, by simp, ?_⟩
    intro name n1 n2 n3 _ t
    rw [o3 _ n3, p3 _ n2, has_put_other db n1]
  · cases hc with
    | @some f _ hc =>
      obtain ⟨⟨tc, c1, c2⟩, c3⟩ := C78_rows L _ _ _ f files hc (ac f rfl) h3
      refine ⟨⟨r, h0, (c3 _ (by decide) _).2 ((o3 _ (by decide) _).2 ((p3 _ (by decide) _).2 hput))⟩,
        ⟨tp, (c3 _ (by decide) _).2 ((o3 _ (by decide) _).2 p1), p2⟩, ⟨tO, (c3 _ (by decide) _).2 o1, o2⟩, ?_, ?_⟩
      · intro g hg
        obtain rfl := Option.some.inj hg
        exact ⟨tc, c1, c2⟩
      · intro name n1 n2 n3 n4 t
        rw [c3 _ (fun hn => by simpa using n4 hn), o3 _ n3, p3 _ n2, has_put_other db n1]

/-- C78. The command succeeds exactly when the results can be collected and the files of each input fit together. -/
theorem C78_accepts {V : Type} (L : Lib V) (content : String → Option (Cli.Tab V)) (found : List String) (inputs out : String) (db : Db V)
    (fp fo : List File) (fc : Option (List File)) (params orbits : List (List Line)) (complex : Option (List (List Line)))
    (hp : Reading fp params) (ho : Reading fo orbits) (hc : Option.Rel Reading fc complex)
    (ap : CaseApart L fp) (ao : CaseApart L fo) (ac : ∀ f, fc = some f → CaseApart L f) :
    (∃ db', createDatabase L content found inputs out db params orbits complex = .ok db') ↔
      (∃ t, Cli.createResults content found inputs out = .ok t) ∧ Fitting fp ∧ Fitting fo ∧ ∀ f, fc = some f → Fitting f := by
  constructor
  · rintro ⟨db', h⟩
    obtain ⟨r, h0, d1, h1, d2, h2, h3⟩ := createDatabase_ok.1 h
    refine ⟨⟨r, h0⟩, (C78_input L _ _ fp params hp ap).1 ⟨d1, h1⟩, (C78_input L _ _ fo orbits ho ao).1 ⟨d2, h2⟩, ?_⟩
    rintro f rfl
    cases hc with
    | @some _ files hc =>
      rcases h3 with ⟨h3, -⟩ | ⟨files', h3, h4⟩
      · simp at h3
      · obtain rfl := Option.some.inj h3
        exact (C78_input L _ _ f _ hc (ac f rfl)).1 ⟨db', h4⟩
  · rintro ⟨⟨r, h0⟩, h1, h2, h3⟩
    obtain ⟨d1, h1⟩ := (C78_input L (put db "sorcha_results" r) "params" fp params hp ap).2 h1
    obtain ⟨d2, h2⟩ := (C78_input L d1 "orbits" fo orbits ho ao).2 h2
    cases hc with
    | none => exact ⟨d2, createDatabase_ok.2 ⟨r, h0, d1, h1, d2, h2, .inl ⟨rfl, rfl⟩⟩⟩
    | @some f files hc =>
      obtain ⟨d3, h3⟩ := (C78_input L d2 "complex" f files hc (ac f rfl)).2 (h3 f rfl)
      exact ⟨d3, createDatabase_ok.2 ⟨r, h0, d1, h1, d2, h2, .inr ⟨files, rfl, h3⟩⟩⟩

theorem createInputs_put {V : Type} {L : Lib V} {db e db' : Db V} {name : String} {lines : List (List Line)} (h : createInputs L db name lines = .ok db') :
    ∃ t, db' = put db name t ∧ createInputs L e name lines = .ok (put e name t) := by
  unfold createInputs at h ⊢
  split at h
  · simp at h
  · rename_i hne
    rw [if_neg hne]
    cases hi : insertFiles L none lines with
    | error x => rw [hi] at h; simp [bind, Except.bind] at h
    | ok t =>
      rw [hi] at h
      cases t with
      | none =>
        exfalso
        cases lines with
        | nil => exact hne rfl
        | cons l ls =>
          have hgo : ∀ (ls : List (List Line)) (t : Cli.Tab V), insertFiles L (some t) ls ≠ .ok none := by
            intro ls
            induction ls with
            | nil => intro t ht; simp [insertFiles] at ht
            | cons l ls ih =>
              intro t ht
              simp only [insertFiles, bind, Except.bind] at ht
              split at ht
              · simp at ht
              · split at ht
                · simp at ht
                · exact ih _ ht
          simp only [insertFiles, bind, Except.bind] at hi
          split at hi
          · simp at hi
          · split at hi
            · simp at hi
            · exact hgo _ _ hi
      | some t =>
        refine ⟨t, ?_, rfl⟩
        exact (Except.ok.inj h).symm

/-- C78. What was in the database before does not matter: a run into a database of an earlier run succeeds when a run into an empty one does, and gives
the same tables. No condition on the files. -/
theorem C78_again {V : Type} (L : Lib V) (content : String → Option (Cli.Tab V)) (found : List String) (inputs out : String) (db e db' : Db V)
    (params orbits : List (List Line)) (complex : Option (List (List Line)))
    (h : createDatabase L content found inputs out db params orbits complex = .ok db') :
    ∃ e', createDatabase L content found inputs out e params orbits complex = .ok e' ∧
      ∀ name ∈ ["sorcha_results", "params", "orbits"] ++ (if complex.isSome then ["complex"] else []), ∀ t, Has db' name t ↔ Has e' name t := by
  obtain ⟨r, h0, d1, h1, d2, h2, h3⟩ := createDatabase_ok.1 h
  obtain ⟨tp, rfl, p⟩ := createInputs_put (e := put e "sorcha_results" r) h1
  obtain ⟨tO, rfl, o⟩ := createInputs_put (e := put (put e "sorcha_results" r) "params" tp) h2
  have uniq : ∀ (a b : Db V) (name : String) (s t : Cli.Tab V), Has (put a name s) name t ↔ Has (put b name s) name t := by
    intro a b name s t
    constructor
    · intro ht
      have := (has_put a name s).2 t ht.1
      subst this
      exact has_put b name t
    · intro ht
      have := (has_put b name s).2 t ht.1
      subst this
      exact has_put a name t
  have skip : ∀ (a b : Db V) (m name : String) (s t : Cli.Tab V), name ≠ m → (Has a name t ↔ Has b name t) → (Has (put a m s) name t ↔ Has (put b m s) name t) := by
    intro a b m name s t hne hab
    rw [has_put_other a hne, has_put_other b hne, hab]
  rcases h3 with ⟨rfl, rfl⟩ | ⟨files, rfl, h3⟩
  · refine ⟨_, createDatabase_ok.2 ⟨r, h0, _, p, _, o, .inl ⟨rfl, rfl⟩⟩, ?_⟩
    intro name hn t
    simp only [Option.isSome_none, Bool.false_eq_true, if_false, List.append_nil, List.mem_cons, List.not_mem_nil, or_false] at hn
    rcases hn with rfl | rfl | rfl
    · exact skip _ _ _ _ _ _ (by decide) (skip _ _ _ _ _ _ (by decide) (uniq _ _ _ _ _))
    · exact skip _ _ _ _ _ _ (by decide) (uniq _ _ _ _ _)
    · exact uniq _ _ _ _ _
  · obtain ⟨tc, rfl, c⟩ := createInputs_put (e := put (put (put e "sorcha_results" r) "params" tp) "orbits" tO) h3
    refine ⟨_, createDatabase_ok.2 ⟨r, h0, _, p, _, o, .inr ⟨files, rfl, c⟩⟩, ?_⟩
    intro name hn t
    simp only [Option.isSome_some, if_true, List.mem_append, List.mem_cons, List.not_mem_nil, or_false] at hn
    rcases hn with (rfl | rfl | rfl) | rfl
    · exact skip _ _ _ _ _ _ (by decide) (skip _ _ _ _ _ _ (by decide) (skip _ _ _ _ _ _ (by decide) (uniq _ _ _ _ _)))
    · exact skip _ _ _ _ _ _ (by decide) (skip _ _ _ _ _ _ (by decide) (uniq _ _ _ _ _))
    · exact skip _ _ _ _ _ _ (by decide) (uniq _ _ _ _ _)
    · exact uniq _ _ _ _ _

/-! ## Concrete cases -/

/-- A value of the example. -/
inductive Val
  | null
  | int (n : ℕ)
  | text (s : List Char)
deriving DecidableEq, Repr

/-- A column of which all values are natural numbers is stored as numbers, any other as text. -/
def demo : Lib Val where
  conv col :=
    if col.all fun v => v.isSome && (v.getD []).all fun c => '0' ≤ c && c ≤ '9' then
      col.map fun v => .int ((v.getD []).foldl (fun n c => 10 * n + (c.toNat - 48)) 0)
    else col.map fun v => v.elim .null .text
  num := .int
  null := .null
  fold s := String.ofList (s.toList.map Char.toLower)

/-- A results database. -/
def results : Cli.Tab Val := ⟨["ObjID"], [[.text ['a']], [.text ['b']]]⟩

def run (db : Db Val) (params orbits : List (List Line)) : Except Err (Db Val) :=
  createDatabase demo (fun f => if f = "r.db" then some results else none) ["r.db"] "in" "out.db" db params orbits none

/-- Two parameter files, the second without the last column and in another order. -/
def params : List (List Line) :=
  [[chars! "ObjID  H_r\tGS INDEX", chars! " a 20.5 0.15 C", [], chars! "b 21 0.2 S "], [chars! "GS ObjID", chars! "0.1 c"]]

def orbits : List (List Line) := [[chars! "ObjID FORMAT", chars! "a KEP", chars! "b KEP"]]

/-- The command on these files, into a database that has an older table of parameters and one more table. -/
example : run [("params", ⟨["x"], []⟩), ("notes", ⟨["y"], []⟩)] params orbits =
    .ok [("notes", ⟨["y"], []⟩), ("sorcha_results", results),
      ("params", ⟨["index", "ObjID", "H_r", "GS", "orig_index"],
        [[.int 0, .text ['a'], .text (chars! "20.5"), .text (chars! "0.15"), .text ['C']],
         [.int 1, .text ['b'], .text (chars! "21"), .text (chars! "0.2"), .text ['S']],
         [.int 0, .text ['c'], .null, .text (chars! "0.1"), .null]]⟩),
      ("orbits", ⟨["index", "ObjID", "FORMAT"], [[.int 0, .text ['a'], .text (chars! "KEP")], [.int 1, .text ['b'], .text (chars! "KEP")]]⟩)] := by
  decide +kernel

/-- The two files as tables: they are regular, fit together, and have names that differ in more than case. -/
def tables : List File :=
  [⟨[chars! "ObjID", chars! "H_r", chars! "GS", chars! "INDEX"], [[['a'], chars! "20.5", chars! "0.15", ['C']], [['b'], chars! "21", chars! "0.2", ['S']]]⟩,
   ⟨[chars! "GS", chars! "ObjID"], [[chars! "0.1", ['c']]]⟩]

example : Fitting tables := by
  refine ⟨_, _, rfl, ?_⟩
  decide +kernel

example : CaseApart demo tables := by
  unfold CaseApart
  decide +kernel

theorem one {ws : List Line} (hw : ∀ w ∈ ws, Piece w) (g : Line) (hg : Gap g) (last : Line) (hl : Piece last) (g' : Line) (hg' : Gap g') :
    Written (ws ++ [last]) (g ++ ws.flatMap (· ++ [' ']) ++ last ++ g') := by
  induction ws generalizing g with
  | nil => simpa using Written.last g last g' hg hl hg'
  | cons w ws ih =>
    have := Written.more g w ' ' (ws ++ [last]) _ hg (hw w (by simp)) (.inl rfl) (by simp) (ih (fun v hv => hw v (by simp [hv])) [] (by simp [Gap]))
    simpa [List.append_assoc] using this

example : Reading tables params := by
  have hp : ∀ w : Line, Piece w ↔ w ≠ [] ∧ ∀ c ∈ w, c ≠ ' ' ∧ c ≠ '\t' := fun _ => Iff.rfl
  refine .cons ⟨⟨by decide, by decide, by decide⟩, ?_⟩ (.cons ⟨⟨by decide, by decide, by decide⟩, ?_⟩ .nil)
  · refine List.Forall₂.cons ?_ (.cons ?_ (.cons ?_ .nil))
    · exact .more [] _ ' ' _ _ (by simp [Gap]) ((hp _).2 (by decide)) (.inl rfl) (by simp)
        (.more [' '] _ '\t' _ _ (by simp [Gap]) ((hp _).2 (by decide)) (.inr rfl) (by simp)
          (.more [] _ ' ' _ _ (by simp [Gap]) ((hp _).2 (by decide)) (.inl rfl) (by simp)
            (.last [] _ [] (by simp [Gap]) ((hp _).2 (by decide)) (by simp [Gap]))))
    · exact one (ws := [['a'], chars! "20.5", chars! "0.15"]) (by simp only [hp]; decide) [' '] (by simp [Gap]) ['C'] ((hp _).2 (by decide)) [] (by simp [Gap])
    · exact one (ws := [['b'], chars! "21", chars! "0.2"]) (by simp only [hp]; decide) [] (by simp [Gap]) ['S'] ((hp _).2 (by decide)) [' '] (by simp [Gap])
  · refine List.Forall₂.cons ?_ (.cons ?_ .nil)
    · exact one (ws := [chars! "GS"]) (by simp only [hp]; decide) [] (by simp [Gap]) (chars! "ObjID") ((hp _).2 (by decide)) [] (by simp [Gap])
    · exact one (ws := [chars! "0.1"]) (by simp only [hp]; decide) [] (by simp [Gap]) ['c'] ((hp _).2 (by decide)) [] (by simp [Gap])

/-- A later file with a column more stops the command. -/
example : run [] params [[chars! "ObjID FORMAT", chars! "a KEP"], [chars! "ObjID FORMAT q", chars! "a KEP 1"]] = .error .column := by decide +kernel

/-- No file of orbits. -/
example : run [] params [] = .error (.noFiles "orbits") := by decide +kernel

/-! ## Witnesses -/

/-- C78: the inputs of `sorcha run` may be comma separated, but here such a file gives, without any message, a table with one column of whole lines:
there is no column of object identifiers. -/
theorem C78_csv_fails : createInputs demo [] "params" [[chars! "ObjID,H_r,GS", chars! "a,20.5,0.15"]] =
    .ok [("params", ⟨["index", "ObjID,H_r,GS"], [[.int 0, .text (chars! "a,20.5,0.15")]]⟩)] := by decide +kernel

/-- C78: identifiers made of digits are stored as numbers, so two different objects get the same identifier. -/
theorem C78_number_fails : createInputs demo [] "params" [[chars! "ObjID H_r", chars! "007 x", chars! "7 y"]] =
    .ok [("params", ⟨["index", "ObjID", "H_r"], [[.int 0, .int 7, .text ['x']], [.int 1, .int 7, .text ['y']]]⟩)] := by decide +kernel

/-- C78: a column called `Index` stops the command, while `INDEX` and `index` do not. -/
theorem C78_index_fails : createInputs demo [] "orbits" [[chars! "ObjID Index", chars! "a 1"]] = .error .column ∧
    createInputs demo [] "orbits" [[chars! "ObjID INDEX", chars! "a 1"]] = .ok [("orbits", ⟨["index", "ObjID", "orig_index"], [[.int 0, .text ['a'], .int 1]]⟩)] ∧
    createInputs demo [] "orbits" [[chars! "ObjID index", chars! "a 1"]] = .ok [("orbits", ⟨["level_0", "ObjID", "index"], [[.int 0, .text ['a'], .int 1]]⟩)] := by
  decide +kernel

/-- C78: whether files with different columns are accepted depends on their order, which the file system chooses. -/
theorem C78_order_fails :
    (∃ db, createInputs demo [] "orbits" [[chars! "ObjID q e", chars! "a 1 2"], [chars! "ObjID q", chars! "b 1"]] = .ok db) ∧
    createInputs demo [] "orbits" [[chars! "ObjID q", chars! "b 1"], [chars! "ObjID q e", chars! "a 1 2"]] = .error .column :=
  ⟨⟨[("orbits", ⟨["index", "ObjID", "q", "e"], [[.int 0, .text ['a'], .int 1, .int 2], [.int 0, .text ['b'], .int 1, .null]]⟩)], by decide +kernel⟩, by decide +kernel⟩

end Sorcha.Sqlite.Props
