import Verif.Whole.SpecCampaign
import Verif.Whole.Props11

/-!
# Lemmas: parts of a population that are run again until they go through (C97)
-/

namespace Sorcha.Whole.Props

open Sorcha.Csv (Str)
open Sorcha.Readers (Rec)
open Sorcha.History (Disk get_put_self get_put_ne)

variable {G W V : Type}

/-! ## At most one file of each kind -/

/-- A kind of run that, however it ends, leaves at most one file of results and one of ephemerides, if there were no more before. -/
def Tidy {World : Type} (run : World → List Str → Disk → Disk → List Char → History.Outcome → Prop) (glob : World → Cli.Glob) : Prop :=
  ∀ {w argv d d' log out args v}, Argv.parseRun argv = .ok (args, v) → Cli.Spec.GlobSound (glob w) → run w argv d d' log out → History.Spec.NamesDiffer args →
    History.Spec.AtMostOne args d → History.Spec.AtMostOne args d'

theorem one_fewer {a : Cli.Args} {d d' : Disk} (h : ∀ p, d'.get p ≠ none → d.get p ≠ none) (hone : History.Spec.AtMostOne a d) : History.Spec.AtMostOne a d' :=
  ⟨fun p q hp hq => hone.1 p q (h p hp) (h q hq), fun p q hp hq => hone.2 p q (h p hp) (h q hq)⟩

theorem invoked_tidy : Tidy (Invoked (G := G) (W := W) (V := V)) (·.glob) := by
  intro w argv d d' log out args v hargs hg h hnames hone
  by_cases hout : out = .refused
  · cases h with
    | usage _ => exact hone
    | @refused args' v' e h hc =>
      rw [hargs] at h; cases h
      exact one_fewer (History.Props.refused_files (exist := existing w d) (isDir := w.isDir) hg (a := args) (d := d)).2 hone
    | @ran args' v' a fmt chunks s done h hc hp he => exfalso; revert hout; cases done <;> simp
    | @failed args' v' a fmt chunks s done h hc hp he => exfalso; revert hout; simp
  · obtain ⟨args', v', a, fmt, chunks, b, h1, h2, h3, h4⟩ := any_parts h hout
    rw [hargs] at h1; cases h1
    exact (History.Props.runs_step hg (j := ⟨args, fmt, chunks, w.stamp, w.start⟩) hnames hone h4).1

/-! ## The outputs of one command, through a session -/

theorem belongs_same {a b : Cli.Args} (h : History.Spec.SameNames a b) (p : String) :
    (History.Spec.IsResults a p ↔ History.Spec.IsResults b p) ∧ (History.Spec.IsEphemeris a p ↔ History.Spec.IsEphemeris b p) ∧ (History.Spec.IsStats a p ↔ History.Spec.IsStats b p) := by
  obtain ⟨h1, h2, h3, h4⟩ := h
  unfold History.Spec.IsResults History.Spec.IsEphemeris History.Spec.IsStats
  rw [h1, h2, h3, h4]
  exact ⟨Iff.rfl, Iff.rfl, Iff.rfl⟩

theorem one_same {a b : Cli.Args} (h : History.Spec.SameNames a b) {d : Disk} : History.Spec.AtMostOne a d ↔ History.Spec.AtMostOne b d := by
  unfold History.Spec.AtMostOne
  simp only [(belongs_same h _).1, (belongs_same h _).2.1]

theorem one_agree {a : Cli.Args} {d d' : Disk} (h : ∀ p, Spec.IsOutput a p → d'.get p = d.get p) (hone : History.Spec.AtMostOne a d) : History.Spec.AtMostOne a d' := by
  refine ⟨fun p q hp hq h1 h2 => ?_, fun p q hp hq h1 h2 => ?_⟩
  · rw [h p (.inl h1)] at hp
    rw [h q (.inl h2)] at hq
    exact hone.1 p q hp hq h1 h2
  · rw [h p (.inr (.inl h1))] at hp
    rw [h q (.inr (.inl h2))] at hq
    exact hone.2 p q hp hq h1 h2

/-- Opening and closing the logs of one run leaves the outputs of any command as they are. -/
theorem log_no_output {World : Type} {x : Attempt World} (hs : Spec.Stamp x.stamp) (hp : Spec.Decimal x.pid) (hdot : '.' ∉ x.args.t.toList) {a : Cli.Args}
    (ha : ¬ "-sorcha".toList <:+ a.t.toList) (he : ∀ n, a.ew = some n → ¬ "-sorcha".toList <:+ n.toList) {p : String} (hout : Spec.IsOutput a p) : p ≠ x.logPath ∧ p ≠ x.errPath := by
  constructor
  · rintro rfl
    obtain ⟨h1, h2, h3⟩ := C96_apart (dir := x.args.o) (kind := "sorcha.log") (.inl rfl) hdot hs hp ha he
    rcases hout with h | h | h
    exacts [h1 h, h2 h, h3 h]
  · rintro rfl
    obtain ⟨h1, h2, h3⟩ := C96_apart (dir := x.args.o) (kind := "sorcha.err") (.inr rfl) hdot hs hp ha he
    rcases hout with h | h | h
    exacts [h1 h, h2 h, h3 h]

theorem opened_get {World : Type} {x : Attempt World} {d : Disk} {p : String} (h : p ≠ x.logPath ∧ p ≠ x.errPath) : (x.opened d).get p = d.get p := by
  unfold Attempt.opened
  rw [get_put_ne _ _ h.2, get_put_ne _ _ h.1]

theorem closed_get {World : Type} {x : Attempt World} {d : Disk} {p : String} (h : p ≠ x.logPath ∧ p ≠ x.errPath) : (x.closed d).get p = d.get p := by
  unfold Attempt.closed
  rw [get_put_ne _ _ h.2, get_put_ne _ _ h.1]

/-- What is asked of the commands of a session. -/
structure Orderly {World : Type} (xs : List (Attempt World)) : Prop where
  stamps : ∀ x ∈ xs, Spec.Stamp x.stamp ∧ Spec.Decimal x.pid
  noClash : ∀ x ∈ xs, Spec.NoClash x.args
  names : ∀ x ∈ xs, History.Spec.NamesDiffer x.args
  apart : ∀ x ∈ xs, ∀ y ∈ xs, History.Spec.SameNames x.args y.args ∨ Spec.OutputsApart x.args y.args

variable {World : Type} {run : World → List Str → Disk → Disk → List Char → History.Outcome → Prop} {glob : World → Cli.Glob}

/-- A file that is no output and no log of any run of the session is as before. -/
theorem session_others (hgentle : Gentle run glob) {xs : List (Attempt World)} {d D : Disk} (h : Session run xs d D) (hg : ∀ x ∈ xs, Cli.Spec.GlobSound (glob x.world)) {p : String}
    (hp : ∀ x ∈ xs, ¬ Spec.IsOutput x.args p ∧ p ≠ x.logPath ∧ p ≠ x.errPath) :
    D.get p = d.get p ∧ ∀ x ∈ xs, x.before.get p = d.get p := by
  induction h with
  | nil => exact ⟨rfl, fun _ h => (nomatch h)⟩
  | @cons x xs d D hargs hpath hbefore hrun hrest ih =>
    obtain ⟨i1, i2⟩ := ih (fun y hy => hg y (List.mem_cons_of_mem _ hy)) fun y hy => hp y (List.mem_cons_of_mem _ hy)
    have hx : x ∈ x :: xs := List.mem_cons_self ..
    obtain ⟨p1, p2⟩ := hp x hx
    have hb : x.before.get p = d.get p := by rw [hbefore, opened_get p2]
    have ha : (x.closed x.after).get p = d.get p := by
      rw [closed_get p2, (hgentle hargs (hg x hx) hrun).1 p (fun h => p1 (.inl h)) (fun h => p1 (.inr (.inl h))) (fun h => p1 (.inr (.inr h))), hb]
    refine ⟨i1.trans ha, fun y hy => ?_⟩
    rcases List.mem_cons.1 hy with rfl | hy
    · exact hb
    · exact (i2 y hy).trans ha

/-- In a session there is at most one file of results and one of ephemerides of a command at any time. -/
theorem session_one (hgentle : Gentle run glob) (htidy : Tidy run glob) {xs : List (Attempt World)} {d D : Disk} (h : Session run xs d D)
    (hg : ∀ x ∈ xs, Cli.Spec.GlobSound (glob x.world)) (ho : Orderly xs) {a : Cli.Args} (ha : Spec.NoClash a)
    (hapart : ∀ x ∈ xs, History.Spec.SameNames a x.args ∨ Spec.OutputsApart a x.args) (hone : History.Spec.AtMostOne a d) :
    History.Spec.AtMostOne a D ∧ ∀ x ∈ xs, History.Spec.AtMostOne a x.before := by
  induction h with
  | nil => exact ⟨hone, fun _ h => (nomatch h)⟩
  | @cons x xs d D hargs hpath hbefore hrun hrest ih =>
    have hx : x ∈ x :: xs := List.mem_cons_self ..
    have hsub : ∀ y ∈ xs, y ∈ x :: xs := fun y hy => List.mem_cons_of_mem _ hy
    obtain ⟨s1, s2⟩ := ho.stamps x hx
    have hlog : ∀ p, Spec.IsOutput a p → p ≠ x.logPath ∧ p ≠ x.errPath := fun p hp => log_no_output s1 s2 (ho.noClash x hx).dot ha.stem ha.ephemeris hp
    have hb : History.Spec.AtMostOne a x.before := one_agree (fun p hp => by rw [hbefore, opened_get (hlog p hp)]) hone
    have hafter : History.Spec.AtMostOne a x.after := by
      rcases hapart x hx with hs | hd
      · exact (one_same hs).2 (htidy hargs (hg x hx) hrun (ho.names x hx) ((one_same hs).1 hb))
      · exact one_agree (fun p hp => (hgentle hargs (hg x hx) hrun).1 p (fun h => hd p hp (.inl h)) (fun h => hd p hp (.inr (.inl h))) fun h => hd p hp (.inr (.inr h))) hb
    have hc : History.Spec.AtMostOne a (x.closed x.after) := one_agree (fun p hp => closed_get (hlog p hp)) hafter
    obtain ⟨i1, i2⟩ := ih (fun y hy => hg y (hsub y hy))
      ⟨fun y hy => ho.stamps y (hsub y hy), fun y hy => ho.noClash y (hsub y hy), fun y hy => ho.names y (hsub y hy), fun y hy z hz => ho.apart y (hsub y hy) z (hsub z hz)⟩
      (fun y hy => hapart y (hsub y hy)) hc
    refine ⟨i1, fun y hy => ?_⟩
    rcases List.mem_cons.1 hy with rfl | hy
    · exact hb
    · exact i2 y hy

theorem session_split {xs ys : List (Attempt World)} : ∀ {d D : Disk}, Session run (xs ++ ys) d D → ∃ E, Session run xs d E ∧ Session run ys E D := by
  induction xs with
  | nil => exact fun h => ⟨_, .nil, h⟩
  | cons x xs ih =>
    intro d D h
    cases h with
    | cons h1 h2 h3 h4 h5 =>
      obtain ⟨E, e1, e2⟩ := ih h5
      exact ⟨E, .cons h1 h2 h3 h4 e1, e2⟩

/-- The last run of a command in a session: its outputs are, in the end, as it has left them. -/
theorem session_last (hgentle : Gentle run glob) {ys zs : List (Attempt World)} {x : Attempt World} {d D : Disk} (h : Session run (ys ++ x :: zs) d D)
    (hg : ∀ y ∈ ys ++ x :: zs, Cli.Spec.GlobSound (glob y.world)) (ho : Orderly (ys ++ x :: zs)) (hlast : ∀ z ∈ zs, ¬ History.Spec.SameNames x.args z.args) {p : String}
    (hp : Spec.IsOutput x.args p) : D.get p = x.after.get p := by
  have hx : x ∈ ys ++ x :: zs := by simp
  have hz : ∀ z ∈ zs, z ∈ ys ++ x :: zs := fun z hz => by simp [hz]
  obtain ⟨E, -, h2⟩ := session_split h
  cases h2 with
  | cons hargs hpath hbefore hrun hrest =>
    have hc := ho.noClash x hx
    rw [(session_others hgentle hrest (fun z hm => hg z (hz z hm)) (p := p) ?_).1, closed_get (log_no_output (ho.stamps x hx).1 (ho.stamps x hx).2 hc.dot hc.stem hc.ephemeris hp)]
    intro z hm
    refine ⟨?_, log_no_output (ho.stamps z (hz z hm)).1 (ho.stamps z (hz z hm)).2 (ho.noClash z (hz z hm)).dot hc.stem hc.ephemeris hp⟩
    rcases ho.apart x hx z (hz z hm) with hs | hd
    · exact absurd hs (hlast z hm)
    · exact hd p hp

theorem session_said {xs : List (Attempt World)} {d D : Disk} (h : Session run xs d D) :
    ∀ x ∈ xs, Argv.parseRun x.argv = .ok (x.args, x.verbose) ∧ run x.world x.argv x.before x.after x.log x.outcome := by
  induction h with
  | nil => exact fun _ h => (nomatch h)
  | cons h1 h2 h3 h4 h5 ih =>
    intro y hy
    rcases List.mem_cons.1 hy with rfl | hy
    · exact ⟨h1, h4⟩
    · exact ih y hy

/-! ## Inputs -/

theorem table_agree {P : Readers.IdParse} {format : String} {d d' : Disk} {p : String} {recs : List (Rec Str)} (h : d'.get p = d.get p) (ht : Spec.Table P format d p recs) :
    Spec.Table P format d' p recs := by
  obtain ⟨t, names, rows, h1, h2⟩ := ht
  exact ⟨t, names, rows, h.trans h1, h2⟩

theorem objects_agree {P : Readers.IdParse} {d d' : Disk} {a : Cli.Args} {c : Config.Cfg} {orb : List (Rec Str)} {others : List (List (Rec Str))}
    (h : ∀ p, Spec.IsInput a p → d'.get p = d.get p) (ho : Spec.Objects P d a c orb others) : Spec.Objects P d' a c orb others := by
  refine ⟨table_agree (h _ (.inr (.inl rfl))) ho.orbits, ho.unique, ?_, ho.same⟩
  rcases ho.given with ⟨h1, h2, phys, h3, h4⟩ | ⟨h1, phys, cx, p, h2, h3, h4, h5⟩
  · exact .inl ⟨h1, h2, phys, h3, table_agree (h _ (.inr (.inr (.inl rfl)))) h4⟩
  · exact .inr ⟨h1, phys, cx, p, h2, h3, table_agree (h _ (.inr (.inr (.inl rfl)))) h4, table_agree (h _ (.inr (.inr (.inr (.inl h3))))) h5⟩

theorem configured_agree {w : Whole.World G W V} {d d' : Disk} {a : Cli.Args} {c : Config.Cfg} (h : d'.get a.c = d.get a.c) (hc : Configured w d a c) : Configured w d' a c := by
  obtain ⟨t, x, h1, h2⟩ := hc
  exact ⟨t, x, h.trans h1, h2⟩

end Sorcha.Whole.Props
