import Verif.Seed.Streams
import Verif.Pipeline.Props2

/-!
# The seed of a run (C80)
-/

namespace Sorcha.Seed.Props
open Spec

variable {G W V : Type} {E : Pipeline.Env G W V} {D : DesRun.Env G W V} {noise : ℕ → ℕ → ℕ → ℕ → Pipeline.Row W V → Fl × Fl × ℚ × ℚ}
  {w w' : ℕ → String → ℕ → ℚ} {c : Config.Cfg} {env env' : Option (List Char)} {u u' : List (Fin 256)} {obs : List (List (Pointing.Obs W))}

theorem seed_small (hu : u.length = 4) {b : ℤ} (hb : baseSeed env u = some b) : b.natAbs < 10 ^ 4300 := by
  cases env with
  | some t => exact number_small ((int_iff t b).1 hb)
  | none =>
    obtain ⟨a₁, a₂, a₃, a₄, rfl⟩ : ∃ a₁ a₂ a₃ a₄, u = [a₁, a₂, a₃, a₄] := by
      match u, hu with
      | [a₁, a₂, a₃, a₄], _ => exact ⟨a₁, a₂, a₃, a₄, rfl⟩
    simp only [baseSeed, fromBytes, List.foldl_cons, List.foldl_nil, Option.some.injEq] at hb
    have h1 : b.natAbs < 10 ^ 10 := by norm_num; omega
    exact lt_of_lt_of_le h1 (Nat.pow_le_pow_right (by norm_num) (by norm_num))

/-- C80 (which seed): a run for which `SORCHA_SEED` is set starts exactly when its text is a number, and then the base seed is that number, whatever the operating
system returns; otherwise the base seed is made of the four bytes of the operating system. -/
theorem C80_seed (text : List Char) : (∀ n, baseSeed (some text) u = some n ↔ Number text n) ∧
    ((rubin E noise w c (some text) u obs).isSome ↔ ∃ n, Number text n) ∧ ((des D noise w c (some text) u obs).isSome ↔ ∃ n, Number text n) ∧
    rubin E noise w c (some text) u obs = rubin E noise w c (some text) u' obs ∧ des D noise w c (some text) u obs = des D noise w c (some text) u' obs ∧
    ∀ b₁ b₂ b₃ b₄ : Fin 256, baseSeed none [b₁, b₂, b₃, b₄] = some (16777216 * b₁ + 65536 * b₂ + 256 * b₃ + b₄ : ℤ) := by
  have key : (int? text).isSome ↔ ∃ n, Number text n := by
    rw [Option.isSome_iff_exists]
    exact exists_congr fun n => int_iff text n
  refine ⟨fun n => int_iff text n, ?_, ?_, rfl, rfl, ?_⟩
  · rw [← key]; simp [rubin, baseSeed]
  · rw [← key]; simp [des, baseSeed]
  · intro b₁ b₂ b₃ b₄
    simp only [baseSeed, fromBytes, List.foldl_cons, List.foldl_nil, Option.some.injEq]
    ring

/-- C80 (the log): the line of the log ends with the base seed, written in the plain way. -/
theorem C80_log (b : ℤ) : ∃ t, seedLine b = "the base rng seed is ".toList ++ t ∧ Plain t b := ⟨str b, rfl, str_plain b⟩

/-- C80 (same seeds): two runs on the same observations whose base seeds are equal modulo 2^31 output the same rows (or stop in the same way), wherever the seeds come
from; for a Rubin run provided the weights of the linking filter, which no seed reaches, have no ties. -/
theorem C80_modulo {a b : ℤ} (ha : baseSeed env u = some a) (hb : baseSeed env' u' = some b) (h : SameSeed a b) :
    (NoTies w → NoTies w' → rubin E noise w c env u obs = rubin E noise w' c env' u' obs) ∧ des D noise w c env u obs = des D noise w' c env' u' obs := by
  have hs : (start a : Pipeline.State G) = restate a (start b) := rfl
  constructor
  · intro hw hw'
    unfold rubin
    rw [ha, hb]
    simp only [Option.map_some]
    rw [hs, rounds_restate obs (by exact h)]
    unfold envOf
    rw [moduleSeed_congr h]
    exact congrArg some (rounds_weights (E := { E with noise := noise (Rng.moduleSeed md5 b randomizeName), md5 := md5 }) hw hw' obs (start b))
  · unfold des
    rw [ha, hb]
    simp only [Option.map_some]
    rw [hs, des_rounds_restate obs (by exact h)]
    refine congrArg some ?_
    have h1 := des_rounds_weights (E := { D with base := { D.base with md5 := md5 } }) (c := c) (noise (Rng.moduleSeed md5 a randomizeName)) w obs (start b : Pipeline.State G)
    have h2 := des_rounds_weights (E := { D with base := { D.base with md5 := md5 } }) (c := c) (noise (Rng.moduleSeed md5 b randomizeName)) w' obs (start b : Pipeline.State G)
    exact h1.trans h2.symm

/-- C80 (running again): when the text that the log of a run gives as base seed is put into `SORCHA_SEED`, a run on the same observations outputs the same. -/
theorem C80_replay (hu : u.length = 4) {b : ℤ} (hb : baseSeed env u = some b) {t : List Char} (ht : seedLine b = "the base rng seed is ".toList ++ t) :
    (NoTies w → NoTies w' → rubin E noise w c env u obs = rubin E noise w' c (some t) u' obs) ∧ des D noise w c env u obs = des D noise w' c (some t) u' obs := by
  obtain rfl : str b = t := List.append_cancel_left ht
  have h : baseSeed (some (str b)) u' = some b := (int_iff _ _).2 (number_str (seed_small hu hb))
  exact C80_modulo hb h rfl

/-- C80 (modules): within a run the modules that draw random numbers have different seeds, whatever the base seed. -/
theorem C80_modules (base : ℤ) : (drawing.map (Rng.moduleSeed md5 base)).Nodup := by
  have h1 : md5 "sorcha.modules.PPApplyFOVFilter" % 2147483648 = 506272249 := by decide +kernel
  have h2 : md5 "sorcha.modules.PPDropObservations" % 2147483648 = 1131735483 := by decide +kernel
  have h3 : md5 "sorcha.modules.PPRandomizeMeasurements" % 2147483648 = 1068515385 := by decide +kernel
  simp only [drawing, List.map_cons, List.map_nil, List.nodup_cons, List.mem_cons, List.not_mem_nil, or_false, not_or, not_false_eq_true, List.nodup_nil, and_true,
    Rng.moduleSeed]
  generalize md5 "sorcha.modules.PPApplyFOVFilter" = x at *
  generalize md5 "sorcha.modules.PPDropObservations" = y at *
  generalize md5 "sorcha.modules.PPRandomizeMeasurements" = z at *
  norm_num
  omega

/-- C80 (streams): a run uses only the generators of the modules that its configuration has draw random numbers, each with that module's own seed: with generators
(and noise) that agree for these seeds it outputs the same. -/
theorem C80_streams {b : ℤ} (hb : baseSeed env u = some b) {g : Rng.Gen G} {noise' : ℕ → ℕ → ℕ → ℕ → Pipeline.Row W V → Fl × Fl × ℚ × ℚ} :
    (g.next = E.gen.next → (∀ m, Uses c m → g.seed (Rng.moduleSeed md5 b m) = E.gen.seed (Rng.moduleSeed md5 b m)) →
      (c.expert.randomization.on = true →
        noise' (Rng.moduleSeed md5 b "sorcha.modules.PPRandomizeMeasurements") = noise (Rng.moduleSeed md5 b "sorcha.modules.PPRandomizeMeasurements")) →
      rubin { E with gen := g } noise' w c env u obs = rubin E noise w c env u obs) ∧
    (g.next = D.base.gen.next → (∀ m, Uses c m → g.seed (Rng.moduleSeed md5 b m) = D.base.gen.seed (Rng.moduleSeed md5 b m)) →
      des { D with base := { D.base with gen := g } } noise' w c env u obs = des D noise w c env u obs) := by
  have alike : ∀ (E : Pipeline.Env G W V) (n n' : ℕ → ℕ → ℕ → ℕ → Pipeline.Row W V → Fl × Fl × ℚ × ℚ), g.next = E.gen.next →
      (∀ m, Uses c m → g.seed (Rng.moduleSeed md5 b m) = E.gen.seed (Rng.moduleSeed md5 b m)) →
      (c.expert.randomization.on = true →
        n' (Rng.moduleSeed md5 b "sorcha.modules.PPRandomizeMeasurements") = n (Rng.moduleSeed md5 b "sorcha.modules.PPRandomizeMeasurements")) →
      Alike c b (envOf E n w b) (envOf { E with gen := g } n' w b) := by
    intro E n n' h1 h2 h3
    exact ⟨h1, rfl, h2, h3, rfl, rfl, rfl, rfl, fun _ => rfl, fun _ _ => rfl⟩
  constructor
  · intro h1 h2 h3
    unfold rubin
    rw [hb]
    exact congrArg some (rounds_alike (alike E noise noise' h1 h2 h3) obs rfl)
  · intro h1 h2
    unfold des
    rw [hb]
    have h3 := des_rounds_alike (c := c) (b := b) (E := { D with base := envOf D.base noise w b }) (E' := { D with base := envOf { D.base with gen := g } noise w b })
      ⟨alike D.base noise noise h1 h2 fun _ => rfl, rfl, fun _ => rfl, fun _ => rfl⟩ obs (s := start b) rfl
    have h4 := des_rounds_weights (E := { D with base := { D.base with md5 := md5, gen := g } }) (c := c) (noise' (Rng.moduleSeed md5 b randomizeName)) w obs (start b : Pipeline.State G)
    have h5 := des_rounds_weights (E := { D with base := { D.base with md5 := md5, gen := g } }) (c := c) (noise (Rng.moduleSeed md5 b randomizeName)) w obs (start b : Pipeline.State G)
    exact congrArg some ((h4.trans h5.symm).trans h3)

/-- C80 (other seeds): when the base seeds of two runs differ modulo 2^31, every module has different seeds in them. -/
theorem C80_other {a b : ℤ} (h : ¬ SameSeed a b) (name : String) : Rng.moduleSeed md5 a name ≠ Rng.moduleSeed md5 b name := by
  intro he
  apply h
  unfold Rng.moduleSeed at he
  unfold SameSeed Int.ModEq
  norm_num at he
  omega

/-- C80 fails in this sense: the module seeds of runs with different base seeds are not all different. For every run and every two modules there is another base seed
whose run gives the one module exactly the stream that the first run gives the other. -/
theorem C80_crossed_fails (a : ℤ) {m m' : String} (hm : m ∈ drawing) (hm' : m' ∈ drawing) (hne : m ≠ m') :
    ∃ b : ℤ, 0 ≤ b ∧ b < 2 ^ 32 ∧ ¬ SameSeed a b ∧ Rng.moduleSeed md5 b m' = Rng.moduleSeed md5 a m := by
  have hd : Rng.moduleSeed md5 a m ≠ Rng.moduleSeed md5 a m' := fun h => hne (List.inj_on_of_nodup_map (C80_modules a) hm hm' h)
  refine ⟨(a + md5 m - md5 m') % 2147483648, ?_, ?_, ?_, ?_⟩
  · omega
  · norm_num; omega
  · intro h
    apply hd
    unfold SameSeed Int.ModEq at h
    unfold Rng.moduleSeed
    norm_num
    omega
  · unfold Rng.moduleSeed
    norm_num

/-- C80 (bytes): of the four bytes of the operating system only 31 bits matter: the first bit of the first byte has no influence, every other has. -/
theorem C80_bytes (a₁ a₂ a₃ a₄ b₁ b₂ b₃ b₄ : Fin 256) :
    (∀ a b, baseSeed none [a₁, a₂, a₃, a₄] = some a → baseSeed none [b₁, b₂, b₃, b₄] = some b → SameSeed a b) ↔
      (a₁ : ℕ) % 128 = (b₁ : ℕ) % 128 ∧ a₂ = b₂ ∧ a₃ = b₃ ∧ a₄ = b₄ := by
  simp only [baseSeed, fromBytes, List.foldl_cons, List.foldl_nil, Option.some.injEq, forall_eq', forall_apply_eq_imp_iff, SameSeed, Int.ModEq, Fin.ext_iff]
  have h1 := a₁.2
  have h2 := a₂.2
  have h3 := a₃.2
  have h4 := a₄.2
  have h5 := b₁.2
  have h6 := b₂.2
  have h7 := b₃.2
  have h8 := b₄.2
  constructor
  · intro h; omega
  · intro h; omega

/-! ## A small run -/

/-- One object seen once a night on four nights. -/
def exNights : List (Pointing.Visit Unit) := [⟨1, "r", 60000 + 1/4, 60000 + 1/4, 30, 30, none, none, ()⟩, ⟨2, "r", 60001 + 1/4, 60001 + 1/4, 30, 30, none, none, ()⟩,
  ⟨3, "r", 60002 + 1/4, 60002 + 1/4, 30, 30, none, none, ()⟩, ⟨4, "r", 60003 + 1/4, 60003 + 1/4, 30, 30, none, none, ()⟩]

def exSeen : List (Pointing.Obs Unit) := [⟨"A", 1, 60000 + 1/4, ()⟩, ⟨"A", 2, 60001 + 1/4, ()⟩, ⟨"A", 3, 60002 + 1/4, ()⟩, ⟨"A", 4, 60003 + 1/4, ()⟩]

/-- The camera keeps half of what it sees, by a generator that counts from its seed. -/
def exSeeded : Pipeline.Env ℕ Unit Unit where
  db := exNights
  measure p := some ⟨.fin 21, .fin 0, .fin 10, .fin 1, .fin 0, .fin 0, .fin 1, .fin 1, (p.1.mjd - 60000) * 10, 3⟩
  noise _ _ _ r := (r.trailedSourceMag, r.psfMag, r.rest.ra, r.rest.dec)
  gen := ⟨fun s => s, fun s => (((s % 7 : ℕ) : ℚ) / 7, s + 1)⟩
  md5 := md5
  sep _ := .fin 1
  detectors := []
  sortIndex := id
  prob _ _ _ := .fin 1
  linkSep a b c d := |a - c| + |b - d|
  sortT l := l.insertionSort fun a b => a.mjd ≤ b.mjd
  sortOut := Pipeline.Props.exSortOut
  weights _ _ _ := 0
  draws _ k := if k = 0 then 3 / 4 else 1 / 4

/-- Two nights with one detection each make a discovery, which succeeds half of the time. -/
def exHalf (fill : Option Fl) : Config.Cfg :=
  { Pipeline.Props.exCfg with
    fov := .circle fill (some (.fin 2))
    saturation := ⟨.bool false, none⟩
    linking := ⟨some ⟨.fin (1/2), 1, .fin 1, .fin 1, 2, 2, .fin 16⟩, false, .unset, .unset, none, .unset, none⟩ }

/-- The noise does nothing. -/
def exNoise : ℕ → ℕ → ℕ → ℕ → Pipeline.Row Unit Unit → Fl × Fl × ℚ × ℚ := fun _ _ _ _ r => (r.trailedSourceMag, r.psfMag, r.rest.ra, r.rest.dec)

def exResult (r : Option (Except Pipeline.Err (List (List (Pipeline.Final Unit Unit))))) : Option (List (ℕ × Option ℤ)) :=
  r.bind fun r => r.toOption.map fun outs => outs.flatten.map fun f => (f.row.rest.src.2.id, f.link.bind (·.2))

/-- Weights between 0 and 1 without ties: powers of one half. -/
theorem exWeights_noTies : NoTies fun _ _ i => 1 / 2 ^ (i + 1) := by
  intro _ _ m A B hA hB h
  have key : ∀ S ⊆ Finset.range m, (∑ k ∈ S, (1 : ℚ) / 2 ^ (k + 1)) * 2 ^ m = ((∑ j ∈ S.image (fun k => m - 1 - k), 2 ^ j : ℕ) : ℚ) := by
    intro S hS
    rw [Finset.sum_image (by
      intro x hx y hy hxy
      have h1 := Finset.mem_range.1 (hS hx)
      have h2 := Finset.mem_range.1 (hS hy)
      simp only at hxy
      omega)]
    push_cast
    rw [Finset.sum_mul]
    refine Finset.sum_congr rfl fun k hk => ?_
    have h1 := Finset.mem_range.1 (hS hk)
    rw [one_div, inv_mul_eq_iff_eq_mul₀ (by positivity), ← pow_add]
    congr 1
    omega
  have hAB : (∑ j ∈ A.image (fun k => m - 1 - k), 2 ^ j : ℕ) = ∑ j ∈ B.image (fun k => m - 1 - k), 2 ^ j := by
    have := key A hA
    rw [h, key B hB] at this
    exact_mod_cast this.symm
  have hi := Finset.geomSum_injective (n := 2) (le_refl _) hAB
  ext k
  have mem : ∀ S ⊆ Finset.range m, (k ∈ S ↔ k < m ∧ m - 1 - k ∈ S.image (fun k => m - 1 - k)) := by
    intro S hS
    constructor
    · intro hk; exact ⟨Finset.mem_range.1 (hS hk), Finset.mem_image_of_mem _ hk⟩
    · rintro ⟨hk, hm⟩
      obtain ⟨j, hj, e⟩ := Finset.mem_image.1 hm
      have h1 := Finset.mem_range.1 (hS hj)
      rwa [show k = j by omega]
  rw [mem A hA, mem B hB, hi]

/-- The seeds 7 and 7 + 2^31 give the same run, 8 another one; a text that is no number stops the run. -/
example : exResult (rubin exSeeded exNoise (fun _ _ i => 1 / 2 ^ (i + 1)) (exHalf (some (.fin (1/2)))) (some "7".toList) [] [exSeen]) =
      exResult (rubin exSeeded exNoise (fun _ _ i => 1 / 2 ^ (i + 1)) (exHalf (some (.fin (1/2)))) (some " +2_147_483_655\n".toList) [] [exSeen]) ∧
    (exResult (rubin exSeeded exNoise (fun _ _ i => 1 / 2 ^ (i + 1)) (exHalf (some (.fin (1/2)))) (some "7".toList) [] [exSeen])).map List.length ≠
      (exResult (rubin exSeeded exNoise (fun _ _ i => 1 / 2 ^ (i + 1)) (exHalf (some (.fin (1/2)))) (some "10".toList) [] [exSeen])).map List.length ∧
    rubin exSeeded exNoise (fun _ _ i => 1 / 2 ^ (i + 1)) (exHalf none) (some "0x7".toList) [] [exSeen] = none := by
  refine ⟨by decide +kernel, by decide +kernel, rfl⟩

/-- The hypotheses of `C80_modulo` and `C80_replay`. -/
example : SameSeed 7 2147483655 ∧ baseSeed (some " +2_147_483_655\n".toList) [] = some 2147483655 ∧ baseSeed none [1, 0, 0, 7] = some 16777223 ∧
    seedLine 16777223 = "the base rng seed is ".toList ++ "16777223".toList := by
  refine ⟨by unfold SameSeed; decide, by decide +kernel, by decide +kernel, by decide +kernel⟩

/-- The hypotheses of `C80_streams`: a generator that is different for all seeds but the camera's is as good for this configuration. -/
example : (∀ m, Uses (exHalf (some (.fin (1/2)))) m → (fun s : ℕ => if s = 506272256 then s else 0) (Rng.moduleSeed md5 7 m) = exSeeded.gen.seed (Rng.moduleSeed md5 7 m)) ∧
    Rng.moduleSeed md5 8 "sorcha.modules.PPApplyFOVFilter" ≠ 506272256 := by
  refine ⟨?_, by decide +kernel⟩
  have key : Rng.moduleSeed md5 7 "sorcha.modules.PPApplyFOVFilter" = 506272256 := by decide +kernel
  rintro m (⟨rfl, -⟩ | ⟨-, h⟩ | ⟨-, h⟩)
  · rw [key]; rfl
  · exact absurd rfl h
  · exact absurd h (by decide +kernel)

/-- Texts that are numbers, and texts that are not. -/
example : ["-12", "0_0", "007"].map (fun t => int? t.toList) = [some (-12), some 0, some 7] ∧
    ["", "-", "1__0", "_1", "1_", "+ 5", "1.0", "5 5"].map (fun t => int? t.toList) = List.replicate 8 none := by
  refine ⟨by decide +kernel, by decide +kernel⟩

/-- C80 fails when weights of the linking filter tie: two runs with the same `SORCHA_SEED` on the same observations, with weights between 0 and 1, give different verdicts. -/
theorem C80_ties_fails : ∃ (w w' : ℕ → String → ℕ → ℚ), (∀ k id i, 0 < w k id i ∧ w k id i < 1) ∧ (∀ k id i, 0 < w' k id i ∧ w' k id i < 1) ∧
    rubin exSeeded exNoise w (exHalf none) (some "7".toList) [] [exSeen] ≠ rubin exSeeded exNoise w' (exHalf none) (some "7".toList) [] [exSeen] := by
  refine ⟨fun _ _ _ => 1 / 2, fun _ _ i => 1 / 2 ^ (i + 1), by intros; norm_num, ?_, ?_⟩
  · intro k id i
    refine ⟨by positivity, ?_⟩
    rw [div_lt_one (by positivity)]
    exact one_lt_pow₀ (by norm_num) (by omega)
  · intro h
    have := congrArg exResult h
    revert this
    decide +kernel

end Sorcha.Seed.Props
