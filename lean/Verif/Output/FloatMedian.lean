import Verif.Output.Lemmas
import Verif.Photom.Float

/-!
# C20: the median in floating point numbers
-/

namespace Sorcha.Output

/-- The `median` of a group in floating point numbers, PPStats.py:38-44 (pandas, in the trusted base): the middle value, or half the rounded sum of the two middle values. -/
def medianF (rnd : ℚ → ℚ) (l : List ℚ) : Option ℚ :=
  let s := l.insertionSort (· ≤ ·)
  if l.length % 2 = 1 then s[l.length / 2]?
  else match s[(l.length - 1) / 2]?, s[l.length / 2]? with
    | some a, some b => some (rnd (rnd (a + b) / 2))
    | _, _ => none

namespace Props

open Sorcha.Turn.Spec (Nearest IsDouble)
open Sorcha.Turn.Props (rnd_ge rnd_le d0)

theorem double_two {x : ℚ} (h : IsDouble x) : IsDouble (x + x) := by
  obtain ⟨m, e, rfl, hm⟩ := h
  exact ⟨m, e + 1, by rw [zpow_add_one₀ (by norm_num)]; ring, hm⟩

/-- C20 (floating point): the median computed for magnitudes that are known lies between two of them, at most half of them are below it and at most half above it, and
it is one of them if their number is odd. -/
theorem C20_float {rnd : ℚ → ℚ} (hr : Nearest rnd) (l : List ℚ) (hl : l ≠ []) (hd : ∀ x ∈ l, IsDouble x) :
    ∃ m, medianF rnd l = some m ∧ (∃ x ∈ l, x ≤ m) ∧ (∃ x ∈ l, m ≤ x) ∧
      2 * (l.filter fun x => x < m).length ≤ l.length ∧ 2 * (l.filter fun x => m < x).length ≤ l.length ∧ (l.length % 2 = 1 → m ∈ l) := by
  have hlen : 0 < l.length := List.length_pos_iff.2 hl
  have hs : (l.insertionSort (· ≤ ·)).Pairwise (· ≤ ·) := List.pairwise_insertionSort _ _
  have hp := List.perm_insertionSort (· ≤ ·) l
  have hl2 := hp.length_eq
  unfold medianF
  simp only
  generalize l.insertionSort (· ≤ ·) = s at hs hp hl2
  have ha : s[(l.length - 1) / 2]? = some (s[(l.length - 1) / 2]'(by omega)) := List.getElem?_eq_getElem _
  have hb : s[l.length / 2]? = some (s[l.length / 2]'(by omega)) := List.getElem?_eq_getElem _
  generalize s[(l.length - 1) / 2]'(by omega) = a at ha
  generalize s[l.length / 2]'(by omega) = b at hb
  have hab : a ≤ b := sorted_get_le hs ha hb (by omega)
  have ma : a ∈ l := hp.mem_iff.1 (List.mem_of_getElem? ha)
  have mb : b ∈ l := hp.mem_iff.1 (List.mem_of_getElem? hb)
  have key : ∀ m, a ≤ m → m ≤ b → (∃ x ∈ l, x ≤ m) ∧ (∃ x ∈ l, m ≤ x) ∧
      2 * (l.filter fun x => x < m).length ≤ l.length ∧ 2 * (l.filter fun x => m < x).length ≤ l.length := by
    intro m h1 h2
    have f1 := filter_lt_length hs hb (m := m) (by linarith)
    have f2 := filter_gt_length hs ha (m := m) (by linarith)
    rw [(hp.filter _).length_eq] at f1 f2
    exact ⟨⟨a, ma, h1⟩, ⟨b, mb, h2⟩, by omega, by omega⟩
  split_ifs with odd
  · rw [hb]
    have e : (l.length - 1) / 2 = l.length / 2 := by omega
    have : a = b := by
      rw [e, hb] at ha
      exact (Option.some.inj ha).symm
    obtain ⟨k1, k2, k3, k4⟩ := key b hab le_rfl
    exact ⟨b, rfl, k1, k2, k3, k4, fun _ => mb⟩
  · rw [ha, hb]
    have l1 : a + a ≤ rnd (a + b) := rnd_ge hr (double_two (hd a ma)) (by linarith)
    have u1 : rnd (a + b) ≤ b + b := rnd_le hr (double_two (hd b mb)) (by linarith)
    obtain ⟨k1, k2, k3, k4⟩ := key (rnd (rnd (a + b) / 2)) (rnd_ge hr (hd a ma) (by linarith)) (rnd_le hr (hd b mb) (by linarith))
    exact ⟨_, rfl, k1, k2, k3, k4, fun h => absurd h odd⟩

example : medianF id [21, 19.5, 20, 22] = some 20.5 ∧ medianF id [21, 19.5, 20] = some 20 := by decide +kernel

end Props
end Sorcha.Output
