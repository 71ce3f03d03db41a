import Verif.Lemmas.Run
import Verif.Lemmas.Digits
/-!
# Group texts in a text `a ++ ds ++ b` with a run of digits `ds`
-/
namespace Chrono

/-- Span of token offsets, as a span of the text. -/
def runSpan (a ds : Text) (p : Nat × Nat) : Nat × Nat := (runOff a.length ds.length p.1, runOff a.length ds.length p.2)

theorem run_mid {a ds b : Text} (hne : ds ≠ []) :
    spanText (a ++ ds ++ b) (some (runSpan a ds (a.length, a.length + 1))) = ds := by
  have := List.length_pos_iff.2 hne
  unfold spanText runSpan runOff
  simp only
  rw [if_pos (Nat.le_refl _), if_neg (by omega), show a.length + 1 - 1 + ds.length = a.length + ds.length by omega]
  unfold slice
  rw [List.append_assoc, List.drop_left, Nat.add_sub_cancel_left, List.take_left]

theorem run_pre {a ds b : Text} {i j : Nat} (hij : i ≤ j) (hj : j ≤ a.length) :
    spanText (a ++ ds ++ b) (some (runSpan a ds (i, j))) = slice a i j := by
  unfold spanText runSpan runOff
  simp only
  rw [if_pos (by omega), if_pos hj]
  unfold slice
  rw [List.append_assoc, List.drop_append_of_le_length (by omega), List.take_append_of_le_length (by simp; omega)]

theorem run_post {a ds b : Text} {i j : Nat} :
    spanText (a ++ ds ++ b) (some (runSpan a ds (a.length + 1 + i, a.length + 1 + j))) = slice b i j := by
  unfold spanText runSpan runOff
  simp only
  rw [if_neg (by omega), if_neg (by omega), show a.length + 1 + i - 1 + ds.length = (a ++ ds).length + i by simp; omega,
    show a.length + 1 + j - 1 + ds.length = (a ++ ds).length + j by simp; omega]
  unfold slice
  rw [← List.drop_drop, List.drop_left, Nat.add_sub_add_left]

theorem run_all {a ds b : Text} :
    spanText (a ++ ds ++ b) (some (runSpan a ds (0, a.length + 1 + b.length))) = a ++ ds ++ b := by
  unfold spanText runSpan runOff
  simp only
  rw [if_pos (by omega), if_neg (by omega), show a.length + 1 + b.length - 1 + ds.length = (a ++ ds ++ b).length by simp; omega]
  unfold slice
  rw [List.drop_zero, Nat.sub_zero, List.take_length]

/-- `foundRun` with one group read. -/
theorem run_get {mt : Match} {a ds b : Text} {gs : List (Nat × Option (Nat × Nat))}
    (hg : ∀ x ∈ gs, x.1 ≠ 0 → mt.str x.1 = spanText (a ++ ds ++ b) (x.2.map fun p => (runOff a.length ds.length p.1, runOff a.length ds.length p.2)))
    {k : Nat} {o : Option (Nat × Nat)} (hm : (k, o) ∈ gs) (hk : k ≠ 0) :
    mt.str k = spanText (a ++ ds ++ b) (o.map (runSpan a ds)) := hg (k, o) hm hk

end Chrono
