import Verif.Lemmas.Analysis
import Verif.Model.Parser
/-!
# The match loop of `Parser::execute` as a relation
-/
namespace Chrono
open Boost

/-- One pass of the match loop over `text` from offset `k` on, with its outcome. -/
inductive Scan (rt : Rt) (P : Parser) (r : Re) (text : Text) (ref : PTime) :
    Nat → Globals → Out (List PResult × Globals) → Prop where
  | done {k g} : r.search (text.drop k) = none → Scan rt P r text ref k g (.ok ([], g))
  | step {k g mt res g' out} : r.search (text.drop k) = some mt →
      P.extract rt g (text.drop k) mt ref (k + mt.start) = .ok (res, g') →
      Scan rt P r text ref (k + mt.stop) g' out →
      Scan rt P r text ref k g
        (out >>= fun x => .ok (if res.hasPossibleDates then res.copy :: x.1 else x.1, x.2))
  | fail {k g mt} : r.search (text.drop k) = some mt →
      (∀ x, P.extract rt g (text.drop k) mt ref (k + mt.start) ≠ .ok x) →
      Scan rt P r text ref k g
        (P.extract rt g (text.drop k) mt ref (k + mt.start) >>= fun _ => .ok ([], g))

theorem hasPossibleDates_copy (r : PResult) : r.copy.hasPossibleDates = r.hasPossibleDates := rfl

theorem copy_copy (r : PResult) : r.copy.copy = r.copy := by
  unfold PResult.copy; cases r.hasEnd <;> rfl

theorem match_pos {r : Re} {t : Text} {mt : Match} (hmin : 1 ≤ r.minLen) (h : r.search t = some mt) :
    mt.start < mt.stop ∧ mt.stop ≤ t.length := by
  have ok := Re.search_ok h
  have h1 := ok.lang.minLen
  have h2 := ok.len
  have h3 := ok.le
  unfold Match.length at h2
  exact ⟨by omega, ok.stop_le⟩

theorem execLoop_scan {rt : Rt} {P : Parser} {r : Re} {text : Text} {ref : PTime} (hrt : rt.Benign)
    (hmin : 1 ≤ r.minLen) : ∀ (n k : Nat) (g : Globals) (acc : List PResult),
    k ≤ text.length → text.length - k < n →
    ∃ out, Scan rt P r text ref k g out ∧
      execLoop rt P r text ref n g (text.drop k) acc = out >>= fun x => .ok (acc ++ x.1, x.2) := by
  intro n
  induction n with
  | zero => intro k g acc hk hn; omega
  | succ n ih =>
    intro k g acc hk hn
    unfold execLoop
    cases hs : r.search (text.drop k) with
    | none => exact ⟨_, .done hs, by simp⟩
    | some mt =>
      obtain ⟨h1, h2⟩ := match_pos hmin hs
      rw [List.length_drop] at h2
      simp only [List.length_drop]
      have hidx : mt.position + text.length - (text.length - k) = k + mt.start := by
        unfold Match.position; omega
      rw [hidx]
      have hsub1 : substr text (mt.position + 1) = .ok (text.drop (mt.position + 1)) := by
        unfold substr Match.position; rw [if_pos (by omega)]
      have hsub2 : substr text (k + mt.start + mt.length) = .ok (text.drop (k + mt.stop)) := by
        have e : k + mt.start + mt.length = k + mt.stop := by unfold Match.length; omega
        unfold substr; rw [e, if_pos (by omega)]
      have hst : rt.stale mt.length = .ok mt.length := hrt _
      cases hx : P.extract rt g (text.drop k) mt ref (k + mt.start) with
      | ok x =>
        obtain ⟨res, g'⟩ := x
        simp only [Out.bind_ok, hasPossibleDates_copy, hst, hsub1, hsub2, copy_copy]
        obtain ⟨out, ho, he⟩ := ih (k + mt.stop) g' (if res.hasPossibleDates then acc ++ [res.copy] else acc)
          (by omega) (by omega)
        refine ⟨_, .step hs hx ho, ?_⟩
        split
        · rename_i hd
          rw [if_pos hd] at he
          rw [he]
          cases out <;> simp
        · rename_i hd
          rw [if_neg hd] at he
          rw [he]
          cases out <;> simp
      | exn e => exact ⟨_, .fail hs (by rw [hx]; simp), by rw [hx]; simp⟩
      | ub => exact ⟨_, .fail hs (by rw [hx]; simp), by rw [hx]; simp⟩
      | unspec => exact ⟨_, .fail hs (by rw [hx]; simp), by rw [hx]; simp⟩
      | diverge => exact ⟨_, .fail hs (by rw [hx]; simp), by rw [hx]; simp⟩

/-- `execute` is one scan of the lower-cased text. -/
theorem execute_scan {rt : Rt} {P : Parser} {r : Re} (hrt : rt.Benign) (hr : P.pattern = some r)
    (hmin : 1 ≤ r.minLen) (g : Globals) (text : Text) (ref : PTime) :
    Scan rt P r (toLower text) ref 0 g (execute rt P g text ref) := by
  unfold execute
  rw [hr]
  obtain ⟨out, h1, h2⟩ := execLoop_scan (rt := rt) (P := P) (text := toLower text) (ref := ref) hrt hmin
    ((toLower text).length + 1) 0 g [] (by omega) (by omega)
  simp only [List.drop_zero, List.nil_append] at h2
  simp only
  rw [h2]
  cases out <;> simpa using h1

/-- The outcome of a scan is determined. -/
theorem Scan.unique {rt : Rt} {P : Parser} {r : Re} {text : Text} {ref : PTime} {k : Nat} {g : Globals}
    {o o' : Out (List PResult × Globals)} (h : Scan rt P r text ref k g o) (h' : Scan rt P r text ref k g o') :
    o = o' := by
  induction h generalizing o' with
  | done hs => cases h' with
    | done => rfl
    | step hs' => rw [hs] at hs'; simp at hs'
    | fail hs' => rw [hs] at hs'; simp at hs'
  | step hs hx _ ih => cases h' with
    | done hs' => rw [hs] at hs'; simp at hs'
    | step hs' hx' h' =>
      rw [hs] at hs'; simp only [Option.some.injEq] at hs'; subst hs'
      rw [hx] at hx'; simp only [Out.ok.injEq, Prod.mk.injEq] at hx'
      obtain ⟨rfl, rfl⟩ := hx'
      rw [ih h']
    | fail hs' hx' =>
      rw [hs] at hs'; simp only [Option.some.injEq] at hs'; subst hs'
      exact absurd hx (hx' _)
  | fail hs hx => cases h' with
    | done hs' => rw [hs] at hs'; simp at hs'
    | step hs' hx' h' =>
      rw [hs] at hs'; simp only [Option.some.injEq] at hs'; subst hs'
      exact absurd hx' (hx _)
    | fail hs' hx' =>
      rw [hs] at hs'; simp only [Option.some.injEq] at hs'; subst hs'
      rfl

/-- To know what `execute` returns it suffices to exhibit a scan. -/
theorem execute_of_scan {rt : Rt} {P : Parser} {r : Re} (hrt : rt.Benign) (hr : P.pattern = some r)
    (hmin : 1 ≤ r.minLen) {g : Globals} {text : Text} {ref : PTime} {o : Out (List PResult × Globals)}
    (h : Scan rt P r (toLower text) ref 0 g o) : execute rt P g text ref = o :=
  (execute_scan hrt hr hmin g text ref).unique h

/-- One mention, nothing after it. -/
theorem execute_one {rt : Rt} {P : Parser} {r : Re} (hrt : rt.Benign) (hr : P.pattern = some r)
    (hmin : 1 ≤ r.minLen) {g g' : Globals} {text : Text} {ref : PTime} {mt : Match} {res : PResult}
    (hs : r.search (toLower text) = some mt)
    (hx : P.extract rt g (toLower text) mt ref mt.start = .ok (res, g'))
    (hd : res.hasPossibleDates = true)
    (hn : r.search ((toLower text).drop mt.stop) = none) :
    execute rt P g text ref = .ok ([res.copy], g') := by
  have h0 : Scan rt P r (toLower text) ref (0 + mt.stop) g' (.ok ([], g')) := .done (by rw [Nat.zero_add]; exact hn)
  have := Scan.step (k := 0) (P := P) (rt := rt) (r := r) (text := toLower text) (ref := ref) (g := g) (mt := mt)
    (res := res) (by simpa using hs) (by simpa using hx) h0
  rw [execute_of_scan hrt hr hmin this]
  simp [hd]

/-- No mention at all. -/
theorem execute_none {rt : Rt} {P : Parser} {r : Re} (hr : P.pattern = some r)
    {g : Globals} {text : Text} {ref : PTime} (hs : r.search (toLower text) = none) :
    execute rt P g text ref = .ok ([], g) := by
  unfold execute; rw [hr]; simp only; unfold execLoop; rw [hs]

/-- Everything a successful scan returns was extracted from some match. -/
theorem Scan.mem {rt : Rt} {P : Parser} {r : Re} {text : Text} {ref : PTime} {k : Nat} {g : Globals}
    {o : Out (List PResult × Globals)} (h : Scan rt P r text ref k g o) :
    ∀ rs g', o = .ok (rs, g') → ∀ x ∈ rs, ∃ k' g1 g2 mt res, k ≤ k' ∧
      r.search (text.drop k') = some mt ∧
      P.extract rt g1 (text.drop k') mt ref (k' + mt.start) = .ok (res, g2) ∧
      res.hasPossibleDates = true ∧ x = res.copy := by
  induction h with
  | done hs => intro rs g' h; simp at h; simp [h.1]
  | @step k g mt res g1 out hs hx _ ih =>
    intro rs g' h x hx'
    obtain ⟨y, hy, h⟩ := Out.bind_eq_ok.1 h
    simp only [Out.ok.injEq, Prod.mk.injEq] at h
    have hrec : ∀ z ∈ y.1, ∃ k' g1 g2 mt res, k ≤ k' ∧ r.search (text.drop k') = some mt ∧
        P.extract rt g1 (text.drop k') mt ref (k' + mt.start) = .ok (res, g2) ∧
        res.hasPossibleDates = true ∧ z = res.copy := by
      intro z hz
      obtain ⟨k', a, b, c, d, h1, h2⟩ := ih y.1 y.2 (by rw [hy]) z hz
      exact ⟨k', a, b, c, d, by omega, h2⟩
    split at h
    · rename_i hd
      rw [← h.1] at hx'
      rcases List.mem_cons.1 hx' with rfl | hx'
      · exact ⟨k, g, g1, mt, res, Nat.le_refl _, hs, hx, hd, rfl⟩
      · exact hrec x hx'
    · rw [← h.1] at hx'; exact hrec x hx'
  | fail hs hx =>
    intro rs g' h
    obtain ⟨y, hy, -⟩ := Out.bind_eq_ok.1 h
    exact absurd hy (hx y)

/-- A scan that does not succeed fails with the outcome of some extraction. -/
theorem Scan.not_ok {rt : Rt} {P : Parser} {r : Re} {text : Text} {ref : PTime} {k : Nat} {g : Globals}
    {o : Out (List PResult × Globals)} (h : Scan rt P r text ref k g o) (hno : ∀ x, o ≠ .ok x) :
    ∃ k' g1 mt, r.search (text.drop k') = some mt ∧
      (∀ x, P.extract rt g1 (text.drop k') mt ref (k' + mt.start) ≠ .ok x) ∧
      o = (P.extract rt g1 (text.drop k') mt ref (k' + mt.start) >>= fun _ => .ok ([], g1)) := by
  induction h with
  | done hs => exact absurd rfl (hno _)
  | @step k g mt res g1 out hs hx _ ih =>
    cases out with
    | ok x => exact absurd rfl (hno _)
    | exn e =>
      obtain ⟨k', a, b, h1, h2, h3⟩ := ih (by simp)
      exact ⟨k', a, b, h1, h2, h3⟩
    | ub =>
      obtain ⟨k', a, b, h1, h2, h3⟩ := ih (by simp)
      exact ⟨k', a, b, h1, h2, h3⟩
    | unspec =>
      obtain ⟨k', a, b, h1, h2, h3⟩ := ih (by simp)
      exact ⟨k', a, b, h1, h2, h3⟩
    | diverge =>
      obtain ⟨k', a, b, h1, h2, h3⟩ := ih (by simp)
      exact ⟨k', a, b, h1, h2, h3⟩
  | @fail k g mt hs hx => exact ⟨k, g, mt, hs, hx, rfl⟩

end Chrono
