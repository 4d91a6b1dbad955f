import Verif.Model.Lines
import Mathlib.Tactic.NormNum
import Mathlib.Tactic.Linarith

/-!
# C46, C62: line tables and line sets
-/

namespace Misfit

/-! ## Lookup, for every table and key -/

theorem readRow_ok_iff {α : Type} (t : List (String × α)) (n : String) (v : α) :
    readRow t (some n) = .ok v ↔
      ∃ i : Nat, t[i]? = some (n, v) ∧ ∀ j < i, ∀ w, t[j]? ≠ some (n, w) := by
  induction t with
  | nil => simp [readRow]
  | cons x xs ih =>
    obtain ⟨k, w⟩ := x
    rw [readRow]
    by_cases hk : k = n
    · subst hk
      rw [if_pos rfl]
      constructor
      · intro h
        refine ⟨0, ?_, fun j hj => by omega⟩
        rw [Except.ok.inj h]
        rfl
      · rintro ⟨i, hi, hj⟩
        cases i with
        | zero =>
          rw [List.getElem?_cons_zero, Option.some.injEq, Prod.mk.injEq] at hi
          rw [hi.2]
        | succ i => exact absurd rfl (hj 0 (by omega) w)
    · rw [if_neg hk, ih]
      constructor
      · rintro ⟨i, hi, hj⟩
        refine ⟨i + 1, by simpa using hi, fun j hjlt w' => ?_⟩
        cases j with
        | zero =>
          rw [List.getElem?_cons_zero]
          intro h
          rw [Option.some.injEq, Prod.mk.injEq] at h
          exact hk h.1
        | succ j => simpa using hj j (by omega) w'
      · rintro ⟨i, hi, hj⟩
        cases i with
        | zero =>
          rw [List.getElem?_cons_zero, Option.some.injEq, Prod.mk.injEq] at hi
          exact absurd hi.1 hk
        | succ i =>
          exact ⟨i, by simpa using hi, fun j hjlt w' => by
            simpa using hj (j + 1) (by omega) w'⟩

/-- **C46** (lookup): for every table and every key a reader returns the value of the
first matching row, and raises ValueError exactly when no row matches. -/
theorem C46_lookup {α : Type} (t : List (String × α)) (n : String) :
    (∀ v, readRow t (some n) = .ok v ↔
      ∃ i : Nat, t[i]? = some (n, v) ∧ ∀ j < i, ∀ w, t[j]? ≠ some (n, w)) ∧
    (readRow t (some n) = .error .valueError ↔ ∀ v, (n, v) ∉ t) := by
  refine ⟨readRow_ok_iff t n, ?_⟩
  induction t with
  | nil => simp [readRow]
  | cons x xs ih =>
    obtain ⟨k, w⟩ := x
    rw [readRow]
    by_cases hk : k = n
    · subst hk
      rw [if_pos rfl]
      refine ⟨fun h => absurd h (by simp), fun h => absurd (by simp) (h w)⟩
    · rw [if_neg hk, ih]
      constructor
      · intro h v hv
        rw [List.mem_cons, Prod.mk.injEq] at hv
        rcases hv with hv | hv
        · exact hk hv.1.symm
        · exact h v hv
      · intro h v hv
        exact h v (List.mem_cons_of_mem _ hv)

/-- The keys of a table. -/
def keysOf {α : Type} (t : List (String × α)) : List String := t.map Prod.fst

/-- Boolean check of one line, for the evaluation below. -/
def lineOk (l : String) : Bool :=
  match readRestwave l, readLineRatio l with
  | .ok w, .ok r => decide (0 < w ∧ 0 < r ∧ r ≤ 1)
  | _, _ => false

/-- Boolean check that the ratio of a line is 1. -/
def lineOne (l : String) : Bool :=
  match readLineRatio l with
  | .ok r => decide (r = 1)
  | .error _ => false

/-- **C46** (partial): every line of every catalogued group has a rest wavelength and a
flux ratio in (0, 1], and one line of each group has ratio 1; no table has two rows for
one key.
Missing from the full claim: ranges for every group, see `C46_false`. -/
theorem C46_complete_partial :
    (∀ g ∈ lineNamesCat, g.2 ≠ [] ∧ (∀ l ∈ g.2, ∃ w r, readRestwave l = .ok w ∧
        readLineRatio l = .ok r ∧ 0 < w ∧ 0 < r ∧ r ≤ 1) ∧
      ∃ l ∈ g.2, readLineRatio l = .ok 1) ∧
    (keysOf lineNamesCat).Nodup ∧ (keysOf lineWavelengths).Nodup ∧
    (keysOf fullRange2D).Nodup ∧ (keysOf lineRange2D).Nodup ∧ (keysOf maskRange2D).Nodup ∧
    (keysOf trimRange1D).Nodup ∧ (keysOf bandCutoff).Nodup := by
  refine ⟨?_, by decide, by decide, by decide, by decide, by decide, by decide, by decide⟩
  have h : ∀ g ∈ lineNamesCat, g.2 ≠ [] ∧ (∀ l ∈ g.2, lineOk l = true) ∧
      ∃ l ∈ g.2, lineOne l = true := by
    decide +kernel
  intro g hg
  obtain ⟨h1, h2, l1, hl1, h3⟩ := h g hg
  refine ⟨h1, fun l hl => ?_, l1, hl1, ?_⟩
  · have := h2 l hl
    unfold lineOk at this
    cases hw : readRestwave l with
    | error e => rw [hw] at this; exact absurd this (by simp)
    | ok w =>
      cases hr : readLineRatio l with
      | error e => rw [hw, hr] at this; exact absurd this (by simp)
      | ok r =>
        rw [hw, hr] at this
        exact ⟨w, r, rfl, rfl, of_decide_eq_true this⟩
  · unfold lineOne at h3
    cases hr : readLineRatio l1 with
    | error e => rw [hr] at h3; exact absurd h3 (by simp)
    | ok r =>
      rw [hr] at h3
      rw [show r = 1 from of_decide_eq_true h3]

/-- The ranges belong together: the line lies in the fitted range, which lies inside the
masked range, which lies strictly inside the full range, so that there is room for the
continuum on both sides. -/
def RangesNested (w : ℚ) (full line mask : ℚ × ℚ) : Prop :=
  full.1 < mask.1 ∧ mask.1 ≤ line.1 ∧ line.1 < w ∧ w < line.2 ∧ line.2 ≤ mask.2 ∧
    mask.2 < full.2

instance (w : ℚ) (f l m : ℚ × ℚ) : Decidable (RangesNested w f l m) := by
  unfold RangesNested; infer_instance

/-- **C46** (partial): the groups with a Balmer line or [OIII] can be prepared, their ranges
are nested, and every line of the group lies inside the masked range. -/
theorem C46_ranges_partial :
    ∀ g ∈ ["Halpha", "Hbeta", "OIII"], ∃ ns f r m w, readLineNames (some g) = .ok ns ∧
      readRanges2D ns = .ok (f, r, m) ∧ (ns.head?.map readRestwave) = some (.ok w) ∧
      RangesNested w f r m ∧ ∀ l ∈ ns, ∃ v, readRestwave l = .ok v ∧ m.1 < v ∧ v < m.2 := by
  intro g hg
  simp only [List.mem_cons, List.not_mem_nil, or_false] at hg
  rcases hg with rfl | rfl | rfl
  · refine ⟨["HA6565"], (6454.60, 6674.60), (6555.60, 6573.60), (6533.60, 6599.60), 6564.60,
      by decide +kernel, by decide +kernel, by decide +kernel, by decide +kernel, ?_⟩
    intro l hl
    simp only [List.mem_cons, List.not_mem_nil, or_false] at hl
    subst hl
    exact ⟨6564.60, by decide +kernel, by norm_num, by norm_num⟩
  · refine ⟨["HB4863"], (4787.71, 4932.71), (4856.71, 4868.71), (4852.71, 4872.71), 4862.71,
      by decide +kernel, by decide +kernel, by decide +kernel, by decide +kernel, ?_⟩
    intro l hl
    simp only [List.mem_cons, List.not_mem_nil, or_false] at hl
    subst hl
    exact ⟨4862.71, by decide +kernel, by norm_num, by norm_num⟩
  · refine ⟨["OIII5008", "OIII4960"], (4880.24, 5118.24), (5002.29, 5015.24),
      (4928.24, 5038.24), 5008.24,
      by decide +kernel, by decide +kernel, by decide +kernel, by decide +kernel, ?_⟩
    intro l hl
    simp only [List.mem_cons, List.not_mem_nil, or_false] at hl
    rcases hl with rfl | rfl
    · exact ⟨5008.24, by decide +kernel, by norm_num, by norm_num⟩
    · exact ⟨4960.295, by decide +kernel, by norm_num, by norm_num⟩

/-- **C46** (partial): the wavelength window of a 1D fit contains the line it is named after; the window of a
group contains every line of the group, and the 2D line range. Every band has a positive sky cutoff, in multiples of
the median error.
Missing from the full claim: windows for every group, see `C46_false`. -/
theorem C46_windows_partial :
    (∀ g ∈ ["Halpha", "Hbeta", "OIII"], ∃ ns t f r m, readLineNames (some g) = .ok ns ∧
      readWaveRange trimRange1D g = .ok t ∧ readRanges2D ns = .ok (f, r, m) ∧ t.1 < r.1 ∧ r.2 < t.2 ∧
      ∀ l ∈ ns, ∃ v, readRestwave l = .ok v ∧ t.1 < v ∧ v < t.2) ∧
    (∀ l ∈ ["HA6565", "HB4863", "OIII5008"], ∃ t v, readWaveRange trimRange1D l = .ok t ∧
      readRestwave l = .ok v ∧ t.1 < v ∧ v < t.2) ∧
    ∀ b ∈ bandCutoff, 0 < b.2.1 ∧ b.2.2 = "timesMedianErr" := by
  refine ⟨?_, ?_, by decide +kernel⟩
  · intro g hg
    simp only [List.mem_cons, List.not_mem_nil, or_false] at hg
    rcases hg with rfl | rfl | rfl
    · refine ⟨["HA6565"], (6480, 6650), (6454.60, 6674.60), (6555.60, 6573.60), (6533.60, 6599.60),
        by decide +kernel, by decide +kernel, by decide +kernel, by norm_num, by norm_num, ?_⟩
      intro l hl
      simp only [List.mem_cons, List.not_mem_nil, or_false] at hl
      subst hl
      exact ⟨6564.60, by decide +kernel, by norm_num, by norm_num⟩
    · refine ⟨["HB4863"], (4800, 4920), (4787.71, 4932.71), (4856.71, 4868.71), (4852.71, 4872.71),
        by decide +kernel, by decide +kernel, by decide +kernel, by norm_num, by norm_num, ?_⟩
      intro l hl
      simp only [List.mem_cons, List.not_mem_nil, or_false] at hl
      subst hl
      exact ⟨4862.71, by decide +kernel, by norm_num, by norm_num⟩
    · refine ⟨["OIII5008", "OIII4960"], (4930, 5060), (4880.24, 5118.24), (5002.29, 5015.24),
        (4928.24, 5038.24), by decide +kernel, by decide +kernel, by decide +kernel, by norm_num, by norm_num, ?_⟩
      intro l hl
      simp only [List.mem_cons, List.not_mem_nil, or_false] at hl
      rcases hl with rfl | rfl
      · exact ⟨5008.24, by decide +kernel, by norm_num, by norm_num⟩
      · exact ⟨4960.295, by decide +kernel, by norm_num, by norm_num⟩
  · intro l hl
    simp only [List.mem_cons, List.not_mem_nil, or_false] at hl
    rcases hl with rfl | rfl | rfl
    · exact ⟨(6480, 6650), 6564.60, by decide +kernel, by decide +kernel, by norm_num, by norm_num⟩
    · exact ⟨(4800, 4920), 4862.71, by decide +kernel, by decide +kernel, by norm_num, by norm_num⟩
    · exact ⟨(4950, 5060), 5008.24, by decide +kernel, by decide +kernel, by norm_num, by norm_num⟩

/-- **C46**, exactly: the names of group that can be prepared for a 2D fit with the shipped tables
are Halpha, Hbeta and OIII, and no other name at all. -/
theorem C46_exact (g : String) :
    (∃ ns f r m, readLineNames (some g) = .ok ns ∧ readRanges2D ns = .ok (f, r, m)) ↔
      g = "Halpha" ∨ g = "Hbeta" ∨ g = "OIII" := by
  constructor
  · rintro ⟨ns, f, r, m, hn, hr⟩
    obtain ⟨i, hi, -⟩ := ((C46_lookup lineNamesCat g).1 ns).1 hn
    have hall : ∀ x ∈ lineNamesCat, (x.1 = "Halpha" ∨ x.1 = "Hbeta" ∨ x.1 = "OIII") ∨
        readRanges2D x.2 = .error .valueError := by decide +kernel
    rcases hall _ (List.mem_of_getElem? hi) with h | h
    · exact h
    · rw [hr] at h
      cases h
  · intro h
    obtain ⟨ns, f, r, m, w, hn, hr, -⟩ := C46_ranges_partial g (by simpa using h)
    exact ⟨ns, f, r, m, hn, hr⟩

/-- **C46**, negation: the catalogued groups NII, SII and OII cannot be prepared for a 2D
fit with the shipped tables (ValueError), and have no 1D fitting range either. -/
theorem C46_false :
    ∀ g ∈ ["NII", "SII", "OII"], g ∈ keysOf lineNamesCat ∧
      (∃ ns, readLineNames (some g) = .ok ns ∧ readRanges2D ns = .error .valueError) ∧
      readWaveRange trimRange1D g = .error .valueError := by
  intro g hg
  simp only [List.mem_cons, List.not_mem_nil, or_false] at hg
  rcases hg with rfl | rfl | rfl
  · exact ⟨by decide, ⟨["NII6550", "NII6585"], by decide +kernel, by decide +kernel⟩,
      by decide +kernel⟩
  · exact ⟨by decide, ⟨["SII6733", "SII6718"], by decide +kernel, by decide +kernel⟩,
      by decide +kernel⟩
  · exact ⟨by decide, ⟨["OII3727", "OII3730"], by decide +kernel, by decide +kernel⟩,
      by decide +kernel⟩

/-! ## C47: user supplied line lists -/

theorem readAll_length (f : String → Except PyErr ℚ) :
    ∀ (ns : List String) (vs : List ℚ), readAll f ns = .ok vs →
      vs.length = ns.length ∧
        ∀ (i : Nat) (n : String), ns[i]? = some n → ∃ v, vs[i]? = some v ∧ f n = .ok v := by
  intro ns
  induction ns with
  | nil =>
    intro vs h
    obtain rfl := Except.ok.inj h
    exact ⟨rfl, fun i n h => by simp at h⟩
  | cons a ns ih =>
    intro vs h
    rw [readAll] at h
    cases hf : f a with
    | error e => rw [hf] at h; exact absurd h (by simp)
    | ok v =>
      cases hr : readAll f ns with
      | error e => rw [hf, hr] at h; exact absurd h (by simp)
      | ok ws =>
        rw [hf, hr] at h
        obtain rfl := Except.ok.inj h
        obtain ⟨h1, h2⟩ := ih ws hr
        refine ⟨by simp [h1], fun i n hi => ?_⟩
        cases i with
        | zero =>
          rw [List.getElem?_cons_zero, Option.some.injEq] at hi
          subst hi
          exact ⟨v, rfl, hf⟩
        | succ i => simpa using h2 i n (by simpa using hi)

/-- What `initialize_lineset` returned, step by step. -/
theorem initializeLineset_ok {g : Option String} {s s' : LineSet}
    (h : initializeLineset g s = .ok s') :
    ∃ ns w r, s' = ⟨some ns, some w, some r⟩ ∧
      (match s.names with | some x => Except.ok x | none => readLineNames g) = .ok ns ∧
      (match s.waves with | some x => Except.ok x | none => readAll readRestwave ns) = .ok w ∧
      (match s.ratios with | some x => Except.ok x | none => readAll readLineRatio ns) = .ok r := by
  unfold initializeLineset at h
  split at h
  · exact absurd h (by simp)
  · rename_i ns hns
    split at h
    · exact absurd h (by simp)
    · rename_i w hw
      split at h
      · exact absurd h (by simp)
      · rename_i r hr
        exact ⟨ns, w, r, (Except.ok.inj h).symm, hns, hw, hr⟩

/-- **C47** (line lists): names, wavelengths and flux ratios supplied by the user are never
overwritten; those not supplied are filled from the tables, one value per line, in
order. -/
theorem C47_lineset (g : Option String) (s s' : LineSet) (h : initializeLineset g s = .ok s') :
    (∀ x, s.names = some x → s'.names = some x) ∧
    (∀ x, s.waves = some x → s'.waves = some x) ∧
    (∀ x, s.ratios = some x → s'.ratios = some x) ∧
    (s.names = none → ∃ ns, readLineNames g = .ok ns ∧ s'.names = some ns) ∧
    ∃ ns, s'.names = some ns ∧
      (s.waves = none → ∃ w, s'.waves = some w ∧ w.length = ns.length ∧
        ∀ (i : Nat) (n : String), ns[i]? = some n → ∃ v, w[i]? = some v ∧ readRestwave n = .ok v) ∧
      (s.ratios = none → ∃ r, s'.ratios = some r ∧ r.length = ns.length ∧
        ∀ (i : Nat) (n : String), ns[i]? = some n →
          ∃ v, r[i]? = some v ∧ readLineRatio n = .ok v) := by
  obtain ⟨ns, w, r, rfl, hn, hw, hr⟩ := initializeLineset_ok h
  refine ⟨fun x hx => ?_, fun x hx => ?_, fun x hx => ?_, fun hx => ?_, ns, rfl,
    fun hx => ?_, fun hx => ?_⟩
  · rw [hx] at hn; rw [Except.ok.inj hn]
  · rw [hx] at hw; rw [Except.ok.inj hw]
  · rw [hx] at hr; rw [Except.ok.inj hr]
  · rw [hx] at hn; exact ⟨ns, hn, rfl⟩
  · rw [hx] at hw
    exact ⟨w, rfl, readAll_length _ _ _ hw⟩
  · rw [hx] at hr
    exact ⟨r, rfl, readAll_length _ _ _ hr⟩

/-- **C47** (line lists): initialising again changes nothing. -/
theorem C47_lineset_idem (g g' : Option String) (s s' : LineSet)
    (h : initializeLineset g s = .ok s') : initializeLineset g' s' = .ok s' := by
  obtain ⟨ns, w, r, rfl, _⟩ := initializeLineset_ok h
  rfl

example : initializeLineset (some "OIII") ⟨none, none, none⟩ =
    .ok ⟨some ["OIII5008", "OIII4960"], some [5008.24, 4960.295], some [1, 0.333333]⟩ := by
  decide +kernel
example : initializeLineset (some "OIII") ⟨some ["HA6565"], none, some [2]⟩ =
    .ok ⟨some ["HA6565"], some [6564.60], some [2]⟩ := by decide +kernel
example : initializeLineset none ⟨none, none, none⟩ = .error .valueError := by decide +kernel

/-! ## C62: lines given to the 2D fit are the lines of the spectrum -/

/-- The lines of the spectrum (from which the model is built) are consistent with the lines
of the fit object: same names, and rest wavelengths and ratios of those names. -/
def LinesAgree (a b : LineSet) : Prop := a.names = b.names ∧ a.waves = b.waves ∧ a.ratios = b.ratios

/-- **C62** (partial): if no names, wavelengths or ratios are given to the fit object, then
after setting up, fit object and spectrum agree on all of them (whatever the spectrum
already had).
Missing from the full claim: line lists given to the fit object, see `C62_false_ignored`
and `C62_false_mixed`. -/
theorem C62_setup_partial (ga gb : Option String) (b a' b' : LineSet)
    (h : setup2D ga gb ⟨none, none, none⟩ b = .ok (a', b')) : LinesAgree a' b' := by
  obtain ⟨bn, bw, br⟩ := b
  unfold setup2D setupNames at h
  cases bn with
  | some ns =>
    simp only at h
    unfold setupWaves at h
    cases bw with
    | some w =>
      simp only at h
      unfold setupRatios at h
      cases br with
      | some r =>
        simp only [initializeLineset] at h
        rw [Except.ok.injEq, Prod.mk.injEq] at h
        rw [← h.1, ← h.2]
        exact ⟨rfl, rfl, rfl⟩
      | none =>
        simp only at h
        cases hr : readAll readLineRatio ns with
        | error e => rw [hr] at h; exact absurd h (by simp)
        | ok r =>
          rw [hr] at h
          simp only [initializeLineset] at h
          rw [Except.ok.injEq, Prod.mk.injEq] at h
          rw [← h.1, ← h.2]
          exact ⟨rfl, rfl, rfl⟩
    | none =>
      simp only at h
      cases hw : readAll readRestwave ns with
      | error e => rw [hw] at h; exact absurd h (by simp)
      | ok w =>
        rw [hw] at h
        simp only at h
        unfold setupRatios at h
        cases br with
        | some r =>
          simp only [initializeLineset] at h
          rw [Except.ok.injEq, Prod.mk.injEq] at h
          rw [← h.1, ← h.2]
          exact ⟨rfl, rfl, rfl⟩
        | none =>
          simp only at h
          cases hr : readAll readLineRatio ns with
          | error e => rw [hr] at h; exact absurd h (by simp)
          | ok r =>
            rw [hr] at h
            simp only [initializeLineset] at h
            rw [Except.ok.injEq, Prod.mk.injEq] at h
            rw [← h.1, ← h.2]
            exact ⟨rfl, rfl, rfl⟩
  | none =>
    simp only at h
    cases hg : readLineNames ga with
    | error e => rw [hg] at h; exact absurd h (by simp)
    | ok ns =>
      rw [hg] at h
      simp only at h
      unfold setupWaves at h
      cases bw with
      | some w =>
        simp only at h
        unfold setupRatios at h
        cases br with
        | some r =>
          simp only [initializeLineset] at h
          rw [Except.ok.injEq, Prod.mk.injEq] at h
          rw [← h.1, ← h.2]
          exact ⟨rfl, rfl, rfl⟩
        | none =>
          simp only at h
          cases hr : readAll readLineRatio ns with
          | error e => rw [hr] at h; exact absurd h (by simp)
          | ok r =>
            rw [hr] at h
            simp only [initializeLineset] at h
            rw [Except.ok.injEq, Prod.mk.injEq] at h
            rw [← h.1, ← h.2]
            exact ⟨rfl, rfl, rfl⟩
      | none =>
        simp only at h
        cases hw : readAll readRestwave ns with
        | error e => rw [hw] at h; exact absurd h (by simp)
        | ok w =>
          rw [hw] at h
          simp only at h
          unfold setupRatios at h
          cases br with
          | some r =>
            simp only [initializeLineset] at h
            rw [Except.ok.injEq, Prod.mk.injEq] at h
            rw [← h.1, ← h.2]
            exact ⟨rfl, rfl, rfl⟩
          | none =>
            simp only at h
            cases hr : readAll readLineRatio ns with
            | error e => rw [hr] at h; exact absurd h (by simp)
            | ok r =>
              rw [hr] at h
              simp only [initializeLineset] at h
              rw [Except.ok.injEq, Prod.mk.injEq] at h
              rw [← h.1, ← h.2]
              exact ⟨rfl, rfl, rfl⟩

example : setup2D (some "OIII") none ⟨none, none, none⟩ ⟨none, none, none⟩ =
    .ok (⟨some ["OIII5008", "OIII4960"], some [5008.24, 4960.295], some [1, 0.333333]⟩,
      ⟨some ["OIII5008", "OIII4960"], some [5008.24, 4960.295], some [1, 0.333333]⟩) := by
  decide +kernel

/-- Inversion of the first part of `setup`. -/
theorem setupNames_inv {g : Option String} {a b a1 b1 : LineSet}
    (h : setupNames g a b = .ok (a1, b1)) :
    ∃ na, a1.names = some na ∧ a1.waves = a.waves ∧ a1.ratios = a.ratios ∧
      b1.waves = b.waves ∧ b1.ratios = b.ratios ∧
      (a.names = some na ∨ a.names = none ∧ b.names = some na ∨
        a.names = none ∧ b.names = none ∧ readLineNames g = .ok na) ∧
      b1.names = (if a.names = none then some na else b.names) := by
  obtain ⟨an, aw, ar⟩ := a
  obtain ⟨bn, bw, br⟩ := b
  unfold setupNames at h
  rcases an with _ | an
  · rcases bn with _ | bn
    · rcases hg : readLineNames g with e | ns
      · simp [hg] at h
      · simp only [hg, Except.ok.injEq, Prod.mk.injEq] at h
        obtain ⟨rfl, rfl⟩ := h
        exact ⟨ns, by simp⟩
    · simp only [Except.ok.injEq, Prod.mk.injEq] at h
      obtain ⟨rfl, rfl⟩ := h
      exact ⟨bn, by simp⟩
  · simp only [Except.ok.injEq, Prod.mk.injEq] at h
    obtain ⟨rfl, rfl⟩ := h
    exact ⟨an, by simp⟩

/-- Inversion of the second part of `setup`. -/
theorem setupWaves_inv {a b a1 b1 : LineSet} {na : List String} (ha : a.names = some na)
    (h : setupWaves a b = .ok (a1, b1)) :
    a1.names = some na ∧ b1.names = b.names ∧ a1.ratios = a.ratios ∧ b1.ratios = b.ratios ∧
      a1.waves = (if a.waves ≠ none then a.waves else
        if b.names ≠ none then b1.waves else b.waves) ∧
      (∀ w, b.waves = some w → b1.waves = some w) ∧
      (b.waves = none → if a.waves = none ∧ b.names ≠ none then
        ∃ w, b1.waves = some w ∧ readAll readRestwave na = .ok w else b1.waves = none) := by
  obtain ⟨an, aw, ar⟩ := a
  obtain ⟨bn, bw, br⟩ := b
  obtain rfl : an = some na := ha
  unfold setupWaves at h
  rcases aw with _ | aw
  · rcases bn with _ | bn
    · simp only [Except.ok.injEq, Prod.mk.injEq] at h
      obtain ⟨rfl, rfl⟩ := h
      simp
    · rcases bw with _ | bw
      · rcases hr : readAll readRestwave na with e | w
        · simp [hr] at h
        · simp only [hr, Except.ok.injEq, Prod.mk.injEq] at h
          obtain ⟨rfl, rfl⟩ := h
          simp
      · simp only [Except.ok.injEq, Prod.mk.injEq] at h
        obtain ⟨rfl, rfl⟩ := h
        simp
  · simp only [Except.ok.injEq, Prod.mk.injEq] at h
    obtain ⟨rfl, rfl⟩ := h
    simp

/-- Inversion of the third part of `setup`. -/
theorem setupRatios_inv {a b a1 b1 : LineSet} {na : List String} (ha : a.names = some na)
    (h : setupRatios a b = .ok (a1, b1)) :
    a1.names = some na ∧ b1.names = b.names ∧ a1.waves = a.waves ∧ b1.waves = b.waves ∧
      a1.ratios = (if a.ratios ≠ none then a.ratios else
        if b.names ≠ none then b1.ratios else b.ratios) ∧
      (∀ w, b.ratios = some w → b1.ratios = some w) ∧
      (b.ratios = none → if a.ratios = none ∧ b.names ≠ none then
        ∃ w, b1.ratios = some w ∧ readAll readLineRatio na = .ok w else b1.ratios = none) := by
  obtain ⟨an, aw, ar⟩ := a
  obtain ⟨bn, bw, br⟩ := b
  obtain rfl : an = some na := ha
  unfold setupRatios at h
  rcases ar with _ | ar
  · rcases bn with _ | bn
    · simp only [Except.ok.injEq, Prod.mk.injEq] at h
      obtain ⟨rfl, rfl⟩ := h
      simp
    · rcases br with _ | br
      · rcases hr : readAll readLineRatio na with e | w
        · simp [hr] at h
        · simp only [hr, Except.ok.injEq, Prod.mk.injEq] at h
          obtain ⟨rfl, rfl⟩ := h
          simp
      · simp only [Except.ok.injEq, Prod.mk.injEq] at h
        obtain ⟨rfl, rfl⟩ := h
        simp
  · simp only [Except.ok.injEq, Prod.mk.injEq] at h
    obtain ⟨rfl, rfl⟩ := h
    simp

/-- Inversion of `initialize_lineset`. -/
theorem initializeLineset_inv {g : Option String} {s t : LineSet}
    (h : initializeLineset g s = .ok t) :
    ∃ ns w r, t = ⟨some ns, some w, some r⟩ ∧
      (s.names = some ns ∨ s.names = none ∧ readLineNames g = .ok ns) ∧
      (s.waves = some w ∨ s.waves = none ∧ readAll readRestwave ns = .ok w) ∧
      (s.ratios = some r ∨ s.ratios = none ∧ readAll readLineRatio ns = .ok r) := by
  obtain ⟨n, w, r⟩ := s
  obtain ⟨ns, hn, h⟩ : ∃ ns, (n = some ns ∨ n = none ∧ readLineNames g = .ok ns) ∧
      initializeLineset g ⟨some ns, w, r⟩ = .ok t := by
    rcases n with _ | n
    · rcases hg : readLineNames g with e | ns
      · simp [initializeLineset, hg] at h
      · exact ⟨ns, .inr ⟨rfl, rfl⟩, by rw [← h]; simp [initializeLineset, hg]⟩
    · exact ⟨n, .inl rfl, h⟩
  obtain ⟨ws, hw, h⟩ : ∃ ws, (w = some ws ∨ w = none ∧ readAll readRestwave ns = .ok ws) ∧
      initializeLineset g ⟨some ns, some ws, r⟩ = .ok t := by
    rcases w with _ | w
    · rcases hg : readAll readRestwave ns with e | ws
      · simp [initializeLineset, hg] at h
      · exact ⟨ws, .inr ⟨rfl, rfl⟩, by rw [← h]; simp [initializeLineset, hg]⟩
    · exact ⟨w, .inl rfl, h⟩
  obtain ⟨rs, hr, h⟩ : ∃ rs, (r = some rs ∨ r = none ∧ readAll readLineRatio ns = .ok rs) ∧
      initializeLineset g ⟨some ns, some ws, some rs⟩ = .ok t := by
    rcases r with _ | r
    · rcases hg : readAll readLineRatio ns with e | rs
      · simp [initializeLineset, hg] at h
      · exact ⟨rs, .inr ⟨rfl, rfl⟩, by rw [← h]; simp [initializeLineset, hg]⟩
    · exact ⟨r, .inl rfl, h⟩
  simp only [initializeLineset, Except.ok.injEq] at h
  exact ⟨ns, ws, rs, h.symm, hn, hw, hr⟩

/-- **C62**, exact: what fit object and spectrum have after setting up, whatever was given.
The names of the spectrum are its own if it has any, else those found for the fit object from
its group, but its *own* group if names were given to the fit object.  Wavelengths and ratios
of the spectrum are its own if given; else they are those of the names of the fit object if
that was given none, except when the fit object alone was given names, when they are those of
the names of the spectrum (and the fit object has none). -/
theorem C62_exact (ga gb : Option String) (a b a' b' : LineSet)
    (h : setup2D ga gb a b = .ok (a', b')) :
    ∃ na nb : List String, a'.names = some na ∧ b'.names = some nb ∧
      (a.names = some na ∨ a.names = none ∧ b.names = some na ∨
        a.names = none ∧ b.names = none ∧ readLineNames ga = .ok na) ∧
      (b.names = some nb ∨ b.names = none ∧ a.names = none ∧ nb = na ∨
        b.names = none ∧ a.names ≠ none ∧ readLineNames gb = .ok nb) ∧
      (∃ w, b'.waves = some w ∧ (b.waves = some w ∨ b.waves = none ∧
        readAll readRestwave
          (if a.waves = none ∧ (a.names = none ∨ b.names ≠ none) then na else nb) = .ok w)) ∧
      a'.waves = (if a.waves ≠ none then a.waves else
        if a.names = none ∨ b.names ≠ none then b'.waves else b.waves) ∧
      (∃ r, b'.ratios = some r ∧ (b.ratios = some r ∨ b.ratios = none ∧
        readAll readLineRatio
          (if a.ratios = none ∧ (a.names = none ∨ b.names ≠ none) then na else nb) = .ok r)) ∧
      a'.ratios = (if a.ratios ≠ none then a.ratios else
        if a.names = none ∨ b.names ≠ none then b'.ratios else b.ratios) := by
  unfold setup2D at h
  rcases h1 : setupNames ga a b with e | ⟨a1, b1⟩
  · simp [h1] at h
  simp only [h1] at h
  rcases h2 : setupWaves a1 b1 with e | ⟨a2, b2⟩
  · simp [h2] at h
  simp only [h2] at h
  rcases h3 : setupRatios a2 b2 with e | ⟨a3, b3⟩
  · simp [h3] at h
  simp only [h3] at h
  rcases h4 : initializeLineset gb b3 with e | b4
  · simp [h4] at h
  simp only [h4, Except.ok.injEq, Prod.mk.injEq] at h
  obtain ⟨rfl, rfl⟩ := h
  obtain ⟨na, n1, n2, n3, n4, n5, n6, n7⟩ := setupNames_inv h1
  obtain ⟨w1, w2, w3, w4, w5, w6, w7⟩ := setupWaves_inv n1 h2
  obtain ⟨r1, r2, r3, r4, r5, r6, r7⟩ := setupRatios_inv w1 h3
  obtain ⟨nb, w, r, rfl, i1, i2, i3⟩ := initializeLineset_inv h4
  have hb : b1.names ≠ none ↔ a.names = none ∨ b.names ≠ none := by
    rw [n7]; split <;> simp_all
  rw [r2, w2] at i1
  rw [r4] at i2
  rw [w2, w4, n5] at r7
  rw [w4, n5] at r6
  rw [n4] at w6 w7
  refine ⟨na, nb, r1, rfl, n6, ?_, ⟨w, rfl, ?_⟩, ?_, ⟨r, rfl, ?_⟩, ?_⟩
  · rw [n7] at i1
    by_cases ha : a.names = none
    · rw [if_pos ha] at i1
      rcases i1 with i1 | i1
      · rcases hbn : b.names with _ | m
        · exact .inr (.inl ⟨rfl, ha, (Option.some.inj i1).symm⟩)
        · rcases n6 with n6 | n6 | n6
          · rw [ha] at n6; cases n6
          · rw [hbn] at n6; exact .inl (by rw [← i1, ← n6.2])
          · rw [hbn] at n6; cases n6.2.1
      · cases i1.1
    · rw [if_neg ha] at i1
      rcases i1 with i1 | i1
      · exact .inl i1
      · exact .inr (.inr ⟨i1.1, ha, i1.2⟩)
  · rcases hbw : b.waves with _ | v
    · refine .inr ⟨rfl, ?_⟩
      have := w7 hbw
      simp only [n2, hb] at this
      split at this
      · rename_i hc
        rw [if_pos hc]
        obtain ⟨v, hv, hv'⟩ := this
        rcases i2 with i2 | i2
        · rw [hv] at i2; cases i2; exact hv'
        · rw [hv] at i2; cases i2.1
      · rename_i hc
        rw [if_neg hc]
        rcases i2 with i2 | i2
        · rw [this] at i2; cases i2
        · exact i2.2
    · rw [w6 v hbw] at i2
      rcases i2 with i2 | i2
      · exact .inl i2
      · cases i2.1
  · rw [r3, w5, n2, n4]
    split
    · rfl
    · rename_i haw
      by_cases hb' : b1.names ≠ none
      · rw [if_pos hb', if_pos (hb.1 hb')]
        rcases i2 with i2 | i2
        · exact i2
        · exfalso
          rcases hbw : b.waves with _ | v
          · have := w7 hbw
            rw [n2, if_pos ⟨not_not.1 haw, hb'⟩] at this
            obtain ⟨v, hv, _⟩ := this
            rw [hv] at i2; cases i2.1
          · rw [w6 v hbw] at i2; cases i2.1
      · rw [if_neg hb', if_neg fun hc => hb' (hb.2 hc)]
  · rcases hbw : b.ratios with _ | v
    · refine .inr ⟨rfl, ?_⟩
      have := r7 hbw
      simp only [w3, n3, hb] at this
      split at this
      · rename_i hc
        rw [if_pos hc]
        obtain ⟨v, hv, hv'⟩ := this
        rcases i3 with i2 | i2
        · rw [hv] at i2; cases i2; exact hv'
        · rw [hv] at i2; cases i2.1
      · rename_i hc
        rw [if_neg hc]
        rcases i3 with i2 | i2
        · rw [this] at i2; cases i2
        · exact i2.2
    · rw [r6 v hbw] at i3
      rcases i3 with i2 | i2
      · exact .inl i2
      · cases i2.1
  · rw [r5, w3, n3, w2, w4, n5]
    split
    · rfl
    · rename_i haw
      by_cases hb' : b1.names ≠ none
      · rw [if_pos hb', if_pos (hb.1 hb')]
        rcases i3 with i2 | i2
        · exact i2
        · exfalso
          rcases hbw : b.ratios with _ | v
          · have := r7 hbw
            rw [w3, n3, if_pos ⟨not_not.1 haw, hb'⟩] at this
            obtain ⟨v, hv, _⟩ := this
            rw [hv] at i2; cases i2.1
          · rw [r6 v hbw] at i2; cases i2.1
      · rw [if_neg hb', if_neg fun hc => hb' (hb.2 hc)]

/-- What was given decides: names on the fit object alone leave the spectrum to its group. -/
example : ∃ a' b', setup2D none (some "Hbeta") ⟨some ["HA6565"], none, some [2]⟩
    ⟨none, none, none⟩ = .ok (a', b') ∧ a' = ⟨some ["HA6565"], none, some [2]⟩ ∧
    b' = ⟨some ["HB4863"], some [4862.71], some [1]⟩ :=
  ⟨_, _, by decide +kernel, rfl, rfl⟩

/-- **C62**, negation (ignored): line names, wavelengths and ratios given to the fit object
alone do not reach the spectrum: it keeps its own group, or the fit object cannot be
constructed at all when the spectrum has no group. -/
theorem C62_false_ignored :
    (∃ a' b', setup2D none (some "OIII") ⟨some ["HA6565"], some [6564.60], some [1]⟩
        ⟨none, none, none⟩ = .ok (a', b') ∧ a'.names = some ["HA6565"] ∧
        b'.names = some ["OIII5008", "OIII4960"]) ∧
    setup2D none none ⟨some ["HA6565"], some [6564.60], some [1]⟩ ⟨none, none, none⟩ =
      .error .valueError := by
  refine ⟨⟨⟨some ["HA6565"], some [6564.60], some [1]⟩,
    ⟨some ["OIII5008", "OIII4960"], some [5008.24, 4960.295], some [1, 0.333333]⟩,
    by decide +kernel, rfl, rfl⟩, by decide +kernel⟩

/-- **C62**, negation (mixed): with different names on the fit object and on the spectrum,
the spectrum ends up with the names of one line and the rest wavelength of the other. -/
theorem C62_false_mixed :
    ∃ a' b', setup2D none none ⟨some ["HA6565"], none, none⟩ ⟨some ["OIII5008"], none, none⟩ =
        .ok (a', b') ∧ b'.names = some ["OIII5008"] ∧ b'.waves = some [6564.60] := by
  exact ⟨⟨some ["HA6565"], some [6564.60], some [1]⟩, ⟨some ["OIII5008"], some [6564.60], some [1]⟩,
    by decide +kernel, rfl, rfl⟩

end Misfit
