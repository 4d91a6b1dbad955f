import Verif.Model.VertPos
import Verif.Model.Trim
import Verif.Props.Grid
import Mathlib.Algebra.Order.Ring.Rat
import Mathlib.Data.Rat.Floor

/-!
# C95–C98: position of the object
-/

namespace Misfit
variable {K : Type} [Field K] [LinearOrder K] [IsStrictOrderedRing K] [FloorRing K]

theorem npIndex_in (a : List K) (i : Int) (h0 : 0 ≤ i) (h1 : i < a.length) :
    ∃ x, a[i.toNat]? = some x ∧ npIndex a i = .ok x := by
  have hlt : i.toNat < a.length := by omega
  refine ⟨a[i.toNat], List.getElem?_eq_getElem hlt, ?_⟩
  unfold npIndex
  simp only [if_neg (not_lt.2 h0)]
  rw [List.getElem?_eq_getElem hlt]

theorem npIndex_neg (a : List K) (i : Int) (h0 : i < 0) (h1 : 0 ≤ i + a.length) :
    ∃ x, a[(i + a.length).toNat]? = some x ∧ npIndex a i = .ok x := by
  have hlt : (i + a.length).toNat < a.length := by omega
  refine ⟨a[(i + a.length).toNat], List.getElem?_eq_getElem hlt, ?_⟩
  unfold npIndex
  simp only [if_pos h0, if_neg (not_lt.2 h1)]
  rw [List.getElem?_eq_getElem hlt]

theorem closestRow_range (n : Nat) (hn : 0 < n) (m : Int) : 0 ≤ closestRow n m ∧ closestRow n m < n := by
  unfold closestRow
  split
  · omega
  · split <;> omega

/-- what holds of every single fit: rounding, symmetric window -/
structure FitOf (dither : Bool) (pix : K) (pos d : K) (r : VertRes K) : Prop where
  pos : (r.m0 : K) + r.shift = pos
  small : |r.shift| ≤ 1 / 2
  low : r.m0 - r.mMin = r.mMax - r.m0
  wide : dither = true → 0 ≤ d → d / 2 - 1 / 2 ≤ ((r.mMax - r.m0 : Int) : K) ∧
    ((r.mMax - r.m0 : Int) : K) < d / 2 + 3 / 2
  plain : dither = false → r.mMax - r.m0 = ⌈3 / 2 / pix / 2⌉

theorem vertCut_wide (pix : K) (mu d : K) (off : Int) (hd : 0 ≤ d) (m0 : Int) (hm : |(m0 : K) - (mu + off)| ≤ 1 / 2) :
    d / 2 - 1 / 2 ≤ (vertCut true pix m0 mu d off : K) ∧ (vertCut true pix m0 mu d off : K) < d / 2 + 3 / 2 := by
  unfold vertCut
  simp only [if_true]
  have h1 := npRound_near (mu - d)
  have h2 := npRound_near (mu + d)
  generalize npRound (mu - d) = a at h1
  generalize npRound (mu + d) = b at h2
  have key : ∀ x y : K, |x - (y)| ≤ 1 → 0 ≤ y → y - 1 ≤ |x| ∧ |x| ≤ y + 1 := by
    intro x y h hy
    rw [abs_le] at h
    refine ⟨?_, ?_⟩
    · have := le_abs_self x
      linarith [h.1]
    · rw [abs_le]
      constructor <;> linarith [h.1, h.2]
  rw [abs_le] at h1 h2 hm
  have ha := key (((m0 - (a + off) : Int) : K)) d (by
    rw [abs_le]; push_cast; constructor <;> linarith [h1.1, h1.2, hm.1, hm.2]) hd
  have hb := key (-((m0 - (b + off) : Int) : K)) d (by
    rw [abs_le]; push_cast; constructor <;> linarith [h2.1, h2.2, hm.1, hm.2]) hd
  rw [abs_neg] at hb
  have e : ((|m0 - (a + off)| + |m0 - (b + off)| : Int) : K) =
      |((m0 - (a + off) : Int) : K)| + |((m0 - (b + off) : Int) : K)| := by
    push_cast
    rfl
  rw [e]
  generalize |((m0 - (a + off) : Int) : K)| = p at ha
  generalize |((m0 - (b + off) : Int) : K)| = q at hb
  have h3 := Int.le_ceil ((p + q) / 2 / 2)
  have h4 := Int.ceil_lt_add_one ((p + q) / 2 / 2)
  constructor <;> linarith [ha.1, ha.2, hb.1, hb.2]

theorem vertStep_fit (dither : Bool) (pix : K) (snr : List K) (mu d : K) (r : VertRes K)
    (h : vertStep dither pix snr mu d = .ok r) : FitOf dither pix mu d r ∧ r.m0 = npRound mu ∧
      npIndex snr (closestRow snr.length r.m0) = .ok r.snr := by
  unfold vertStep at h
  simp only [bind, Except.bind] at h
  cases hs : npIndex snr (closestRow snr.length (npRound mu)) with
  | error e => rw [hs] at h; cases h
  | ok s =>
    rw [hs] at h
    simp only [Except.ok.injEq] at h
    subst h
    have hn := npRound_near mu
    refine ⟨⟨by ring, ?_, by ring, fun hd h0 => ?_, fun hd => ?_⟩, rfl, hs⟩
    · rw [abs_sub_comm] at hn
      exact hn
    · subst hd
      have := vertCut_wide pix mu d 0 h0 (npRound mu) (by simpa using hn)
      simpa using this
    · subst hd
      simp [vertCut]

theorem vertRefused_none {dither : Bool} {n : Nat} (h : vertRefused dither n = none) : 4 ≤ n ∧ (dither = true → 5 ≤ n) := by
  unfold vertRefused at h
  split at h
  · cases h
  · cases dither <;> simp at h ⊢ <;> omega

theorem vertRefused_of {dither : Bool} {n : Nat} (h : 5 ≤ n) : vertRefused dither n = none := by
  unfold vertRefused
  rw [if_neg (by omega), if_neg (by split <;> omega)]

theorem vertTrimRefused_of {dither : Bool} {n : Nat} (h : 4 ≤ n) : vertTrimRefused dither n = none := by
  unfold vertTrimRefused
  rw [if_neg (by omega), if_neg (by split <;> omega)]

theorem vertTrimRefused_none {dither : Bool} {n : Nat} (h : vertTrimRefused dither n = none) : 3 ≤ n := by
  unfold vertTrimRefused at h
  split at h
  · cases h
  · cases dither <;> simp at h ⊢ <;> omega

theorem vertTrimmed_fit (dither : Bool) (pix : K) (snr : List K) (y d : K) (r : VertRes K)
    (h : vertTrimmed dither pix snr y d = .ok r) : FitOf dither pix y d r ∧ r.m0 = npRound (y - 5) + 5 ∧
      10 < snr.length ∧
      npIndex ((snr.drop 5).take (snr.length - 10)) (closestRow (snr.length - 10) r.m0 - 5) = .ok r.snr := by
  unfold vertTrimmed at h
  cases hl : vertTrimRefused dither (snr.length - 10) with
  | some e => rw [hl] at h; cases h
  | none =>
    rw [hl] at h
    have hl := vertTrimRefused_none hl
    simp only [bind, Except.bind] at h
    have hlen : ((snr.drop 5).take (snr.length - 10)).length = snr.length - 10 := by
      rw [List.length_take, List.length_drop]
      omega
    rw [hlen] at h
    cases hs : npIndex ((snr.drop 5).take (snr.length - 10))
        (closestRow (snr.length - 10) (npRound (y - 5) + 5) - 5) with
    | error e => rw [hs] at h; cases h
    | ok s =>
      rw [hs] at h
      simp only [Except.ok.injEq] at h
      subst h
      have hn := npRound_near (y - 5)
      refine ⟨⟨by push_cast; ring, ?_, by ring, fun hd h0 => ?_, fun hd => ?_⟩, rfl, by omega, hs⟩
      · rw [abs_sub_comm] at hn
        push_cast
        rw [show y - 5 + 5 - ((npRound (y - 5) : K) + 5) = y - 5 - (npRound (y - 5) : K) by ring]
        exact hn
      · subst hd
        have := vertCut_wide pix (y - 5) d 5 h0 (npRound (y - 5) + 5) (by
          push_cast
          rw [show (npRound (y - 5) : K) + 5 - (y - 5 + 5) = (npRound (y - 5) : K) - (y - 5) by ring]
          exact hn)
        simpa using this
      · subst hd
        simp [vertCut]

/-- **C95** Whatever the fits return: the reported position (row plus fraction, fraction at most half a row) is either the one of
the first fit or the given one; the window is symmetric about the reported row; with dither it ends half way
to the negative images to within 3/2 rows, otherwise it has the fixed width; and unless the check is skipped
the reported row is at most two rows from the given position. -/
theorem C95_position (dither : Bool) (pix : K) (snr : List K) (y : K) (skip : Bool) (mu1 d1 d2 d3 : K) (r : VertRes K)
    (h : vertPosition dither pix snr (some y) skip mu1 d1 d2 d3 = .ok r) :
    (∃ pos d, (pos = mu1 ∨ pos = y) ∧ (d = d1 ∨ d = d2 ∨ d = d3) ∧ FitOf dither pix pos d r) ∧
    (skip = false → |(r.m0 : K) - y| ≤ 2) := by
  unfold vertPosition at h
  cases hr : vertRefused dither snr.length with
  | some e => rw [hr] at h; cases h
  | none =>
  rw [hr] at h
  simp only [bind, Except.bind] at h
  cases h1 : vertStep dither pix snr mu1 d1 with
  | error e => rw [h1] at h; cases h
  | ok r1 =>
    rw [h1] at h
    simp only at h
    obtain ⟨f1, -, -⟩ := vertStep_fit _ _ _ _ _ _ h1
    have near : ∀ d (r : VertRes K), FitOf dither pix y d r → |(r.m0 : K) - y| ≤ 2 := by
      intro d r hf
      have := hf.small
      rw [← abs_neg] at this
      have e : (r.m0 : K) - y = -r.shift := by rw [← hf.pos]; ring
      rw [e]
      linarith
    by_cases hc : 2 < |y - (r1.m0 : K)| ∧ skip = false
    · rw [if_pos hc] at h
      cases h2 : vertStep dither pix snr y d2 with
      | error e => rw [h2] at h; cases h
      | ok r2 =>
        rw [h2] at h
        simp only at h
        obtain ⟨f2, -, -⟩ := vertStep_fit _ _ _ _ _ _ h2
        split at h
        · obtain ⟨f3, -, -⟩ := vertTrimmed_fit _ _ _ _ _ _ h
          exact ⟨⟨y, d3, Or.inr rfl, Or.inr (Or.inr rfl), f3⟩, fun _ => near _ _ f3⟩
        · cases h
          exact ⟨⟨y, d2, Or.inr rfl, Or.inr (Or.inl rfl), f2⟩, fun _ => near _ _ f2⟩
    · rw [if_neg hc] at h
      split at h
      · obtain ⟨f3, -, -⟩ := vertTrimmed_fit _ _ _ _ _ _ h
        exact ⟨⟨y, d3, Or.inr rfl, Or.inr (Or.inr rfl), f3⟩, fun _ => near _ _ f3⟩
      · cases h
        refine ⟨⟨mu1, d1, Or.inl rfl, Or.inl rfl, f1⟩, fun hs => ?_⟩
        rw [abs_sub_comm]
        by_contra hc'
        exact hc ⟨not_le.1 hc', hs⟩

theorem vertStep_ok (dither : Bool) (pix : K) (snr : List K) (hn : 0 < snr.length) (mu d : K) :
    ∃ r, vertStep dither pix snr mu d = .ok r := by
  obtain ⟨h0, h1⟩ := closestRow_range snr.length hn (npRound mu)
  obtain ⟨x, -, hx⟩ := npIndex_in snr _ h0 h1
  unfold vertStep
  simp only [bind, Except.bind, hx]
  exact ⟨_, rfl⟩

/-- **C95** With at least 15 rows a position is always found. -/
theorem C95_returns (dither : Bool) (pix : K) (snr : List K) (hn : 15 ≤ snr.length) (y : K) (skip : Bool)
    (mu1 d1 d2 d3 : K) : ∃ r, vertPosition dither pix snr (some y) skip mu1 d1 d2 d3 = .ok r := by
  unfold vertPosition
  rw [vertRefused_of (by omega)]
  obtain ⟨r1, h1⟩ := vertStep_ok dither pix snr (by omega) mu1 d1
  obtain ⟨r2, h2⟩ := vertStep_ok dither pix snr (by omega) y d2
  have h3 : ∃ r, vertTrimmed dither pix snr y d3 = .ok r := by
    unfold vertTrimmed
    rw [vertTrimRefused_of (by omega)]
    have hlen : ((snr.drop 5).take (snr.length - 10)).length = snr.length - 10 := by
      rw [List.length_take, List.length_drop]
      omega
    obtain ⟨h0, h1⟩ := closestRow_range (snr.length - 10) (by omega) (npRound (y - 5) + 5)
    have : ∃ x, npIndex ((snr.drop 5).take (snr.length - 10))
        (closestRow (snr.length - 10) (npRound (y - 5) + 5) - 5) = .ok x := by
      by_cases hneg : closestRow (snr.length - 10) (npRound (y - 5) + 5) - 5 < 0
      · obtain ⟨x, -, hx⟩ := npIndex_neg ((snr.drop 5).take (snr.length - 10)) _ hneg (by rw [hlen]; omega)
        exact ⟨x, hx⟩
      · obtain ⟨x, -, hx⟩ := npIndex_in ((snr.drop 5).take (snr.length - 10))
          (closestRow (snr.length - 10) (npRound (y - 5) + 5) - 5) (by omega) (by rw [hlen]; omega)
        exact ⟨x, hx⟩
    obtain ⟨x, hx⟩ := this
    simp only [bind, Except.bind, hlen, hx]
    exact ⟨_, rfl⟩
  simp only [bind, Except.bind, h1]
  split
  · rw [h2]
    simp only
    split
    · exact h3
    · exact ⟨_, rfl⟩
  · split
    · exact h3
    · exact ⟨_, rfl⟩

/-- **C95** A spectrum of five to ten rows whose window is too narrow (fewer than five rows) raises ValueError: it cannot be trimmed. -/
theorem C95_short (dither : Bool) (pix : K) (snr : List K) (hn : snr.length ≤ 10) (h0 : 5 ≤ snr.length) (y : K)
    (mu1 d1 d2 d3 : K) (r1 : VertRes K) (h1 : vertStep dither pix snr mu1 d1 = .ok r1)
    (hnarrow : r1.mMax - r1.mMin < 5) :
    vertPosition dither pix snr (some y) true mu1 d1 d2 d3 = .error .valueError := by
  unfold vertPosition
  rw [vertRefused_of h0]
  simp only [bind, Except.bind, h1]
  rw [if_neg (by simp)]
  rw [if_pos (Or.inr hnarrow)]
  unfold vertTrimmed vertTrimRefused
  rw [if_pos (by omega)]

/-- a case of C95 with dither, without and with replacement by the given position -/
example : vertPosition (K := ℚ) true (1 / 10) (List.replicate 40 1) (some 20) false (203 / 10) 16 16 16 =
      .ok ⟨20, 3 / 10, 1, 12, 28⟩ ∧
    vertPosition (K := ℚ) true (1 / 10) (List.replicate 40 1) (some 20) false 30 16 10 16 = .ok ⟨20, 0, 1, 15, 25⟩ ∧
    vertPosition (K := ℚ) false (1 / 2) (List.replicate 10 1) (some 5) false 5 1 1 1 = .error .valueError := by
  decide +kernel

/-! ## C96 -/

/-- **C96** (partial): if the reported row has at least five rows below it and more than ten rows above it, the reported S/N is the
one of the reported row.  Missing: rows near the edges after trimming, see `C96_false`. -/
theorem C96_row_partial (dither : Bool) (pix : K) (snr : List K) (y : K) (skip : Bool) (mu1 d1 d2 d3 : K) (r : VertRes K)
    (h : vertPosition dither pix snr (some y) skip mu1 d1 d2 d3 = .ok r)
    (hl : 5 ≤ r.m0) (hu : r.m0 < (snr.length : Int) - 10) : snr[r.m0.toNat]? = some r.snr := by
  have step : ∀ mu d (r' : VertRes K), vertStep dither pix snr mu d = .ok r' → r' = r → snr[r.m0.toNat]? = some r.snr := by
    intro mu d r' hr' e
    subst e
    obtain ⟨-, -, hs⟩ := vertStep_fit _ _ _ _ _ _ hr'
    have hc : closestRow snr.length r'.m0 = r'.m0 := by
      unfold closestRow
      rw [if_neg (by omega), if_neg (by omega)]
    rw [hc] at hs
    obtain ⟨x, hx, hx'⟩ := npIndex_in snr r'.m0 (by omega) (by omega)
    rw [hx'] at hs
    rw [hx, Except.ok.inj hs]
  have trim : vertTrimmed dither pix snr y d3 = .ok r → snr[r.m0.toNat]? = some r.snr := by
    intro hr
    obtain ⟨-, -, hlen, hs⟩ := vertTrimmed_fit _ _ _ _ _ _ hr
    have hc : closestRow (snr.length - 10) r.m0 = r.m0 := by
      unfold closestRow
      rw [if_neg (by omega), if_neg (by omega)]
    rw [hc] at hs
    have hlen' : ((snr.drop 5).take (snr.length - 10)).length = snr.length - 10 := by
      rw [List.length_take, List.length_drop]
      omega
    obtain ⟨x, hx, hx'⟩ := npIndex_in ((snr.drop 5).take (snr.length - 10)) (r.m0 - 5) (by omega) (by rw [hlen']; omega)
    rw [hx'] at hs
    rw [← Except.ok.inj hs, ← hx, List.getElem?_take, if_pos (by omega), List.getElem?_drop]
    congr 1
    omega
  unfold vertPosition at h
  cases hr : vertRefused dither snr.length with
  | some e => rw [hr] at h; cases h
  | none =>
  rw [hr] at h
  simp only [bind, Except.bind] at h
  cases h1 : vertStep dither pix snr mu1 d1 with
  | error e => rw [h1] at h; cases h
  | ok r1 =>
    rw [h1] at h
    simp only at h
    split at h
    · cases h2 : vertStep dither pix snr y d2 with
      | error e => rw [h2] at h; cases h
      | ok r2 =>
        rw [h2] at h
        simp only at h
        split at h
        · exact trim h
        · exact step _ _ _ h2 (Except.ok.inj h)
    · split at h
      · exact trim h
      · exact step _ _ _ h1 (Except.ok.inj h)

/-- **C96**, negation: after trimming, the S/N of a row `m < 5` is read at row `m + n - 10` (Python's negative index), and every
row from `n - 10` on is read at row `n - 11`. -/
theorem C96_false (dither : Bool) (pix : K) (snr : List K) (hn : 16 ≤ snr.length) (y : K) (d3 : K) (r : VertRes K)
    (h : vertTrimmed dither pix snr y d3 = .ok r) :
    (0 ≤ r.m0 → r.m0 < 5 → snr[(r.m0 + snr.length - 10).toNat]? = some r.snr) ∧
    ((snr.length : Int) - 10 ≤ r.m0 → snr[snr.length - 11]? = some r.snr) := by
  obtain ⟨-, -, hlen, hs⟩ := vertTrimmed_fit _ _ _ _ _ _ h
  have hlen' : ((snr.drop 5).take (snr.length - 10)).length = snr.length - 10 := by
    rw [List.length_take, List.length_drop]
    omega
  constructor
  · intro h0 h5
    have hc : closestRow (snr.length - 10) r.m0 = min r.m0 ((snr.length : Int) - 11) := by
      unfold closestRow
      split
      · omega
      · rw [if_neg (by omega)]
        omega
    rw [hc] at hs
    have hmin : min r.m0 ((snr.length : Int) - 11) = r.m0 := by omega
    rw [hmin] at hs
    obtain ⟨x, hx, hx'⟩ := npIndex_neg ((snr.drop 5).take (snr.length - 10)) (r.m0 - 5) (by omega) (by rw [hlen']; omega)
    rw [hx'] at hs
    rw [hlen'] at hx
    rw [← Except.ok.inj hs, ← hx, List.getElem?_take, if_pos (by omega), List.getElem?_drop]
    congr 1
    omega
  · intro hu
    have hc : closestRow (snr.length - 10) r.m0 = (snr.length : Int) - 11 := by
      unfold closestRow
      rw [if_pos (by omega)]
      omega
    rw [hc] at hs
    obtain ⟨x, hx, hx'⟩ := npIndex_in ((snr.drop 5).take (snr.length - 10)) ((snr.length : Int) - 11 - 5) (by omega)
      (by rw [hlen']; omega)
    rw [hx'] at hs
    rw [← Except.ok.inj hs, ← hx, List.getElem?_take, if_pos (by omega), List.getElem?_drop]
    congr 1
    omega

/-- **C96**, exact: after trimming, an image of up to ten rows is a ValueError, and so is one of 13 rows with dither; one of 11 or 12 rows is a TypeError; else let `c` be the reported row
limited to `0 … n - 11`.  The S/N is that of row `c` if `c ≥ 5` and of row `c + n - 10` if not, where a shorter
image than `15 - c` rows raises IndexError.  So it belongs to the reported row exactly for rows
`5 … n - 11` (for pairwise different S/N). -/
theorem C96_exact (dither : Bool) (pix : K) (snr : List K) (y d3 : K) (m c n : Int) (hn : n = snr.length)
    (hm : m = npRound (y - 5) + 5) (hc : c = max 0 (min m (n - 11))) :
    (n ≤ 10 ∨ (dither = true ∧ n = 13) → vertTrimmed dither pix snr y d3 = .error .valueError) ∧
    (n = 11 ∨ n = 12 → vertTrimmed dither pix snr y d3 = .error .typeError) ∧
    (13 ≤ n → (dither = true → n ≠ 13) → n < 15 - c → vertTrimmed dither pix snr y d3 = .error .indexError) ∧
    (13 ≤ n → (dither = true → n ≠ 13) → 15 - c ≤ n → ∃ r, vertTrimmed dither pix snr y d3 = .ok r ∧ r.m0 = m ∧
      snr[(if c < 5 then c + n - 10 else c).toNat]? = some r.snr) := by
  have hl : ((snr.drop 5).take (snr.length - 10)).length = snr.length - 10 := by
    rw [List.length_take, List.length_drop]; omega
  have hcl : 10 < n → closestRow (snr.length - 10) m = c := by
    intro h; unfold closestRow; split <;> [skip; split] <;> omega
  have hok : 13 ≤ n → (dither = true → n ≠ 13) → vertTrimRefused dither (snr.length - 10) = none := by
    intro h hd
    unfold vertTrimRefused
    rw [if_neg (by rintro (h | ⟨h, h'⟩) <;> [skip; have := hd h] <;> omega), if_neg]
    split
    · rename_i h'
      have := hd h'
      omega
    · omega
  unfold vertTrimmed
  simp only [← hm, hl]
  refine ⟨fun h => ?_, fun h => ?_, fun h hd h' => ?_, fun h hd h' => ?_⟩
  · have : vertTrimRefused dither (snr.length - 10) = some .valueError := by
      unfold vertTrimRefused
      rw [if_pos (by rcases h with h | ⟨h, h'⟩ <;> [left; (refine Or.inr ⟨h, ?_⟩)] <;> omega)]
    rw [this]
  · have : vertTrimRefused dither (snr.length - 10) = some .typeError := by
      unfold vertTrimRefused
      rw [if_neg (by omega), if_pos (by split <;> omega)]
    rw [this]
  · rw [hok h hd]
    simp only
    rw [hcl (by omega)]
    have : npIndex ((snr.drop 5).take (snr.length - 10)) (c - 5) = .error .indexError := by
      unfold npIndex
      simp only [hl]
      rw [if_pos (by omega)]
    rw [this]
    rfl
  · rw [hok h hd]
    simp only
    rw [hcl (by omega)]
    by_cases h5 : c < 5
    · obtain ⟨x, hx, hx'⟩ := npIndex_neg ((snr.drop 5).take (snr.length - 10)) (c - 5) (by omega) (by rw [hl]; omega)
      rw [hx']
      refine ⟨_, rfl, rfl, ?_⟩
      rw [hl, List.getElem?_take, if_pos (by omega), List.getElem?_drop] at hx
      rw [if_pos h5, ← hx]
      congr 1
      omega
    · obtain ⟨x, hx, hx'⟩ := npIndex_in ((snr.drop 5).take (snr.length - 10)) (c - 5) (by omega) (by rw [hl]; omega)
      rw [hx']
      refine ⟨_, rfl, rfl, ?_⟩
      rw [List.getElem?_take, if_pos (by omega), List.getElem?_drop] at hx
      rw [if_neg h5, ← hx]
      congr 1
      omega

/-- C96, negation on the public function: an object in row 2 of 20, the reported S/N is the one of row 12 -/
theorem C96_false_witness :
    vertPosition (K := ℚ) false (1 / 2) ((List.range 20).map fun k : Nat => (k : ℚ)) (some 2) false 2 1 1 1 =
      .ok ⟨2, 0, 12, 0, 4⟩ := by decide +kernel

/-! ## C97 -/

/-- **C97** (partial): without a given position, a first window of at least five rows and at most `n - 5` rows is
returned. Missing: `C97_false`. -/
theorem C97_without_position_partial (dither : Bool) (pix : K) (snr : List K) (skip : Bool) (mu1 d1 d2 d3 : K)
    (r : VertRes K) (h1 : vertStep dither pix snr mu1 d1 = .ok r)
    (hw : 5 ≤ r.mMax - r.mMin ∧ r.mMax - r.mMin ≤ (snr.length : Int) - 5) :
    vertPosition dither pix snr none skip mu1 d1 d2 d3 = .ok r ∧ FitOf dither pix mu1 d1 r := by
  refine ⟨?_, (vertStep_fit _ _ _ _ _ _ h1).1⟩
  unfold vertPosition
  rw [vertRefused_of (by omega)]
  simp only [bind, Except.bind, h1]
  rw [if_neg (by omega)]

/-- **C97**, negation: without dither, pixels of 0.375 arcsec or more make every call without a given position raise
TypeError. -/
theorem C97_false (pix : K) (hp : 3 / 8 ≤ pix) (snr : List K) (hn : 2 ≤ snr.length) (skip : Bool) (mu1 d1 d2 d3 : K) :
    vertPosition false pix snr none skip mu1 d1 d2 d3 = .error .typeError := by
  obtain ⟨r, hr⟩ := vertStep_ok false pix snr (by omega) mu1 d1
  obtain ⟨hf, -, -⟩ := vertStep_fit _ _ _ _ _ _ hr
  have hplain := hf.plain rfl
  have hc : ⌈3 / 2 / pix / 2⌉ ≤ 2 := by
    rw [Int.ceil_le]
    have h0 : 0 < pix := lt_of_lt_of_le (by norm_num) hp
    have : (3 : K) / 2 / pix / 2 = (3 / 4) / pix := by field_simp; norm_num
    rw [this]
    push_cast
    rw [div_le_iff₀ h0]
    linarith
  unfold vertPosition
  by_cases h4 : snr.length < 4
  · have hre : vertRefused false snr.length = some .typeError := by
      unfold vertRefused
      rw [if_neg (by simp; omega), if_pos (by simpa using h4)]
    rw [hre]
  have hre : vertRefused false snr.length = none := by
    unfold vertRefused
    rw [if_neg (by simp; omega), if_neg (by simpa using h4)]
  rw [hre]
  simp only [bind, Except.bind, hr]
  rw [if_pos]
  right
  have := hf.low
  omega

/-- **C97**, exactly: without dither and without a given position the call returns if and only if the pixels are smaller than 0.375 arcsec and the
window of 1.5 arcsec leaves at least five of the rows; the fit plays no role.  Otherwise it raises TypeError. -/
theorem C97_exact (pix : K) (hp : 0 < pix) (snr : List K) (hn : 2 ≤ snr.length) (skip : Bool) (mu1 d1 d2 d3 : K) :
    ((∃ r, vertPosition false pix snr none skip mu1 d1 d2 d3 = .ok r) ↔
      pix < 3 / 8 ∧ 2 * ⌈3 / 4 / pix⌉ + 5 ≤ (snr.length : Int)) ∧
    ∀ e, vertPosition false pix snr none skip mu1 d1 d2 d3 = .error e → e = .typeError := by
  obtain ⟨r, hr⟩ := vertStep_ok false pix snr (by omega) mu1 d1
  obtain ⟨hf, -, -⟩ := vertStep_fit _ _ _ _ _ _ hr
  have hplain := hf.plain rfl
  have hlow := hf.low
  have hc : ⌈3 / 2 / pix / 2⌉ = ⌈3 / 4 / pix⌉ := by
    congr 1
    have := hp.ne'
    field_simp
    norm_num
  have hsmall : pix < 3 / 8 ↔ 3 ≤ ⌈3 / 4 / pix⌉ := by
    rw [show (3 : Int) = 2 + 1 from rfl, Int.add_one_le_iff, Int.lt_ceil, lt_div_iff₀ hp]
    push_cast
    constructor <;> intro h <;> linarith
  have hw : r.mMax - r.mMin = 2 * ⌈3 / 4 / pix⌉ := by
    rw [hc] at hplain
    omega
  by_cases h4 : snr.length < 4
  · have hre : vertRefused false snr.length = some .typeError := by
      unfold vertRefused
      rw [if_neg (by simp; omega), if_pos (by simpa using h4)]
    have hv : vertPosition false pix snr none skip mu1 d1 d2 d3 = .error .typeError := by
      unfold vertPosition
      rw [hre]
    rw [hv, hsmall]
    exact ⟨⟨fun ⟨r, h⟩ => (by cases h), fun h2 => by omega⟩, fun e h => by cases h; rfl⟩
  have hre : vertRefused false snr.length = none := by
    unfold vertRefused
    rw [if_neg (by simp; omega), if_neg (by simpa using h4)]
  have hv : vertPosition false pix snr none skip mu1 d1 d2 d3 =
      if r.mMax - r.mMin > (snr.length : Int) - 5 ∨ r.mMax - r.mMin < 5 then .error .typeError else .ok r := by
    unfold vertPosition
    rw [hre]
    simp only [bind, Except.bind, hr]
  rw [hv, hsmall]
  split
  · rename_i h
    exact ⟨⟨fun ⟨r, h⟩ => (by cases h), fun h2 => by omega⟩, fun e h => by cases h; rfl⟩
  · rename_i h
    exact ⟨⟨fun _ => by omega, fun _ => ⟨r, rfl⟩⟩, fun e h => by cases h⟩

example : vertPosition (K := ℚ) false (1 / 10) (List.replicate 40 1) none false (203 / 10) 16 16 16 =
      .ok ⟨20, 3 / 10, 1, 12, 28⟩ ∧
    vertPosition (K := ℚ) true (1 / 10) (List.replicate 40 1) none false 20 3 3 3 = .error .typeError := by
  decide +kernel

/-! ## C98 -/

/-- a series of `get_m0_lam0_pos` calls with the results of their fits -/
def runM0Lam0 (s : LinePos K) : List (Bool × Option K × Option K) → LinePos K
  | [] => s
  | c :: cs => runM0Lam0 (getM0Lam0 s c.1 c.2.1 c.2.2) cs

/-- **C98** After any number of calls with any fit results: the object position `m0 + m0_shift` is `m0` itself, or a position on the
detector within two rows of the extraction position, or within two rows of `m0` for an object detected at S/N of at least
3; the line centre is the initial one or lies in the middle half of the wavelength range. -/
theorem C98_rules (s : LinePos K) (h0 : s.shift = 0) (calls : List (Bool × Option K × Option K)) :
    let s' := runM0Lam0 s calls
    (s'.shift = 0 ∨ ((0 ≤ s'.m0 + s'.shift ∧ s'.m0 + s'.shift ≤ (s.rows : K) - 1) ∧
      (|s'.m0 + s'.shift - s.ypos| ≤ 2 ∨ (|s'.shift| ≤ 2 ∧ 3 ≤ s.peakSnr)))) ∧
    (s'.lam0 = s.lam0 ∨ (s.lamMin + (s.lamMax - s.lamMin) / 4 ≤ s'.lam0 ∧
      s'.lam0 ≤ s.lamMax - (s.lamMax - s.lamMin) / 4)) ∧
    s'.m0 = s.m0 := by
  have key : ∀ (calls : List (Bool × Option K × Option K)) (t : LinePos K),
      (t.rows = s.rows ∧ t.ypos = s.ypos ∧ t.peakSnr = s.peakSnr ∧ t.lamMin = s.lamMin ∧ t.lamMax = s.lamMax ∧ t.m0 = s.m0) →
      (t.shift = 0 ∨ ((0 ≤ t.m0 + t.shift ∧ t.m0 + t.shift ≤ (s.rows : K) - 1) ∧
        (|t.m0 + t.shift - s.ypos| ≤ 2 ∨ (|t.shift| ≤ 2 ∧ 3 ≤ s.peakSnr)))) →
      (t.lam0 = s.lam0 ∨ (s.lamMin + (s.lamMax - s.lamMin) / 4 ≤ t.lam0 ∧
        t.lam0 ≤ s.lamMax - (s.lamMax - s.lamMin) / 4)) →
      (((runM0Lam0 t calls).shift = 0 ∨ ((0 ≤ (runM0Lam0 t calls).m0 + (runM0Lam0 t calls).shift ∧
          (runM0Lam0 t calls).m0 + (runM0Lam0 t calls).shift ≤ (s.rows : K) - 1) ∧
        (|(runM0Lam0 t calls).m0 + (runM0Lam0 t calls).shift - s.ypos| ≤ 2 ∨
          (|(runM0Lam0 t calls).shift| ≤ 2 ∧ 3 ≤ s.peakSnr)))) ∧
      ((runM0Lam0 t calls).lam0 = s.lam0 ∨ (s.lamMin + (s.lamMax - s.lamMin) / 4 ≤ (runM0Lam0 t calls).lam0 ∧
        (runM0Lam0 t calls).lam0 ≤ s.lamMax - (s.lamMax - s.lamMin) / 4)) ∧
      (runM0Lam0 t calls).m0 = s.m0) := by
    intro calls
    induction calls with
    | nil => exact fun t ht h1 h2 => ⟨h1, h2, ht.2.2.2.2.2⟩
    | cons c cs ih =>
      intro t ht h1 h2
      obtain ⟨hr, hy, hp, ha, hb, hm⟩ := ht
      unfold runM0Lam0
      apply ih
      · unfold getM0Lam0
        split <;> exact ⟨hr, hy, hp, ha, hb, hm⟩
      · unfold getM0Lam0
        split
        · simp only
          cases c.2.1 with
          | none => exact Or.inl rfl
          | some mu =>
            simp only
            rw [← hr, ← hy, ← hp]
            split
            · rename_i hin
              split
              · rename_i hc
                right
                rw [show t.m0 + (mu - t.m0) = mu by ring]
                rw [abs_sub_comm] at hc
                exact ⟨hin, Or.inl hc⟩
              · split
                · rename_i hc
                  right
                  rw [show t.m0 + (mu - t.m0) = mu by ring]
                  refine ⟨hin, Or.inr ⟨?_, hc.2.2⟩⟩
                  rw [abs_sub_comm]
                  exact hc.1
                · exact Or.inl rfl
            · exact Or.inl rfl
        · exact Or.inl rfl
      · unfold getM0Lam0
        split
        · simp only
          cases c.2.2 with
          | none => exact h2
          | some mu =>
            simp only
            split
            · rename_i hin
              split
              · rw [ha, hb] at hin
                exact Or.inr hin
              · exact h2
            · exact h2
        · exact h2
  exact key calls s ⟨rfl, rfl, rfl, rfl, rfl, rfl⟩ (Or.inl h0) (Or.inl rfl)

/-- **C98** The whole chain, position search, trimming, and any number of centre determinations: the fitted centre shift
is at most 4 rows. -/
theorem C98_bounded_shift {α : Type} (sp : SpatialSpec K α) (dither : Bool) (pix : K) (snr : List K) (mu1 d1 d2 d3 : K)
    (r : VertRes K) (h : vertPosition dither pix snr (some sp.ypos) false mu1 d1 d2 d3 = .ok r)
    (rec : List (List α) → List (List α) → List (List α) → List (List α) → List Nat) (lam0 lamMin lamMax : K)
    (calls : List (Bool × Option K × Option K)) (sp' : SpatialSpec K α)
    (hsp : sp' = trimSpatial sp dither (r.m0 : K) r.mMin r.mMax rec) :
    |(runM0Lam0 ⟨sp'.m0, sp'.ypos, r.shift, r.snr, 0, lam0, lamMin, lamMax, sp'.nSpatial⟩ calls).shift| ≤ 4 := by
  have h1 := (C95_position _ _ _ _ _ _ _ _ _ _ h).2 rfl
  have hd : sp'.m0 - sp'.ypos = (r.m0 : K) - sp.ypos := by
    rw [hsp]
    unfold trimSpatial
    simp only
    ring
  rw [← hd] at h1
  obtain ⟨h2, -, hm⟩ := C98_rules ⟨sp'.m0, sp'.ypos, r.shift, r.snr, 0, lam0, lamMin, lamMax, sp'.nSpatial⟩ rfl calls
  generalize runM0Lam0 ⟨sp'.m0, sp'.ypos, r.shift, r.snr, 0, lam0, lamMin, lamMax, sp'.nSpatial⟩ calls = s' at h2 hm
  simp only at h2 hm
  rcases h2 with h2 | ⟨-, h2 | ⟨h2, -⟩⟩
  · rw [h2]; norm_num
  · rw [hm] at h2
    rw [abs_le] at h1 h2 ⊢
    constructor <;> linarith [h1.1, h1.2, h2.1, h2.2]
  · linarith

/-- a case: fitted row 12.4, m0 = 12, extraction position 11; the wavelength fit is rejected -/
example : (getM0Lam0 (K := ℚ) ⟨12, 11, 0, 5, 0, 50, 0, 100, 30⟩ true (some (124 / 10)) (some 80)).shift = 4 / 10 ∧
    (getM0Lam0 (K := ℚ) ⟨12, 11, 0, 5, 0, 50, 0, 100, 30⟩ true (some (124 / 10)) (some 80)).lam0 = 50 ∧
    (getM0Lam0 (K := ℚ) ⟨12, 11, 0, 5, 0, 50, 0, 100, 30⟩ true none (some 60)).lam0 = 60 := by
  decide +kernel

end Misfit
