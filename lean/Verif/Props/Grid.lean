import Verif.Model.Grid
import Mathlib.Data.Rat.Floor
import Mathlib.Tactic.Positivity
import Mathlib.Tactic.FieldSimp
import Mathlib.Tactic.Ring
import Mathlib.Tactic.Linarith
import Mathlib.Tactic.NormNum
import Mathlib.Tactic.LinearCombination

/-!
# C35, C36: the model grid
-/

namespace Misfit
variable {K : Type} [Field K] [LinearOrder K] [IsStrictOrderedRing K] [FloorRing K]

theorem linspace_length (a b : K) (n : Nat) : (linspace a b n).length = n := by simp [linspace]

theorem linspace_get (a b : K) (n i : Nat) (hi : i < n) :
    (linspace a b n)[i]? = some (if n = 1 then a else (i : K) * ((b - a) / ((n : K) - 1)) + a) := by
  simp [linspace, hi]

/-- A physical instrument: at least one row and one subpixel, positive pixel scale and slit. -/
structure GridIn.Phys (g : GridIn K) : Prop where
  rows : 0 < g.nWhole
  sub : 0 < g.S
  pix : 0 < g.pixscale
  slit : 0 < g.slit
  padding : 0 ≤ g.fwhm * g.pad

theorem setupGrid_ok (g : GridIn K) (h : g.Phys) : ∃ G, setupGrid g = .ok G ∧
    G.nPixY = g.nWhole * g.S ∧ G.deltY = g.pixscale / g.S ∧ G.deltZ = G.deltY ∧ 0 < G.deltY ∧
    0 < G.nPixX ∧ G.nPixX * G.deltX = g.slit ∧ 0 < G.deltX ∧ G.deltX ≤ G.deltY ∧
    G.nX = G.nPixX + 2 * G.padX ∧ G.nY = G.nPixY + 2 * G.padY ∧ G.nZ = G.nPixY ∧
    G.padY = (npRound (g.fwhm * g.pad / G.deltY)).toNat ∧
    G.padX = (npRound (g.fwhm * g.pad / G.deltX)).toNat ∧
    G.xArr = (linspace (-((G.nPixX : K) / 2 + G.padX - 1 / 2) * G.deltX)
        (((G.nPixX : K) / 2 + G.padX - 1 / 2) * G.deltX) G.nX).map (· - g.xc) ∧
    G.zArr = linspace (-((G.nZ : K) / 2 - 1 / 2) * G.deltZ) (((G.nZ : K) / 2 - 1 / 2) * G.deltZ) G.nZ ∧
    G.yArr = (linspace (-((G.padY : K) - 1 / 2) * G.deltY)
        ((((g.nWhole : K) - 1) * g.S + G.padY - 1 / 2) * G.deltY) G.nY).map
          (· - g.m0fit * g.S * G.deltY) := by
  obtain ⟨h1, h2, h3, h4, h5⟩ := h
  have hS : (0 : K) < g.S := by exact_mod_cast h2
  have hd : 0 < g.pixscale / g.S := by positivity
  have hceil : 0 < (⌈g.slit / (g.pixscale / g.S)⌉).toNat := by
    have : 0 < ⌈g.slit / (g.pixscale / g.S)⌉ := Int.ceil_pos.2 (by positivity)
    omega
  have hn : 0 < nPixXOf g (g.pixscale / g.S) ((g.nWhole * g.S : ℕ) * (g.pixscale / g.S))
      (g.nWhole * g.S) := by
    unfold nPixXOf
    split
    · exact Nat.mul_pos h1 h2
    · exact hceil
  have hle : g.slit / (nPixXOf g (g.pixscale / g.S) ((g.nWhole * g.S : ℕ) * (g.pixscale / g.S))
      (g.nWhole * g.S) : ℕ) ≤ g.pixscale / g.S := by
    rw [div_le_iff₀ (by exact_mod_cast hn), mul_comm, ← div_le_iff₀ hd]
    unfold nPixXOf
    split
    · rename_i e
      rw [← e, mul_div_assoc, div_self hd.ne', mul_one]
    · have h6 := Int.le_ceil (g.slit / (g.pixscale / g.S))
      have h7 : ((⌈g.slit / (g.pixscale / g.S)⌉.toNat : ℕ) : ℤ) = ⌈g.slit / (g.pixscale / g.S)⌉ :=
        Int.toNat_of_nonneg (by omega)
      calc g.slit / (g.pixscale / g.S) ≤ ((⌈g.slit / (g.pixscale / g.S)⌉ : ℤ) : K) := h6
        _ = _ := by rw [← h7]; norm_cast
  unfold setupGrid
  rw [if_neg h2.ne', if_neg h3.ne', if_neg hn.ne']
  refine ⟨_, rfl, rfl, rfl, rfl, hd, hn, ?_, ?_, hle, rfl, rfl, rfl, rfl, rfl, rfl, rfl, rfl⟩
  · have : ((nPixXOf g (g.pixscale / g.S) ((g.nWhole * g.S : ℕ) * (g.pixscale / g.S))
      (g.nWhole * g.S) : ℕ) : K) ≠ 0 := by exact_mod_cast hn.ne'
    exact mul_div_cancel₀ _ this
  · have : (0 : K) < (nPixXOf g (g.pixscale / g.S) ((g.nWhole * g.S : ℕ) * (g.pixscale / g.S))
      (g.nWhole * g.S) : ℕ) := by exact_mod_cast hn
    exact div_pos h4 this

/-- the coordinate of pixel `i` across the slit -/
theorem xArr_get (n p i : Nat) (hn : 0 < n) (d xc : K) (hi : i < n + 2 * p) :
    ((linspace (-((n : K) / 2 + p - 1 / 2) * d) (((n : K) / 2 + p - 1 / 2) * d) (n + 2 * p)).map
      (· - xc))[i]? = some (((i : K) - p + 1 / 2 - (n : K) / 2) * d - xc) := by
  rw [List.getElem?_map, linspace_get _ _ _ _ hi, Option.map_some]
  congr 2
  split
  · rename_i h
    have h1 : n = 1 := by omega
    have h2 : p = 0 := by omega
    have h3 : i = 0 := by omega
    subst h1 h2 h3
    push_cast; ring
  · rename_i h
    have h2 : ((n + 2 * p : ℕ) : K) - 1 ≠ 0 := by
      rw [sub_ne_zero]; exact_mod_cast h
    have h3 : (((n : K) / 2 + p - 1 / 2) * d - -((n : K) / 2 + p - 1 / 2) * d) /
        (((n + 2 * p : ℕ) : K) - 1) = d := by
      rw [div_eq_iff h2]; push_cast; ring
    rw [h3]; ring

/-- C35: across the slit the subpixel centres are equally spaced and symmetric about the slit
centre (which lies at `-xc` relative to the object), the unpadded subpixels `padX … padX+nPixX-1`
tile the slit exactly, and they are not larger than the subpixels along the slit. -/
theorem C35_grid (g : GridIn K) (h : g.Phys) : ∃ G, setupGrid g = .ok G ∧
    G.xArr.length = G.nPixX + 2 * G.padX ∧
    (∀ (i : Nat) (a b : K), G.xArr[i]? = some a → G.xArr[i + 1]? = some b → b - a = G.deltX) ∧
    (∀ (i j : Nat) (a b : K), i + j + 1 = G.xArr.length → G.xArr[i]? = some a → G.xArr[j]? = some b →
      a - -g.xc = -(b - -g.xc)) ∧
    (∃ a, G.xArr[G.padX]? = some a ∧ a - G.deltX / 2 = -g.xc - g.slit / 2) ∧
    (∃ b, G.xArr[G.padX + G.nPixX - 1]? = some b ∧ b + G.deltX / 2 = -g.xc + g.slit / 2) ∧
    G.nPixX * G.deltX = g.slit ∧ 0 < G.deltX ∧ G.deltX ≤ G.deltY := by
  obtain ⟨G, h1, -, -, -, -, hp, hw, hdx, hle, hnX, -, -, -, -, hx, -, -⟩ := setupGrid_ok g h
  refine ⟨G, h1, ?_, ?_, ?_, ?_, ?_, hw, hdx, hle⟩
  · rw [hx, List.length_map, linspace_length, hnX]
  all_goals rw [hx, hnX]
  · intro i a b ha hb
    have hi : i + 1 < G.nPixX + 2 * G.padX := by
      have := (List.getElem?_eq_some_iff.1 hb).1
      simpa [linspace_length] using this
    rw [xArr_get _ _ _ hp _ _ (by omega)] at ha
    rw [xArr_get _ _ _ hp _ _ hi] at hb
    cases ha; cases hb
    push_cast; ring
  · intro i j a b hij ha hb
    rw [List.length_map, linspace_length] at hij
    rw [xArr_get _ _ _ hp _ _ (by omega)] at ha
    rw [xArr_get _ _ _ hp _ _ (by omega)] at hb
    cases ha; cases hb
    have : (i : K) = (G.nPixX : K) + 2 * G.padX - 1 - j := by
      have : ((i + j + 1 : ℕ) : K) = ((G.nPixX + 2 * G.padX : ℕ) : K) := by rw [hij]
      push_cast at this; linear_combination this
    rw [this]; ring
  · refine ⟨_, xArr_get _ _ _ hp _ _ (by omega), ?_⟩
    rw [← hw]; ring
  · refine ⟨_, xArr_get _ _ _ hp _ _ (by omega), ?_⟩
    rw [← hw]
    have : ((G.padX + G.nPixX - 1 : ℕ) : K) = G.padX + G.nPixX - 1 := by
      rw [Nat.cast_sub (by omega)]; push_cast; ring
    rw [this]; ring

/-- C35: `int(round(padding / pixel size))` pads by at least the requested width minus half a
pixel and at most half a pixel more. -/
theorem npRound_near (x : K) : |(npRound x : K) - x| ≤ 1 / 2 := by
  have h1 := Int.floor_le x
  have h2 := Int.lt_floor_add_one x
  unfold npRound
  simp only
  split
  · rw [abs_le]; constructor <;> linarith
  · split
    · rw [abs_le]; push_cast; constructor <;> linarith
    · split
      · rw [abs_le]; constructor <;> linarith
      · rw [abs_le]; push_cast; constructor <;> linarith

theorem npRound_nonneg (x : K) (h : 0 ≤ x) : 0 ≤ npRound x := by
  have : 0 ≤ ⌊x⌋ := Int.floor_nonneg.2 h
  unfold npRound
  simp only
  split
  · exact this
  · split
    · omega
    · split <;> omega

/-- C35: the padding on each side is the requested width to within half a subpixel -/
theorem C35_padding (g : GridIn K) (h : g.Phys) : ∃ G, setupGrid g = .ok G ∧
    |(G.padX : K) * G.deltX - g.fwhm * g.pad| ≤ G.deltX / 2 ∧
    |(G.padY : K) * G.deltY - g.fwhm * g.pad| ≤ G.deltY / 2 := by
  obtain ⟨G, h1, -, -, -, hdy, hp, hw, hdx, hle, hnX, -, -, hpy, hpx, -⟩ := setupGrid_ok g h
  have key : ∀ (d : K) (p : Nat), 0 < d → p = (npRound (g.fwhm * g.pad / d)).toNat →
      |(p : K) * d - g.fwhm * g.pad| ≤ d / 2 := by
    intro d p hd hp
    have h0 : 0 ≤ npRound (g.fwhm * g.pad / d) := npRound_nonneg _ (div_nonneg h.padding hd.le)
    have h2 : (p : K) = (npRound (g.fwhm * g.pad / d) : K) := by
      have : ((p : ℕ) : ℤ) = npRound (g.fwhm * g.pad / d) := by rw [hp]; exact Int.toNat_of_nonneg h0
      rw [← this]; norm_cast
    have h3 := npRound_near (g.fwhm * g.pad / d)
    rw [← h2] at h3
    have h4 : (p : K) * d - g.fwhm * g.pad = ((p : K) - g.fwhm * g.pad / d) * d := by
      field_simp
    rw [h4, abs_mul, abs_of_pos hd]
    calc _ ≤ 1 / 2 * d := mul_le_mul_of_nonneg_right h3 hd.le
      _ = _ := by ring
  exact ⟨G, h1, key _ _ hdx hpx, key _ _ hdy hpy⟩

/-- C35 for the error branch: without subpixels, pixel scale, or slit there is no grid. -/
theorem C35_error (g : GridIn K) (h : g.S = 0 ∨ g.pixscale = 0 ∨ (g.slit = 0 ∧ 0 < g.nWhole)) :
    setupGrid g = .error .zeroDivisionError := by
  unfold setupGrid
  split
  · rfl
  · rename_i hS
    split
    · rfl
    · rename_i hp
      rcases h with h | h | ⟨h, h'⟩
      · exact absurd h hS
      · exact absurd h hp
      · rw [if_pos]
        have hS' : (g.S : K) ≠ 0 := by exact_mod_cast hS
        have : ((g.nWhole * g.S : ℕ) : K) * (g.pixscale / g.S) ≠ g.slit := by
          rw [h]
          have : ((g.nWhole * g.S : ℕ) : K) ≠ 0 := by
            have : g.nWhole * g.S ≠ 0 := Nat.mul_ne_zero h'.ne' hS
            exact_mod_cast this
          exact mul_ne_zero this (div_ne_zero hp hS')
        unfold nPixXOf
        rw [if_neg this, h, zero_div, Int.ceil_zero]; rfl

/-- The model's coordinate of subpixel `i` along the slit. -/
theorem yArr_get (N S p i : Nat) (hn : 1 < N * S + 2 * p) (d c : K) (hi : i < N * S + 2 * p) :
    ((linspace (-((p : K) - 1 / 2) * d) ((((N : K) - 1) * S + p - 1 / 2) * d) (N * S + 2 * p)).map
      (· - c))[i]? = some ((i : K) * (d * ((N * S + 2 * p : ℕ) - 1 - S) / ((N * S + 2 * p : ℕ) - 1))
        - ((p : K) - 1 / 2) * d - c) := by
  rw [List.getElem?_map, linspace_get _ _ _ _ hi, Option.map_some, if_neg (by omega)]
  congr 2
  have : ((((N : K) - 1) * S + p - 1 / 2) * d - -((p : K) - 1 / 2) * d) =
      d * ((N * S + 2 * p : ℕ) - 1 - S) := by push_cast; ring
  rw [this]; ring

/-- C36, what holds: the subpixels along the slit are equally spaced, by
`deltY * (nY - 1 - S) / (nY - 1)`, and the whole grid is centred on row `(nWhole-1)/2`, the
object (at coordinate zero) being at row `m0_fit`.  Missing: the spacing is not `deltY`, see
`C36_false`. -/
theorem C36_spacing_partial (g : GridIn K) (h : g.Phys) : ∃ G, setupGrid g = .ok G ∧
    G.yArr.length = G.nY ∧ G.nY = g.nWhole * g.S + 2 * G.padY ∧ G.deltY = g.pixscale / g.S ∧
    (∀ (i : Nat) (a b : K), G.yArr[i]? = some a → G.yArr[i + 1]? = some b →
      b - a = G.deltY * (G.nY - 1 - g.S) / (G.nY - 1)) ∧
    (∀ (i j : Nat) (a b : K), 1 < G.nY → i + j + 1 = G.nY → G.yArr[i]? = some a →
      G.yArr[j]? = some b → (a + b) / 2 = (((g.nWhole : K) - 1) / 2 - g.m0fit) * g.pixscale) := by
  obtain ⟨G, h1, hy, hdy, -, hdp, hp, hw, hdx, hle, -, hnY, -, -, -, -, -, hyA⟩ := setupGrid_ok g h
  rw [hy] at hnY
  refine ⟨G, h1, ?_, hnY, hdy, ?_, ?_⟩
  · rw [hyA, List.length_map, linspace_length]
  · intro i a b ha hb
    have hi : i + 1 < G.nY := by
      have := (List.getElem?_eq_some_iff.1 hb).1
      rw [hyA] at this
      simpa [linspace_length] using this
    rw [hyA, hnY, yArr_get _ _ _ _ (by omega) _ _ (by omega)] at ha hb
    cases ha; cases hb
    rw [hnY]; push_cast; ring
  · intro i j a b h2 hij ha hb
    rw [hyA, hnY, yArr_get _ _ _ _ (by omega) _ _ (by omega)] at ha hb
    cases ha; cases hb
    have hne : ((g.nWhole * g.S + 2 * G.padY : ℕ) : K) - 1 ≠ 0 := by
      rw [sub_ne_zero]
      have : g.nWhole * g.S + 2 * G.padY ≠ 1 := by omega
      exact_mod_cast this
    have hij' : (i : K) + j = ((g.nWhole * g.S + 2 * G.padY : ℕ) : K) - 1 := by
      have : ((i + j + 1 : ℕ) : K) = ((g.nWhole * g.S + 2 * G.padY : ℕ) : K) := by rw [hij, hnY]
      rw [← this]; push_cast; ring
    have hsum : (i : K) * (G.deltY * ((g.nWhole * g.S + 2 * G.padY : ℕ) - 1 - g.S) /
        ((g.nWhole * g.S + 2 * G.padY : ℕ) - 1)) + (j : K) *
        (G.deltY * ((g.nWhole * g.S + 2 * G.padY : ℕ) - 1 - g.S) /
        ((g.nWhole * g.S + 2 * G.padY : ℕ) - 1)) =
        G.deltY * ((g.nWhole * g.S + 2 * G.padY : ℕ) - 1 - g.S) := by
      rw [← add_mul, hij', mul_div_cancel₀ _ hne]
    have hS : (g.S : K) ≠ 0 := by have := h.sub.ne'; exact_mod_cast this
    have hpix : g.pixscale = G.deltY * g.S := by rw [hdy]; field_simp
    rw [hpix]
    push_cast at hsum ⊢
    linear_combination hsum / 2

/-- C36 as stated, for one grid input -/
def RowSpacing (g : GridIn K) (G : Grid K) : Prop :=
  (∀ (i : Nat) (a b : K), G.yArr[i]? = some a → G.yArr[i + 1]? = some b → b - a = g.pixscale / g.S) ∧
  ∀ (k s : Nat) (a b : K), s < g.S → G.yArr[G.padY + s]? = some a →
    G.yArr[G.padY + k * g.S + s]? = some b → b - a = k * g.pixscale

/-- C36 is false for every physical grid with at least two subpixels along the slit: neighbouring
subpixels are closer than one subpixel, and (with two rows or more) rows closer than one pixel. -/
theorem C36_false (g : GridIn K) (h : g.Phys) : ∃ G, setupGrid g = .ok G ∧
    (2 ≤ G.nY → ¬ RowSpacing g G ∧
      (∀ (i : Nat) (a b : K), G.yArr[i]? = some a → G.yArr[i + 1]? = some b → b - a < g.pixscale / g.S) ∧
      (∀ (k s : Nat) (a b : K), 0 < k → s < g.S → G.yArr[G.padY + s]? = some a →
        G.yArr[G.padY + k * g.S + s]? = some b → b - a < k * g.pixscale)) := by
  obtain ⟨G, h1, hy, hdy, -, hdp, hp, hw, hdx, hle, -, hnY, -, -, -, -, -, hyA⟩ := setupGrid_ok g h
  rw [hy] at hnY
  refine ⟨G, h1, fun h2 => ?_⟩
  have hS : (0 : K) < g.S := by exact_mod_cast h.sub
  have hpos : (0 : K) < ((g.nWhole * g.S + 2 * G.padY : ℕ) : K) - 1 := by
    rw [sub_pos]
    have : 1 < g.nWhole * g.S + 2 * G.padY := by omega
    exact_mod_cast this
  have hsp : G.deltY * ((g.nWhole * g.S + 2 * G.padY : ℕ) - 1 - g.S) /
      ((g.nWhole * g.S + 2 * G.padY : ℕ) - 1) < G.deltY := by
    rw [div_lt_iff₀ hpos]
    exact mul_lt_mul_of_pos_left (by linarith) hdp
  have hlt : ∀ (i : Nat) (a b : K), G.yArr[i]? = some a → G.yArr[i + 1]? = some b →
      b - a < g.pixscale / g.S := by
    intro i a b ha hb
    have hi : i + 1 < G.nY := by
      have := (List.getElem?_eq_some_iff.1 hb).1
      rw [hyA] at this
      simpa [linspace_length] using this
    rw [hyA, hnY, yArr_get _ _ _ _ (by omega) _ _ (by omega)] at ha hb
    cases ha; cases hb
    rw [← hdy]
    refine lt_of_eq_of_lt ?_ hsp
    push_cast; ring
  refine ⟨fun ⟨hr, _⟩ => ?_, hlt, ?_⟩
  · have hl : G.yArr.length = G.nY := by rw [hyA, List.length_map, linspace_length]
    have e0 : G.yArr[0]? = some (G.yArr[0]'(by omega)) := List.getElem?_eq_getElem _
    have e1 : G.yArr[0 + 1]? = some (G.yArr[0 + 1]'(by omega)) := List.getElem?_eq_getElem _
    exact (hlt 0 _ _ e0 e1).ne (hr 0 _ _ e0 e1)
  · intro k s a b hk hs ha hb
    have hi : G.padY + k * g.S + s < G.nY := by
      have := (List.getElem?_eq_some_iff.1 hb).1
      rw [hyA] at this
      simpa [linspace_length] using this
    have hi' : G.padY + s < G.nY := by
      have : G.padY + s ≤ G.padY + k * g.S + s := by omega
      omega
    rw [hyA, hnY, yArr_get _ _ _ _ (by omega) _ _ (by omega)] at ha hb
    cases ha; cases hb
    have hpix : g.pixscale = G.deltY * g.S := by rw [hdy]; field_simp
    have hkS : (0 : K) < k * g.S := by
      have : (0 : K) < k := by exact_mod_cast hk
      positivity
    have := mul_lt_mul_of_pos_left hsp hkS
    rw [hpix]
    push_cast at this ⊢
    linarith

/-- C36, exactly: a physical grid has the spacing described if and only if it has a single subpixel along the slit (or
none), so that there is nothing to be spaced. -/
theorem C36_exact (g : GridIn K) (h : g.Phys) : ∃ G, setupGrid g = .ok G ∧ (RowSpacing g G ↔ G.nY ≤ 1) := by
  obtain ⟨G, h1, hn⟩ := C36_false g h
  obtain ⟨G', h1', hl, -⟩ := C36_spacing_partial g h
  obtain rfl : G' = G := Except.ok.inj (h1'.symm.trans h1)
  refine ⟨G', h1, ⟨fun hr => ?_, fun hle => ⟨fun i a b ha hb => ?_, fun k s a b hs ha hb => ?_⟩⟩⟩
  · by_contra hc
    exact (hn (by omega)).1 hr
  · have := (List.getElem?_eq_some_iff.1 hb).1
    omega
  · rcases Nat.eq_zero_or_pos k with rfl | hk
    · simp only [Nat.zero_mul, Nat.add_zero] at hb
      rw [ha] at hb
      cases hb
      simp
    · have := (List.getElem?_eq_some_iff.1 hb).1
      have : 0 < k * g.S := Nat.mul_pos hk (by omega)
      omega

/-- a MOSFIRE-like slit: 21 rows of 0.18 arcsec, 3 subpixels, 0.7 arcsec wide, seeing 0.6 -/
def exGrid : GridIn ℚ := ⟨21, 3, 9 / 50, 7 / 10, 3 / 5, 1 / 2, 0, 10⟩

theorem exGrid_phys : exGrid.Phys := ⟨by decide, by decide, by norm_num [exGrid], by norm_num [exGrid],
  by norm_num [exGrid]⟩

/-- The example grid: 12 pixels across the slit, padding 5, rows 0.173… instead of 0.18 apart -/
example : (setupGrid exGrid).toOption.map (fun G => (G.nPixX, G.padX, G.padY, G.nX, G.nY)) =
    some (12, 5, 5, 22, 73) := by decide +kernel

end Misfit
