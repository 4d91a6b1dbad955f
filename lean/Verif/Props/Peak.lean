import Verif.Lemmas.Kde
import Verif.Lemmas.Fit2D
import Verif.Props.Fit2D
import Mathlib.LinearAlgebra.Matrix.PosDef
import Mathlib.LinearAlgebra.Matrix.BilinearForm
import Mathlib.Analysis.Matrix.PosDef
import Mathlib.Algebra.Order.Star.Real

/-!
# C125: the best fit lies inside the prior

The peak searches are those of scipy: what is assumed about them is only that they stop at a local maximum of a Gaussian
kernel density estimate of the samples, with any bandwidth.
-/

namespace Misfit

/-! ## Specification -/

/-- Gaussian kernel density estimate of a list of numbers with bandwidth `h`, up to a constant factor -/
noncomputable def kdeLine (h : ℝ) (col : List ℝ) (x : ℝ) : ℝ :=
  (col.map fun y => Real.exp (-(1 / 2) * ((x - y) / h) ^ 2)).sum

/-- Gaussian kernel density estimate of a list of points with inverse covariance `A`, up to a constant factor -/
noncomputable def kdeSpace {d : ℕ} (A : Matrix (Fin d) (Fin d) ℝ) (points : List (Fin d → ℝ)) (x : Fin d → ℝ) : ℝ :=
  (points.map fun y => Real.exp (-(1 / 2) * ((x - y) ⬝ᵥ A.mulVec (x - y)))).sum

/-- the samples of several columns as points -/
def pointsOf (L : ℕ) (cols : List (List ℝ)) : List (Fin cols.length → ℝ) :=
  (List.range L).map fun i j => (cols.get j).getD i 0

/-- The peak searches stop at local maxima of kernel density estimates, wherever they start. -/
structure FindsPeaks (o : PeakFinder) : Prop where
  one : ∀ col seed, col ≠ [] → ∃ h, h ≠ 0 ∧ IsLocalMax (kdeLine h col) (o.peak col seed)
  many : ∀ (L : ℕ) (cols : List (List ℝ)) (start : List ℝ), 0 < L → (∀ col ∈ cols, col.length = L) →
    ∃ (A : Matrix (Fin cols.length) (Fin cols.length) ℝ) (x : Fin cols.length → ℝ), A.PosDef ∧
      o.joint cols start = List.ofFn x ∧ IsLocalMax (kdeSpace A (pointsOf L cols)) x

/-! ## Proof -/

theorem kdeLine_between (h : ℝ) (hh : h ≠ 0) (col : List ℝ) (hne : col ≠ []) (x lo hi : ℝ)
    (hmax : IsLocalMax (kdeLine h col) x) (hb : ∀ y ∈ col, lo ≤ y ∧ y ≤ hi) : lo ≤ x ∧ x ≤ hi := by
  let b : LinearMap.BilinForm ℝ ℝ := (h⁻¹ ^ 2) • LinearMap.mul ℝ ℝ
  have hbv : ∀ u v, b u v = h⁻¹ ^ 2 * (u * v) := fun u v => rfl
  have e : kdeLine h col = bumps b col := by
    funext t
    unfold kdeLine bumps
    congr 1
    apply List.map_congr_left
    intro y _
    rw [hbv]
    congr 1
    field_simp
  refine bumps_between b ⟨fun u v => by simp only [hbv, RingHom.id_apply]; ring⟩ (fun v hv => ?_) col x hne (fun v => ?_) LinearMap.id lo hi
    (fun y hy => (hb y hy).1) (fun y hy => (hb y hy).2)
  · rw [hbv]
    have : 0 < v * v := mul_self_pos.2 hv
    have : 0 < h⁻¹ ^ 2 := by positivity
    positivity
  · rw [← e]
    have hc : ContinuousAt (fun t : ℝ => x + t • v) 0 := by fun_prop
    have h0 : x + (0 : ℝ) • v = x := by simp
    rw [← h0] at hmax
    exact IsLocalMax.comp_continuous (g := fun t : ℝ => x + t • v) (b := 0) hmax hc

theorem kdeSpace_between {d : ℕ} (A : Matrix (Fin d) (Fin d) ℝ) (hA : A.PosDef) (points : List (Fin d → ℝ)) (hne : points ≠ [])
    (x : Fin d → ℝ) (hmax : IsLocalMax (kdeSpace A points) x) (j : Fin d) (lo hi : ℝ)
    (hb : ∀ y ∈ points, lo ≤ y j ∧ y j ≤ hi) : lo ≤ x j ∧ x j ≤ hi := by
  let b : LinearMap.BilinForm ℝ (Fin d → ℝ) := Matrix.toBilin' A
  have hbv : ∀ u v, b u v = u ⬝ᵥ A.mulVec v := fun u v => Matrix.toBilin'_apply' A u v
  have e : kdeSpace A points = bumps b points := by
    funext t
    unfold kdeSpace bumps
    congr 1
    apply List.map_congr_left
    intro y _
    rw [hbv]
  have hsymm : A.transpose = A := by
    have := hA.isHermitian
    rwa [Matrix.IsHermitian, Matrix.conjTranspose_eq_transpose_of_trivial] at this
  refine bumps_between b ⟨fun u v => ?_⟩ (fun v hv => ?_) points x hne (fun v => ?_) (LinearMap.proj j) lo hi
    (fun y hy => (hb y hy).1) (fun y hy => (hb y hy).2)
  · simp only [hbv, RingHom.id_apply]
    rw [Matrix.dotProduct_mulVec, ← Matrix.mulVec_transpose, hsymm, dotProduct_comm]
  · rw [hbv]
    have := hA.dotProduct_mulVec_pos hv
    simpa using this
  · rw [← e]
    have hc : ContinuousAt (fun t : ℝ => x + t • v) 0 := by fun_prop
    have h0 : x + (0 : ℝ) • v = x := by simp
    rw [← h0] at hmax
    exact IsLocalMax.comp_continuous (g := fun t : ℝ => x + t • v) (b := 0) hmax hc

/-- writing joint peaks that obey a property of the parameter keeps it -/
theorem writeLinked_all {n : Nat} (P : Fin n → ℝ → Prop) (lims : Fin n → ℝ × ℝ) :
    ∀ (ps : List (Fin n × ℝ)) (best : Fin n → ℝ) (err : Fin n → ℝ × ℝ), (∀ p, P p (best p)) → (∀ q ∈ ps, P q.1 q.2) →
      ∀ p, P p ((writeLinked lims best err ps).1 p)
  | [], best, err, h, _ => h
  | (q, v) :: ps, best, err, h, hp => by
      rw [writeLinked]
      refine writeLinked_all P lims ps _ _ (fun p => ?_) (fun q hq => hp q (List.mem_cons_of_mem _ hq))
      by_cases e : p = q
      · subst e
        rw [Function.update_self]
        exact hp (p, v) (by simp)
      · rw [Function.update_of_ne e]
        exact h p

theorem linkedLoop_all {n : Nat} (P : Fin n → ℝ → Prop) (joint : List (Fin n) → List ℝ → List ℝ)
    (hj : ∀ (l : List (Fin n)) (start : List ℝ), ∀ q ∈ l.zip (joint l start), P q.1 q.2) (lims2 : Fin n → ℝ × ℝ) :
    ∀ (sets : List (LinkSet n)) (cur : Fin n → ℝ × ℝ) (st : Posterior n ℝ), (∀ p, P p (st.best p)) →
      ∀ p, P p ((linkedLoop joint lims2 cur st sets).best p)
  | [], cur, st, h => h
  | s :: rest, cur, st, h => by
      rw [linkedLoop]
      exact linkedLoop_all P joint hj lims2 rest _ _ (writeLinked_all P cur _ _ _ h (hj _ _))

theorem columnStats_peak (o : PeakFinder) (col : List ℝ) (x : (ℝ × ℝ) × (ℝ × ℝ) × ℝ) (h : columnStats o col = .ok x) :
    col ≠ [] ∧ ∃ seed, x.2.2 = o.peak col seed := by
  unfold columnStats at h
  split at h
  · cases h
  · split at h
    · cases h
    · split at h
      · cases h
      · rename_i seed _
        split at h
        · cases h
        · rename_i p hp
          cases h
          unfold kdePeak at hp
          split at hp
          · cases hp
          · rename_i hc
            cases hp
            refine ⟨fun he => hc (Or.inl (by simp [he])), seed, rfl⟩

/-- the analysis of any columns of equal length -/
theorem paramPosterior_between (o : PeakFinder) (ho : FindsPeaks o) (L : ℕ) (cols : List (List ℝ))
    (hL : ∀ col ∈ cols, col.length = L) (linked : Option (List RawLink)) (names : List String) (nFree : ℕ) (res : FitResults)
    (h : paramPosterior o cols linked names nFree = .ok res) (lo hi : ℕ → ℝ)
    (hb : ∀ (j : ℕ) (col : List ℝ), cols[j]? = some col → ∀ y ∈ col, lo j ≤ y ∧ y ≤ hi j) :
    ∀ j, j < cols.length → ∃ b, res.best[j]? = some b ∧ lo j ≤ b ∧ b ≤ hi j := by
  unfold paramPosterior at h
  cases hst : mapE (columnStats o) cols with
  | error e => rw [hst] at h; cases h
  | ok st =>
    rw [hst] at h
    simp only at h
    obtain ⟨hlen, hspec⟩ := mapE_spec _ _ _ hst
    split at h
    · cases h
    · rename_i sets hsets
      split at h
      · cases h
      · cases h
        intro j hj
        have hj' : j < st.length := hlen ▸ hj
        -- every best-fit value lies between the bounds of its column
        have hpeak : ∀ p : Fin st.length, lo p ≤ st[p].2.2 ∧ st[p].2.2 ≤ hi p := by
          intro p
          have hp : (p : ℕ) < cols.length := hlen ▸ p.2
          obtain ⟨x, hx, hcs⟩ := hspec p cols[(p : ℕ)] (List.getElem?_eq_getElem hp)
          rw [List.getElem?_eq_getElem p.2] at hx
          obtain ⟨hne, seed, hsd⟩ := columnStats_peak o _ x hcs
          obtain ⟨w, hw, hmax⟩ := ho.one _ seed hne
          have hx' : st[p] = x := by simpa using hx
          rw [hx', hsd]
          exact kdeLine_between w hw _ hne _ _ _ hmax (hb p _ (List.getElem?_eq_getElem hp))
        have hL0 : 0 < L := by
          obtain ⟨x, hx, hcs⟩ := hspec j cols[j] (List.getElem?_eq_getElem hj)
          have := (columnStats_peak o _ x hcs).1
          rw [← hL _ (List.getElem_mem hj)]
          exact List.length_pos_iff.2 this
        have hjoint : ∀ (l : List (Fin st.length)) (start : List ℝ),
            ∀ q ∈ l.zip (o.joint (l.map fun i => cols.getD i.val []) start), lo q.1 ≤ q.2 ∧ q.2 ≤ hi q.1 := by
          intro l start q hq
          have hin : ∀ i : Fin st.length, cols[(i : ℕ)]? = some (cols.getD i []) := by
            intro i
            have hi : (i : ℕ) < cols.length := hlen ▸ i.2
            rw [List.getElem?_eq_getElem hi]
            simp [hi]
          obtain ⟨A, x, hA, hx, hmax⟩ := ho.many L (l.map fun i => cols.getD i.val []) start hL0 (fun col hc => by
            obtain ⟨i, _, rfl⟩ := List.mem_map.1 hc
            exact hL _ (List.mem_of_getElem? (hin i)))
          rw [hx] at hq
          obtain ⟨m, hm, hmq⟩ := List.mem_iff_getElem.1 hq
          have hm1 : m < l.length := by rw [List.length_zip] at hm; omega
          have hm2 : m < (l.map fun i => cols.getD i.val []).length := by simpa using hm1
          rw [List.getElem_zip, List.getElem_ofFn] at hmq
          rw [← hmq]
          refine kdeSpace_between A hA _ (by simp [pointsOf]; omega) x hmax ⟨m, hm2⟩ _ _ (fun y hy => ?_)
          obtain ⟨i, hiL, rfl⟩ := List.mem_map.1 hy
          rw [List.mem_range] at hiL
          have hcol := hin l[m]
          have hg : (l.map fun i => cols.getD i.val []).get ⟨m, hm2⟩ = cols.getD (l[m] : ℕ) [] := by simp
          refine hb _ _ hcol _ ?_
          simp only [hg]
          have hlen' : (cols.getD (l[m] : ℕ) []).length = L := hL _ (List.mem_of_getElem? hcol)
          rw [List.getD_eq_getElem?_getD (l := cols.getD (l[m] : ℕ) []),
            List.getElem?_eq_getElem (l := cols.getD (l[m] : ℕ) []) (by rw [hlen']; exact hiL), Option.getD_some]
          exact List.getElem_mem _
        have hall : ∀ p : Fin st.length, lo p ≤ (posteriorOf (fun l start => o.joint (l.map fun i => cols.getD i.val []) start)
            (fun i => st[i].1) (fun i => st[i].2.1) (fun i => st[i].2.2)
            (match linked with | none => none | some _ => some sets)).best p ∧
            (posteriorOf (fun l start => o.joint (l.map fun i => cols.getD i.val []) start)
            (fun i => st[i].1) (fun i => st[i].2.1) (fun i => st[i].2.2)
            (match linked with | none => none | some _ => some sets)).best p ≤ hi p := by
          cases linked with
          | none => exact hpeak
          | some ls => exact linkedLoop_all (fun p x => lo p ≤ x ∧ x ≤ hi p) _ hjoint _ _ _ _ hpeak
        exact ⟨_, by rw [List.getElem?_ofFn, dif_pos hj']; cases linked <;> rfl, hall ⟨j, hj'⟩⟩

/-! ## C125 -/

/-- the analysis uses every column of the chain -/
theorem chainResults_fc (o : PeakFinder) {r c : ℕ} (s : Fit2D r c) (habs : s.absvalsigma = false) (k : KinObj r c) (ch : Chain)
    (out : ChainIn ch.len) (names : List String)
    (hadd : addVRe22 { theta := k.m.params.theta.map Fl.fin, vary := k.m.params.vary, names := k.names
                       flatchain := ch.cols, absvalsigma := s.absvalsigma, re := s.re } = .ok (out, names))
    (j : ℕ) (col : Fin ch.len → Fl ℝ) (hcol : ch.cols[j]? = some col) : out.flatchain[j]? = some col := by
  unfold addVRe22 at hadd
  have habs' : absSigma { theta := k.m.params.theta.map Fl.fin, vary := k.m.params.vary, names := k.names
                          flatchain := ch.cols, absvalsigma := s.absvalsigma, re := s.re } = .ok ch.cols := by
    unfold absSigma
    simp [habs]
  rw [habs'] at hadd
  simp only at hadd
  split at hadd
  · cases hadd
  · split at hadd
    · cases hadd
      obtain ⟨hj, _⟩ := List.getElem?_eq_some_iff.1 hcol
      simp only
      rw [List.getElem?_append_left hj]
      exact hcol
    · cases hadd

theorem chainResults_column (o : PeakFinder) {r c : ℕ} (s : Fit2D r c) (habs : s.absvalsigma = false)
    (res : FitResults) (h : (s.chainResults o).2 = .ok res) (ch : Chain) (hch : s.sampler = some ch) (j : ℕ)
    (col : Fin ch.len → Fl ℝ) (hcol : ch.cols[j]? = some col) :
    ∃ cj, colValues col = .ok cj ∧ ∃ x, columnStats o cj = .ok x := by
  obtain ⟨k, ch', out, names, cols, hk, hs, hadd, hcols, hpost, _⟩ := chainResults_inv o s res h
  rw [hch] at hs
  cases hs
  obtain ⟨hlen, hspec⟩ := mapE_spec _ _ _ hcols
  obtain ⟨cj, h1, h2⟩ := hspec j col (chainResults_fc o s habs k ch out names hadd j col hcol)
  refine ⟨cj, h2, ?_⟩
  unfold paramPosterior at hpost
  cases hst : mapE (columnStats o) cols with
  | error e => rw [hst] at hpost; cases hpost
  | ok st =>
    obtain ⟨x, _, hx⟩ := (mapE_spec _ _ _ hst).2 j cj h1
    exact ⟨x, hx⟩

/-- an analysis that returns had samples, all of them finite -/
theorem chainResults_finite (o : PeakFinder) {r c : ℕ} (s : Fit2D r c) (habs : s.absvalsigma = false)
    (res : FitResults) (h : (s.chainResults o).2 = .ok res) (ch : Chain) (hch : s.sampler = some ch) (j : ℕ)
    (col : Fin ch.len → Fl ℝ) (hcol : ch.cols[j]? = some col) : 0 < ch.len ∧ ∀ k, ∃ x, col k = .fin x := by
  obtain ⟨cj, h2, hst⟩ := chainResults_column o s habs res h ch hch j col hcol
  rw [colValues_ok] at h2
  obtain ⟨hne, _⟩ := columnStats_peak o _ _ hst.choose_spec
  have hlen := congrArg List.length h2
  rw [List.length_ofFn, List.length_map] at hlen
  refine ⟨by rw [hlen]; exact List.length_pos_iff.2 hne, fun k => ?_⟩
  have hm : col k ∈ List.ofFn col := List.mem_ofFn.2 ⟨k, rfl⟩
  rw [h2] at hm
  obtain ⟨x, _, hx⟩ := List.mem_map.1 hm
  exact ⟨x, hx.symm⟩

/-- **C125**: whatever the samples, linked parameters and starting points of the searches, the best-fit value of every
sampled parameter lies between the smallest and the largest of its samples (hence inside its prior bounds, C109). -/
theorem C125_range (o : PeakFinder) (ho : FindsPeaks o) {r c : ℕ} (s : Fit2D r c) (habs : s.absvalsigma = false)
    (res : FitResults) (h : (s.chainResults o).2 = .ok res) (ch : Chain) (hch : s.sampler = some ch) (j : ℕ)
    (col : Fin ch.len → Fl ℝ) (hcol : ch.cols[j]? = some col) (lo hi : ℝ)
    (hb : ∀ k, ∃ x, col k = .fin x ∧ lo ≤ x ∧ x ≤ hi) : ∃ b, res.best[j]? = some b ∧ lo ≤ b ∧ b ≤ hi := by
  obtain ⟨k, ch', out, names, cols, hk, hs, hadd, hcols, hpost, _⟩ := chainResults_inv o s res h
  rw [hch] at hs
  cases hs
  obtain ⟨hlen, hspec⟩ := mapE_spec _ _ _ hcols
  have hfc := chainResults_fc o s habs k ch out names hadd j col hcol
  have hL : ∀ c ∈ cols, c.length = ch.len := by
    intro c hc
    obtain ⟨i, hi, hic⟩ := List.mem_iff_getElem.1 hc
    obtain ⟨b, h1, h2⟩ := hspec i (out.flatchain[i]'(hlen ▸ hi)) (List.getElem?_eq_getElem _)
    rw [List.getElem?_eq_getElem hi, hic] at h1
    cases h1
    rw [colValues_ok] at h2
    have := congrArg List.length h2
    simpa using this.symm
  obtain ⟨cj, h1, h2⟩ := hspec j col hfc
  rw [colValues_ok] at h2
  obtain ⟨hj, _⟩ := List.getElem?_eq_some_iff.1 h1
  -- bounds: those of column `j`, its own range for the others
  have hex : ∃ lo' hi' : ℕ → ℝ, lo' j = lo ∧ hi' j = hi ∧
      ∀ (i : ℕ) (c : List ℝ), cols[i]? = some c → ∀ y ∈ c, lo' i ≤ y ∧ y ≤ hi' i := by
    have hbd : ∀ c : List ℝ, ∃ M : ℝ, ∀ y ∈ c, -M ≤ y ∧ y ≤ M := by
      intro c
      induction c with
      | nil => exact ⟨0, by simp⟩
      | cons a c ih =>
        obtain ⟨M, hM⟩ := ih
        refine ⟨max |a| M, fun y hy => ?_⟩
        rcases List.mem_cons.1 hy with rfl | hy
        · exact ⟨by have := neg_abs_le y; have := le_max_left |y| M; linarith, (le_abs_self y).trans (le_max_left _ _)⟩
        · obtain ⟨a1, a2⟩ := hM y hy
          have := le_max_right |a| M
          exact ⟨by linarith, by linarith⟩
    choose M hM using hbd
    refine ⟨fun i => if i = j then lo else -M (cols.getD i []), fun i => if i = j then hi else M (cols.getD i []),
      by simp, by simp, fun i c hc y hy => ?_⟩
    by_cases e : i = j
    · subst e
      rw [h1] at hc
      cases hc
      have hm : Fl.fin y ∈ List.ofFn col := by rw [h2]; exact List.mem_map_of_mem hy
      obtain ⟨k, hk⟩ := List.mem_ofFn.1 hm
      obtain ⟨x, hx, hlx, hxu⟩ := hb k
      rw [hx] at hk
      cases hk
      simp [hlx, hxu]
    · simp only [if_neg e]
      obtain ⟨hi', hc'⟩ := List.getElem?_eq_some_iff.1 hc
      have : cols.getD i [] = c := by simp [hi', hc']
      rw [this]
      exact hM c y hy
  obtain ⟨lo', hi', e1, e2, hbb⟩ := hex
  have := paramPosterior_between o ho ch.len cols hL _ _ _ res hpost lo' hi' hbb j hj
  rwa [e1, e2] at this

/-- **C125**, without reference to bounds: the best-fit value of every sampled parameter lies between two of its samples. -/
theorem C125_between (o : PeakFinder) (ho : FindsPeaks o) {r c : ℕ} (s : Fit2D r c) (habs : s.absvalsigma = false)
    (res : FitResults) (h : (s.chainResults o).2 = .ok res) (ch : Chain) (hch : s.sampler = some ch) (j : ℕ)
    (col : Fin ch.len → Fl ℝ) (hcol : ch.cols[j]? = some col) :
    ∃ b k1 k2 x1 x2, res.best[j]? = some b ∧ col k1 = .fin x1 ∧ col k2 = .fin x2 ∧ x1 ≤ b ∧ b ≤ x2 := by
  obtain ⟨hpos, hfin⟩ := chainResults_finite o s habs res h ch hch j col hcol
  choose x hx using hfin
  haveI : Nonempty (Fin ch.len) := ⟨⟨0, hpos⟩⟩
  obtain ⟨k1, h1⟩ := Finite.exists_min x
  obtain ⟨k2, h2⟩ := Finite.exists_max x
  obtain ⟨b, hb, hl, hu⟩ := C125_range o ho s habs res h ch hch j col hcol (x k1) (x k2)
    (fun k => ⟨x k, hx k, h1 k, h2 k⟩)
  exact ⟨b, k1, k2, x k1, x k2, hb, hx k1, hx k2, hl, hu⟩

theorem Fl.leB_up (b : Fl ℝ) (x y : ℝ) (h : Fl.leB b (.fin x) = true) (hxy : x ≤ y) : Fl.leB b (.fin y) = true := by
  cases b with
  | fin a => simp [Fl.leB] at h ⊢; linarith
  | nan => simp [Fl.leB] at h
  | pinf => simp [Fl.leB] at h
  | ninf => simp [Fl.leB]

theorem Fl.leB_down (b : Fl ℝ) (x y : ℝ) (h : Fl.leB (.fin x) b = true) (hxy : y ≤ x) : Fl.leB (.fin y) b = true := by
  cases b with
  | fin a => simp [Fl.leB] at h ⊢; linarith
  | nan => simp [Fl.leB] at h
  | pinf => simp [Fl.leB]
  | ninf => simp [Fl.leB] at h

/-- **C125**, with the flat prior: if the prior accepts every sample, it accepts the best fit. -/
theorem C125_prior (o : PeakFinder) (ho : FindsPeaks o) {r c : ℕ} (s : Fit2D r c) (habs : s.absvalsigma = false)
    (res : FitResults) (h : (s.chainResults o).2 = .ok res) (ch : Chain) (hch : s.sampler = some ch)
    (k : KinObj r c) (hk : s.kinModel = some k) (bounds : List (Option (Fl ℝ × Fl ℝ)))
    (hv : k.m.params.vary.length = k.m.params.theta.length) (hn : k.m.params.nFree = k.m.params.vary.count true)
    (hcols : ch.cols.length = k.m.params.vary.count true)
    (hbd : ∀ i < k.m.params.theta.length, k.m.params.vary[i]? = some true → ∃ b, bounds[i]? = some (some b))
    (hin : ∀ i, logPrior (k.m.params.theta.map Fl.fin) k.m.params.vary bounds (ch.cols.map fun col => col i) = .ok 0) :
    logPrior (k.m.params.theta.map Fl.fin) k.m.params.vary bounds (res.fitting.map Fl.fin) = .ok 0 := by
  obtain ⟨k', ch', out, names, cols, hk', hs, hadd, hcv, hpost, _⟩ := chainResults_inv o s res h
  rw [hk] at hk'
  cases hk'
  rw [hch] at hs
  cases hs
  obtain ⟨_, _, hfit⟩ := paramPosterior_length o _ _ _ _ _ hpost
  set n := k.m.params.vary.count true with hnd
  have htake : k.m.params.vary.take (k.m.params.theta.map (Fl.fin (K := ℝ))).length = k.m.params.vary := by
    rw [List.length_map, ← hv, List.take_length]
  have hbest : ∀ j < n, ∃ b, res.best[j]? = some b := by
    intro j hj
    obtain ⟨b, _, _, _, _, hb, _⟩ := C125_between o ho s habs res h ch hch j ch.cols[j] (List.getElem?_eq_getElem (hcols ▸ hj))
    exact ⟨b, hb⟩
  have hlen : (res.fitting.map (Fl.fin (K := ℝ))).length = n := by
    rw [List.length_map, hfit, hn, List.length_take]
    rcases Nat.eq_zero_or_pos n with h0 | h0
    · omega
    · obtain ⟨b, hb⟩ := hbest (n - 1) (by omega)
      have := (List.getElem?_eq_some_iff.1 hb).1
      omega
  refine (C03_prior_indicator _ _ _ _ (by rw [List.length_map, hv]) (by rw [htake, hlen]) (by rw [List.length_map]; exact hbd)).1
    (fun i hi hvi => ?_)
  set j := (k.m.params.vary.take i).count true with hj
  rw [List.length_map] at hi
  have hjn : j < n := by
    have h1 : k.m.params.vary = k.m.params.vary.take i ++ k.m.params.vary.drop i := (List.take_append_drop i _).symm
    have h2 : k.m.params.vary.drop i = true :: k.m.params.vary.drop (i + 1) := by
      obtain ⟨h3, h4⟩ := List.getElem?_eq_some_iff.1 hvi
      rw [← h4]
      exact List.drop_eq_getElem_cons h3
    have h5 := congrArg (List.count true) h1
    rw [List.count_append, h2, List.count_cons_self] at h5
    omega
  obtain ⟨b, k1, k2, x1, x2, hb, h1, h2, hl, hu⟩ := C125_between o ho s habs res h ch hch j ch.cols[j]
    (List.getElem?_eq_getElem (hcols ▸ hjn))
  have hsamp : ∀ q : Fin ch.len, InBounds (k.m.params.theta.map (Fl.fin (K := ℝ))).length k.m.params.vary bounds
      (ch.cols.map fun col => col q) := by
    intro q
    by_contra hcon
    have := (C03_prior_indicator (k.m.params.theta.map Fl.fin) _ bounds (ch.cols.map fun col => col q)
      (by rw [List.length_map, hv]) (by rw [htake, List.length_map, hcols]) (by rw [List.length_map]; exact hbd)).2 hcon
    rw [hin q] at this
    cases this
  have hget : ∀ q, (ch.cols.map fun col => col q)[j]? = some (ch.cols[j] q) := by
    intro q
    rw [List.getElem?_map, List.getElem?_eq_getElem (hcols ▸ hjn)]
    rfl
  obtain ⟨b1, y1, e1, e2, e3, _⟩ := hsamp k1 i (by rw [List.length_map]; exact hi) hvi
  obtain ⟨b2, y2, f1, f2, _, f4⟩ := hsamp k2 i (by rw [List.length_map]; exact hi) hvi
  rw [e1] at f1
  cases f1
  rw [hget, h1] at e2
  rw [hget, h2] at f2
  cases e2
  cases f2
  refine ⟨b1, .fin b, e1, ?_, Fl.leB_up _ _ _ e3 hl, Fl.leB_down _ _ _ f4 hu⟩
  rw [List.getElem?_map, hfit, hn, List.getElem?_take_of_lt hjn, hb]
  rfl

/-! ## With `absvalsigma` -/

theorem Fl.abs_fin (x : ℝ) : Fl.abs (.fin x) = .fin |x| := by
  simp only [Fl.abs]
  split
  · rw [abs_of_neg (by assumption)]
  · rw [abs_of_nonneg (not_lt.1 (by assumption))]

theorem freeInds_third (vary : List Bool) (h : vary[2]? = some true) :
    (freeInds vary 0)[2]? = some (some ((vary.take 2).count true)) := by
  match vary with
  | [] => cases h
  | [_] => cases h
  | [_, _] => cases h
  | a :: b :: c :: l =>
    simp only [List.getElem?_cons_succ, List.getElem?_cons_zero, Option.some.injEq] at h
    subst h
    cases a <;> cases b <;> rfl

/-- The analysis with `absvalsigma` is the analysis without it of the samples with the dispersions replaced by their
absolute values. -/
theorem chainResults_folded (o : PeakFinder) {r c : ℕ} (s : Fit2D r c) (habs : s.absvalsigma = true)
    (k : KinObj r c) (hk : s.kinModel = some k) (hv : k.m.params.vary.length = k.m.params.theta.length)
    (h2 : k.m.params.vary[2]? = some true) (ch : Chain) (hch : s.sampler = some ch)
    (col : Fin ch.len → Fl ℝ) (hcol : ch.cols[(k.m.params.vary.take 2).count true]? = some col) :
    (s.chainResults o).2 = (({ s with absvalsigma := false, sampler := some ⟨ch.len,
      ch.cols.set ((k.m.params.vary.take 2).count true) fun i => Fl.abs (col i)⟩ } : Fit2D r c).chainResults o).2 := by
  have e1 : absSigma { theta := k.m.params.theta.map Fl.fin, vary := k.m.params.vary, names := k.names
                       flatchain := ch.cols, absvalsigma := s.absvalsigma, re := s.re } =
      .ok (ch.cols.set ((k.m.params.vary.take 2).count true) fun i => Fl.abs (col i)) := by
    unfold absSigma
    simp only [habs, if_true]
    rw [List.length_map, ← hv, List.take_length, freeInds_third _ h2]
    simp only [absColumn, hcol]
  unfold Fit2D.chainResults addVRe22
  rw [hk, hch]
  simp only
  rw [e1]
  simp only [absSigma, Bool.false_eq_true, if_false]
  generalize thetaChain (ch.cols.set ((k.m.params.vary.take 2).count true) fun i => Fl.abs (col i))
    (k.m.params.theta.map Fl.fin) k.m.params.vary 0 = tc
  rcases tc with e | tc
  · rfl
  · rcases tc with _ | ⟨va, _ | ⟨rt, _ | ⟨sg, rest⟩⟩⟩
    · rfl
    · rfl
    · rfl
    · simp only
      generalize mapE colValues ((ch.cols.set ((k.m.params.vary.take 2).count true) fun i => Fl.abs (col i)) ++
        [fun k => velSample (va k) (rt k) s.re, fun k => velSample (va k) (rt k) (2.2 / 1.676 * s.re),
          fun k => sigmaSample (sg k) s.re, fun k => sigmaSample (sg k) (2.2 / 1.676 * s.re)]) = cols
      rcases cols with e | cols
      · rfl
      · simp only
        split <;> rfl

/-- **C125** with `absvalsigma` and a free dispersion: the best-fit value of every sampled parameter lies between the
smallest and the largest of its samples, for the dispersion of the absolute values of its samples; it is never
negative then. -/
theorem C125_folded (o : PeakFinder) (ho : FindsPeaks o) {r c : ℕ} (s : Fit2D r c) (habs : s.absvalsigma = true)
    (k : KinObj r c) (hk : s.kinModel = some k) (hv : k.m.params.vary.length = k.m.params.theta.length)
    (h2 : k.m.params.vary[2]? = some true) (res : FitResults) (h : (s.chainResults o).2 = .ok res)
    (ch : Chain) (hch : s.sampler = some ch) (j : ℕ) (col : Fin ch.len → Fl ℝ) (hcol : ch.cols[j]? = some col)
    (lo hi : ℝ) (hb : ∀ i, ∃ x, col i = .fin x ∧
      lo ≤ (if j = (k.m.params.vary.take 2).count true then |x| else x) ∧
      (if j = (k.m.params.vary.take 2).count true then |x| else x) ≤ hi) :
    ∃ b, res.best[j]? = some b ∧ lo ≤ b ∧ b ≤ hi := by
  cases hs : ch.cols[(k.m.params.vary.take 2).count true]? with
  | none =>
    -- then the absolute values are an IndexError
    exfalso
    obtain ⟨k', ch', out, names, cols, hk', hch', hadd, -⟩ := chainResults_inv o s res h
    rw [hk] at hk'
    cases hk'
    rw [hch] at hch'
    cases hch'
    unfold addVRe22 absSigma at hadd
    simp only [habs, if_true] at hadd
    rw [List.length_map, ← hv, List.take_length, freeInds_third _ h2] at hadd
    simp only [absColumn, hs] at hadd
    cases hadd
  | some sg =>
    rw [chainResults_folded o s habs k hk hv h2 ch hch sg hs] at h
    by_cases hj : j = (k.m.params.vary.take 2).count true
    · rw [← hj] at h hs
      rw [hcol] at hs
      cases hs
      have hjl := (List.getElem?_eq_some_iff.1 hcol).1
      refine C125_range o ho _ rfl res h _ rfl j (fun i => Fl.abs (col i)) (by simp [hjl]) lo hi fun i => ?_
      obtain ⟨x, hx, h1, h3⟩ := hb i
      rw [if_pos hj] at h1 h3
      exact ⟨|x|, by rw [hx, Fl.abs_fin], h1, h3⟩
    · refine C125_range o ho _ rfl res h _ rfl j col (by simp only; rw [List.getElem?_set_ne (Ne.symm hj)]; exact hcol)
        lo hi fun i => ?_
      obtain ⟨x, hx, h1, h3⟩ := hb i
      rw [if_neg hj] at h1 h3
      exact ⟨x, hx, h1, h3⟩

/-! ## Such searches exist -/

theorem kdeSpace_tendsto {d : ℕ} (points : List (Fin d → ℝ)) :
    Filter.Tendsto (kdeSpace (1 : Matrix (Fin d) (Fin d) ℝ) points) (Filter.cocompact _) (nhds 0) := by
  unfold kdeSpace
  induction points with
  | nil => simp only [List.map_nil, List.sum_nil]; exact tendsto_const_nhds
  | cons y ys ih =>
    simp only [List.map_cons, List.sum_cons]
    have : Filter.Tendsto (fun x : Fin d → ℝ => Real.exp (-(1 / 2) * ((x - y) ⬝ᵥ (1 : Matrix (Fin d) (Fin d) ℝ).mulVec (x - y))))
        (Filter.cocompact _) (nhds 0) := by
      refine Real.tendsto_exp_atBot.comp ?_
      have h1 : Filter.Tendsto (fun x : Fin d → ℝ => -(1 / 2) * (‖x - y‖ * ‖x - y‖)) (Filter.cocompact _) Filter.atBot := by
        have h2 : Filter.Tendsto (fun x : Fin d → ℝ => ‖x - y‖) (Filter.cocompact _) Filter.atTop := by
          refine Filter.tendsto_atTop_mono (f := fun x => ‖x‖ - ‖y‖) (fun x => norm_sub_norm_le x y) ?_
          exact Filter.tendsto_atTop_add_const_right _ _ tendsto_norm_cocompact_atTop
        exact (h2.atTop_mul_atTop₀ h2).const_mul_atTop_of_neg (by norm_num)
      refine Filter.tendsto_atBot_mono (fun x => ?_) h1
      rw [Matrix.one_mulVec]
      have h3 : ‖x - y‖ * ‖x - y‖ ≤ (x - y) ⬝ᵥ (x - y) := by
        have h0 : 0 ≤ (x - y) ⬝ᵥ (x - y) := Finset.sum_nonneg fun i _ => mul_self_nonneg _
        rw [← sq, ← Real.sqrt_le_sqrt_iff h0, Real.sqrt_sq (norm_nonneg _)]
        refine (pi_norm_le_iff_of_nonneg (Real.sqrt_nonneg _)).2 fun i => ?_
        rw [Real.norm_eq_abs]
        refine Real.le_sqrt_of_sq_le ?_
        rw [sq_abs, sq]
        exact Finset.single_le_sum (f := fun i => (x - y) i * (x - y) i) (fun i _ => mul_self_nonneg _) (Finset.mem_univ i)
      linarith
    simpa using this.add ih

theorem kdeSpace_max {d : ℕ} (points : List (Fin d → ℝ)) (hne : points ≠ []) :
    ∃ x, ∀ y, kdeSpace (1 : Matrix (Fin d) (Fin d) ℝ) points y ≤ kdeSpace 1 points x := by
  have hc : Continuous (kdeSpace (1 : Matrix (Fin d) (Fin d) ℝ) points) := by
    unfold kdeSpace
    clear hne
    induction points with
    | nil => simp only [List.map_nil, List.sum_nil]; exact continuous_const
    | cons y ys ih =>
      simp only [List.map_cons, List.sum_cons]
      refine Continuous.add ?_ ih
      simp only [Matrix.one_mulVec, dotProduct]
      fun_prop
  have hpos : 0 < kdeSpace (1 : Matrix (Fin d) (Fin d) ℝ) points 0 :=
    list_sum_zero_mem _ points (fun _ _ => Real.exp_pos _) hne
  obtain ⟨x, hx⟩ := hc.exists_forall_ge' 0
    ((kdeSpace_tendsto points).eventually (ge_mem_nhds hpos))
  exact ⟨x, hx⟩

theorem kdeLine_max (col : List ℝ) (hne : col ≠ []) : ∃ x, ∀ y, kdeLine 1 col y ≤ kdeLine 1 col x := by
  obtain ⟨x, hx⟩ := kdeSpace_max (col.map fun y => fun _ : Fin 1 => y) (by simpa using hne)
  have e : ∀ t : Fin 1 → ℝ, kdeSpace 1 (col.map fun y => fun _ : Fin 1 => y) t = kdeLine 1 col (t 0) := by
    intro t
    unfold kdeSpace kdeLine
    rw [List.map_map]
    congr 1
    apply List.map_congr_left
    intro y _
    simp [dotProduct, sq]
  exact ⟨x 0, fun y => by have := hx (fun _ => y); rwa [e, e] at this⟩

open Classical in
/-- peak searches that find the highest point of the density (all bandwidths 1) -/
noncomputable def bestPeak : PeakFinder where
  peak col _ := if h : col ≠ [] then (kdeLine_max col h).choose else 0
  joint cols _ :=
    match cols with
    | [] => []
    | c :: cs => if h : pointsOf c.length (c :: cs) ≠ [] then List.ofFn (kdeSpace_max _ h).choose else []

theorem bestPeak_finds : FindsPeaks bestPeak where
  one col seed hne := by
    refine ⟨1, one_ne_zero, ?_⟩
    show IsLocalMax _ (if h : col ≠ [] then (kdeLine_max col h).choose else 0)
    rw [dif_pos hne]
    exact Filter.Eventually.of_forall (kdeLine_max col hne).choose_spec
  many L cols start hL hlen := by
    cases cols with
    | nil =>
      refine ⟨1, fun i => i.elim0, Matrix.PosDef.one, rfl, ?_⟩
      refine Filter.Eventually.of_forall fun y => le_of_eq ?_
      congr 1
      funext i
      exact i.elim0
    | cons c cs =>
      have hc : c.length = L := hlen c (by simp)
      have hne : pointsOf L (c :: cs) ≠ [] := by simp [pointsOf]; omega
      subst hc
      refine ⟨1, (kdeSpace_max _ hne).choose, Matrix.PosDef.one, ?_, Filter.Eventually.of_forall (kdeSpace_max _ hne).choose_spec⟩
      show (if h : pointsOf c.length (c :: cs) ≠ [] then List.ofFn (kdeSpace_max _ h).choose else []) = _
      rw [dif_pos hne]

/-- the single-cell fit with three samples, before the analysis -/
noncomputable def oneSampled : Fit2D 1 2 :=
  { oneFit.setupModel.1 with sampler := some ⟨3, [oneVa, oneRt, oneSg].map fun col i => .fin (col i)⟩ }

/-- its analysis returns, whatever the peak search does -/
theorem oneSampled_ok (o : PeakFinder) : ∃ res, (oneSampled.chainResults o).2 = .ok res := by
  have hk : oneFit.setupModel.1.kinModel = some ⟨((KinModelState.init [0, 1, 1, 0, 0] [true, true, true, false, false]
    ⟨[0, 1, 1, 0, 0], some ⟨[0, 1], 2⟩, some ⟨[1], 1⟩⟩ false : KinModelState 1 2).make oneInput [0, 1, 1]).1,
    ["V_a", "r_t", "sigma0", "m0_shift", "z"], none⟩ := rfl
  have r3 : oneFit.setupModel.1.re = 1 := rfl
  have r2 : oneFit.setupModel.1.linked = none := rfl
  obtain ⟨res, h, _⟩ := chainResults_free o oneSampled _ hk rfl [false, false]
    (by simp only [make_params, (KinParams.update_keeps _ _).1]; rfl)
    (by simp only [make_params, (KinParams.update_keeps _ _).1, (KinParams.update_keeps _ _).2.1]; rfl)
    3 oneVa oneRt oneSg [] rfl rfl
    (by
      intro col hc
      simp only [List.mem_cons, List.not_mem_nil, or_false] at hc
      rcases hc with rfl | rfl | rfl
      · exact ⟨0, 1, by norm_num [oneVa]⟩
      · exact ⟨0, 2, show (1 : ℝ) ≠ 2 by norm_num⟩
      · exact ⟨0, 1, by norm_num [oneSg]⟩)
    (by intro i; fin_cases i <;> norm_num [oneRt])
    (by
      intro R hR
      have hpos : 0 < R := by
        simp only [oneSampled, r3, List.mem_cons, List.not_mem_nil, or_false] at hR
        rcases hR with rfl | rfl <;> norm_num
      have hat : 0 < Real.arctan R := Real.arctan_pos.mpr hpos
      refine ⟨0, 1, ?_⟩
      simp only [oneVa, oneRt, Matrix.cons_val_zero, Matrix.cons_val_one, div_one]
      intro h
      nlinarith)
    (by intro ls h; simp only [oneSampled, r2] at h; cases h)
  exact ⟨res, h⟩

/-- the hypotheses of C125 are met: the best fit of `V_a` lies between 100 and 200 -/
example : ∃ res b, (oneSampled.chainResults bestPeak).2 = .ok res ∧ res.best[0]? = some b ∧ 100 ≤ b ∧ b ≤ 200 := by
  obtain ⟨res, h⟩ := oneSampled_ok bestPeak
  obtain ⟨b, h1, h2⟩ := C125_range bestPeak bestPeak_finds oneSampled rfl res h _ rfl 0 _ rfl 100 200
    (fun k => ⟨oneVa k, rfl, by fin_cases k <;> norm_num [oneVa], by fin_cases k <;> norm_num [oneVa]⟩)
  exact ⟨res, b, h, h1, h2⟩

/-- a search that leaves the samples (`peakOne`) violates the claim, so the assumption is needed -/
example : ¬ FindsPeaks peakOne := by
  intro h
  obtain ⟨w, hw, hmax⟩ := h.one [5, 6] 5 (by simp)
  have := (kdeLine_between w hw [5, 6] (by simp) 1 5 6 hmax (by simp; norm_num)).1
  norm_num at this

/-- the hypotheses of `C125_folded` are met: with negative samples of the dispersion its best fit is positive -/
example : ∃ res b, (({ oneSampled with absvalsigma := true, sampler := some ⟨3, [fun i => .fin (oneVa i),
      fun i => .fin (oneRt i), fun i => .fin (-oneSg i)]⟩ } : Fit2D 1 2).chainResults bestPeak).2 = .ok res ∧
    res.best[2]? = some b ∧ 1 ≤ b := by
  obtain ⟨res, h⟩ := oneSampled_ok bestPeak
  have hk : oneFit.setupModel.1.kinModel = some ⟨((KinModelState.init [0, 1, 1, 0, 0] [true, true, true, false, false]
    ⟨[0, 1, 1, 0, 0], some ⟨[0, 1], 2⟩, some ⟨[1], 1⟩⟩ false : KinModelState 1 2).make oneInput [0, 1, 1]).1,
    ["V_a", "r_t", "sigma0", "m0_shift", "z"], none⟩ := rfl
  have hvary : ((KinModelState.init [0, 1, 1, 0, 0] [true, true, true, false, false]
    ⟨[0, 1, 1, 0, 0], some ⟨[0, 1], 2⟩, some ⟨[1], 1⟩⟩ false : KinModelState 1 2).make oneInput [0, 1, 1]).1.params.vary =
      [true, true, true, false, false] := by
    simp only [make_params, (KinParams.update_keeps _ _).1]; rfl
  have hlen : ((KinModelState.init [0, 1, 1, 0, 0] [true, true, true, false, false]
    ⟨[0, 1, 1, 0, 0], some ⟨[0, 1], 2⟩, some ⟨[1], 1⟩⟩ false : KinModelState 1 2).make oneInput [0, 1, 1]).1.params.vary.length =
      ((KinModelState.init [0, 1, 1, 0, 0] [true, true, true, false, false]
    ⟨[0, 1, 1, 0, 0], some ⟨[0, 1], 2⟩, some ⟨[1], 1⟩⟩ false : KinModelState 1 2).make oneInput [0, 1, 1]).1.params.theta.length := by
    simp only [make_params, (KinParams.update_keeps _ _).1, (KinParams.update_keeps _ _).2.1]; rfl
  have hcnt : (([true, true, true, false, false] : List Bool).take 2).count true = 2 := rfl
  have hf := chainResults_folded bestPeak ({ oneSampled with absvalsigma := true, sampler := some ⟨3, [fun i => .fin (oneVa i),
      fun i => .fin (oneRt i), fun i => .fin (-oneSg i)]⟩ } : Fit2D 1 2) rfl _ hk hlen (by rw [hvary]; rfl) _ rfl
      (fun i => .fin (-oneSg i)) (by simp only; rw [hvary]; rfl)
  have hsame : (fun i => Fl.abs (Fl.fin (-oneSg i))) = fun i => Fl.fin (oneSg i) := by
    funext i
    rw [Fl.abs_fin, abs_neg, abs_of_nonneg]
    fin_cases i <;> norm_num [oneSg]
  simp only at hf
  rw [hvary, hcnt, hsame] at hf
  have hr := hf.trans h
  refine ⟨res, ?_⟩
  obtain ⟨b, h1, h2, _⟩ := C125_folded bestPeak bestPeak_finds ({ oneSampled with absvalsigma := true, sampler := some ⟨3,
      [fun i => .fin (oneVa i), fun i => .fin (oneRt i), fun i => .fin (-oneSg i)]⟩ } : Fit2D 1 2) rfl _ hk hlen (by rw [hvary]; rfl) res hr _ rfl 2
    (fun i => .fin (-oneSg i)) rfl 1 1000 (by
      intro i
      refine ⟨-oneSg i, rfl, ?_⟩
      rw [hvary, hcnt, if_pos rfl, abs_neg]
      fin_cases i <;> norm_num [oneSg])
  exact ⟨b, hr, h1, h2⟩

end Misfit
