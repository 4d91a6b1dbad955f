import Verif.Props.Continuous
import Verif.Props.Params
import Mathlib.Topology.Order.Compact

/-!
# The posterior has a maximum

C172 (posterior): inside the bounds of the prior the value returned by `lnprob` is a continuous function of the parameters.
C228: when the bounds leave out a vanishing turnover radius and dispersions that are not positive, `lnprob` has a maximum, at
parameters inside the bounds.
-/

namespace Misfit

/-- **C172**: the value of `lnprob` is one function of the parameters, continuous inside the bounds and `-inf` outside, whatever was
evaluated before. -/
theorem C172_posterior {r c : Nat} (g : KinInput r c) (hc : Luminous g.aperCfg) (had : g.cfg.adaptive = false)
    (hF : 0 ≤ g.cfg.psf.fwhm) (hst : ¬ g.cfg.psf.StampFails) (hker : g.cfg.psf.fwhm = 0 ∨ KernelFits g.aperCfg)
    (kin : KinProfile) (hk : kin.shape = (some 2, some 1)) (f e m w : Fin r → Fin c → ℝ)
    (hd : g.data = finData f e m w) (he : ∀ i j, e i j ≠ 0) (ns : Bool)
    (hns : ns = true ∨ ∃ cols, cols ≠ [] ∧ g.nosky = some cols) (shift z : ℝ) (hz : 0 < 1 + z) :
    ∃ L : ℝ × ℝ × ℝ → ℝ, ContinuousOn L Regular ∧
      ∀ (ts : List ℝ) (vs : List Bool) (f0 : List ℝ) (calls : List (KinCall r c)) (m0 : KinModelState r c),
        ts.length = 3 → vs.length = 3 → m0 = KinModelState.init (ts ++ [shift, z]) (vs ++ [false, false]) kin ns →
        (m0.make g f0).2 = .ok () → ∀ bounds : List (Option (Fl ℝ × Fl ℝ)),
        (∀ i : Nat, vs[i]? = some true → ∃ b, bounds[i]? = some (some b)) → ∀ fit, fit.length = vs.count true →
          (¬ InBounds 3 vs bounds (fit.map Fl.fin) → (((m0.make g f0).1.run calls).lnprob bounds fit).2 = .ok .ninf) ∧
          ∀ va rt sig, (updateParameters (ts ++ [shift, z]) (vs ++ [false, false]) fit).1 = [va, rt, sig, shift, z] →
            (va, rt, sig) ∈ Regular → InBounds 3 vs bounds (fit.map Fl.fin) →
            (((m0.make g f0).1.run calls).lnprob bounds fit).2 = .ok (.fin (L (va, rt, sig))) := by
  obtain ⟨L, hLc, hL⟩ := C172_likelihood g hc had hF hst hker kin hk f e m w hd he ns hns shift z hz
  refine ⟨L, hLc, ?_⟩
  intro ts vs f0 calls m0 hts hvs hm0 h0 bounds hb fit hfit
  have hlike := hL ts vs f0 calls m0 hts hvs hm0 h0 fit
  have hlen : (vs ++ [false, false]).length = (ts ++ [shift, z]).length := by simp [hts, hvs]
  obtain ⟨hvary, hlen'⟩ : ((m0.make g f0).1.run calls).params.vary = vs ++ [false, false] ∧
      ((m0.make g f0).1.run calls).params.theta.length = 5 := by
    subst hm0
    obtain ⟨_, fx, s, hs, hB, hr, _⟩ := make_built g _ _ kin ns hlen f0 h0
    obtain ⟨_, hB', _⟩ := run_built hlen (setupCalcs_real _ _ _ hs) calls _ s hB hr
      (fun ha => by rw [show g.aperCfg.adaptive = false from had] at ha; cases ha)
    exact ⟨hB'.params.varyEq, hB'.params.len.trans (by simp [hts])⟩
  have hin : InBounds 5 (vs ++ [false, false]) bounds (fit.map Fl.fin) ↔ InBounds 3 vs bounds (fit.map Fl.fin) := by
    unfold InBounds
    constructor
    · intro H i hi hv
      have h := H i (by omega) (by rw [List.getElem?_append_left (by omega)]; exact hv)
      rwa [List.take_append_of_le_length (by omega)] at h
    · intro H i hi hv
      by_cases h3 : i < 3
      · rw [List.getElem?_append_left (by omega)] at hv
        rw [List.take_append_of_le_length (by omega)]
        exact H i h3 hv
      · rw [List.getElem?_append_right (by omega), hvs] at hv
        have : i = 3 ∨ i = 4 := by omega
        rcases this with rfl | rfl <;> simp at hv
  have hpr := C03_prior_indicator (((m0.make g f0).1.run calls).params.theta.map Fl.fin) (vs ++ [false, false]) bounds
    (fit.map Fl.fin) (by simp [hlen', hvs]) (by
      rw [List.length_map, hlen', List.length_map, hfit, List.take_of_length_le (by simp [hvs])]
      simp) (by
      intro i hi hv
      by_cases h3 : i < 3
      · rw [List.getElem?_append_left (by omega)] at hv
        exact hb i hv
      · rw [List.getElem?_append_right (by omega), hvs] at hv
        rw [List.length_map, hlen'] at hi
        have : i = 3 ∨ i = 4 := by omega
        rcases this with rfl | rfl <;> simp at hv)
  rw [List.length_map, hlen', hin] at hpr
  have hfin : (fit.map Fl.fin).map Fl.finVal = fit := by
    rw [List.map_map]
    exact List.map_id'' (fun x => rfl) fit
  constructor
  · intro hout
    unfold KinModelState.lnprob lnprob
    rw [hvary, hpr.2 hout]
    rfl
  · intro va rt sig hfull hp hins
    have h1 := hlike va rt sig hfit hfull hp
    unfold KinModelState.lnprob lnprob
    rw [hvary, hpr.1 hins]
    simp only [hfin]
    revert h1
    generalize (((m0.make g f0).1.run calls).lnlike fit) = x
    obtain ⟨a, b⟩ := x
    intro h1
    simp only at h1
    subst h1
    have : (0 : Fl ℝ) = .fin 0 := rfl
    simp [this, Fl.isFinite]

/-- the values of one parameter allowed by the settings: the closed interval of its bounds, or its fixed value -/
def allowed (free : Bool) (t lo hi : ℝ) : Set ℝ := if free then Set.Icc lo hi else {t}

theorem allowed_compact (b : Bool) (t lo hi : ℝ) : IsCompact (allowed b t lo hi) := by
  unfold allowed
  split
  · exact isCompact_Icc
  · exact isCompact_singleton

theorem allowed_nonempty (b : Bool) (t lo hi : ℝ) (h : b = true → lo ≤ hi) : (allowed b t lo hi).Nonempty := by
  unfold allowed
  split
  · exact Set.nonempty_Icc.2 (h ‹_›)
  · exact Set.singleton_nonempty t

/-- the free ones among three parameters -/
def freeOf (v0 v1 v2 : Bool) (a b c : ℝ) : List ℝ :=
  (if v0 then [a] else []) ++ ((if v1 then [b] else []) ++ if v2 then [c] else [])

/-- a fitting vector of the right length holds the free ones among three parameters, the others having their fixed values -/
theorem free_cover (t0 t1 t2 : ℝ) (v0 v1 v2 : Bool) (fit : List ℝ) (hfit : fit.length = [v0, v1, v2].count true) :
    ∃ a b c, fit = freeOf v0 v1 v2 a b c ∧ (v0 = false → a = t0) ∧ (v1 = false → b = t1) ∧ (v2 = false → c = t2) := by
  cases v0 <;> cases v1 <;> cases v2 <;>
    simp only [List.count_cons, List.count_nil, beq_self_eq_true, if_true, Bool.false_beq, Bool.false_eq_true, if_false, Bool.not_true,
      Nat.zero_add, Nat.add_zero] at hfit <;>
    simp only [freeOf, Bool.false_eq_true, if_false, if_true, List.nil_append, List.append_nil, List.cons_append]
  · exact ⟨t0, t1, t2, List.length_eq_zero_iff.1 hfit, by simp⟩
  · obtain ⟨x, rfl⟩ := List.length_eq_one_iff.1 hfit
    exact ⟨t0, t1, x, rfl, by simp⟩
  · obtain ⟨x, rfl⟩ := List.length_eq_one_iff.1 hfit
    exact ⟨t0, x, t2, rfl, by simp⟩
  · obtain ⟨x, y, rfl⟩ := List.length_eq_two.1 hfit
    exact ⟨t0, x, y, rfl, by simp⟩
  · obtain ⟨x, rfl⟩ := List.length_eq_one_iff.1 hfit
    exact ⟨x, t1, t2, rfl, by simp⟩
  · obtain ⟨x, y, rfl⟩ := List.length_eq_two.1 hfit
    exact ⟨x, t1, y, rfl, by simp⟩
  · obtain ⟨x, y, rfl⟩ := List.length_eq_two.1 hfit
    exact ⟨x, y, t2, rfl, by simp⟩
  · obtain ⟨x, y, w, rfl⟩ := List.length_eq_three.1 hfit
    exact ⟨x, y, w, rfl, by simp⟩

/-- the parameters are those of the list -/
theorem free_eval (t0 t1 t2 shift z : ℝ) (v0 v1 v2 : Bool) (a b c : ℝ)
    (ha : v0 = false → a = t0) (hb' : v1 = false → b = t1) (hc : v2 = false → c = t2) :
    (updateParameters ([t0, t1, t2] ++ [shift, z]) ([v0, v1, v2] ++ [false, false]) (freeOf v0 v1 v2 a b c)).1 =
      [a, b, c, shift, z] := by
  cases v0 <;> cases v1 <;> cases v2 <;> simp_all [freeOf, updateParameters]

/-- the list is in the bounds exactly if each parameter is allowed -/
theorem free_bounds (t0 t1 t2 : ℝ) (v0 v1 v2 : Bool) (lo hi : Nat → ℝ) (bounds : List (Option (Fl ℝ × Fl ℝ)))
    (hb : ∀ i : Nat, [v0, v1, v2][i]? = some true → bounds[i]? = some (some (.fin (lo i), .fin (hi i)))) (a b c : ℝ)
    (ha : v0 = false → a = t0) (hb' : v1 = false → b = t1) (hc : v2 = false → c = t2) :
    InBounds 3 [v0, v1, v2] bounds ((freeOf v0 v1 v2 a b c).map Fl.fin) ↔
        a ∈ allowed v0 t0 (lo 0) (hi 0) ∧ b ∈ allowed v1 t1 (lo 1) (hi 1) ∧ c ∈ allowed v2 t2 (lo 2) (hi 2) := by
  have h3 : ∀ P : Nat → Prop, (∀ i < 3, P i) ↔ P 0 ∧ P 1 ∧ P 2 :=
    fun P => ⟨fun h => ⟨h 0 (by omega), h 1 (by omega), h 2 (by omega)⟩, fun h i hi => by
      have : i = 0 ∨ i = 1 ∨ i = 2 := by omega
      rcases this with rfl | rfl | rfl
      exacts [h.1, h.2.1, h.2.2]⟩
  have hb0 := hb 0
  have hb1 := hb 1
  have hb2 := hb 2
  unfold InBounds allowed
  rw [h3]
  cases v0 <;> cases v1 <;> cases v2 <;> simp_all [freeOf, Fl.leB]

/-- **C228**: with bounds that are not empty and leave out a vanishing turnover radius and dispersions that are not positive, there are
parameters inside the bounds at which `lnprob` is finite and not smaller than at any other fitting vector, and they do not depend on
what was evaluated before. -/
theorem C228_maximum {r c : Nat} (g : KinInput r c) (hc : Luminous g.aperCfg) (had : g.cfg.adaptive = false)
    (hF : 0 ≤ g.cfg.psf.fwhm) (hst : ¬ g.cfg.psf.StampFails) (hker : g.cfg.psf.fwhm = 0 ∨ KernelFits g.aperCfg)
    (kin : KinProfile) (hk : kin.shape = (some 2, some 1)) (f e m w : Fin r → Fin c → ℝ)
    (hd : g.data = finData f e m w) (he : ∀ i j, e i j ≠ 0) (ns : Bool)
    (hns : ns = true ∨ ∃ cols, cols ≠ [] ∧ g.nosky = some cols) (shift z : ℝ) (hz : 0 < 1 + z)
    (t0 t1 t2 : ℝ) (v0 v1 v2 : Bool) (f0 : List ℝ) (m0 : KinModelState r c)
    (hm0 : m0 = KinModelState.init ([t0, t1, t2] ++ [shift, z]) ([v0, v1, v2] ++ [false, false]) kin ns)
    (h0 : (m0.make g f0).2 = .ok ()) (bounds : List (Option (Fl ℝ × Fl ℝ))) (lo hi : Nat → ℝ)
    (hb : ∀ i : Nat, [v0, v1, v2][i]? = some true → bounds[i]? = some (some (.fin (lo i), .fin (hi i))) ∧ lo i ≤ hi i)
    (hrt : if v1 then 0 < lo 1 ∨ hi 1 < 0 else t1 ≠ 0) (hsig : if v2 then 0 < lo 2 else 0 < t2) :
    ∃ best : List ℝ, best.length = [v0, v1, v2].count true ∧ InBounds 3 [v0, v1, v2] bounds (best.map Fl.fin) ∧ ∃ top : ℝ,
      ∀ calls : List (KinCall r c), (((m0.make g f0).1.run calls).lnprob bounds best).2 = .ok (.fin top) ∧
        ∀ fit : List ℝ, fit.length = [v0, v1, v2].count true →
          ∃ q, (((m0.make g f0).1.run calls).lnprob bounds fit).2 = .ok q ∧ Fl.leB q (.fin top) = true := by
  obtain ⟨L, hLc, hL⟩ := C172_posterior g hc had hF hst hker kin hk f e m w hd he ns hns shift z hz
  have hb1 : ∀ i : Nat, [v0, v1, v2][i]? = some true → bounds[i]? = some (some (.fin (lo i), .fin (hi i))) :=
    fun i h => (hb i h).1
  have hsub : allowed v0 t0 (lo 0) (hi 0) ×ˢ (allowed v1 t1 (lo 1) (hi 1) ×ˢ allowed v2 t2 (lo 2) (hi 2)) ⊆ Regular := by
    rintro ⟨a, b, d⟩ ⟨-, h1, h2⟩
    simp only at h1 h2
    constructor
    · unfold allowed at h1
      show b ≠ 0
      cases v1
      · simp only [Bool.false_eq_true, if_false, Set.mem_singleton_iff] at h1 hrt
        rw [h1]; exact hrt
      · simp only [if_true, Set.mem_Icc] at h1 hrt
        rintro rfl
        rcases hrt with h | h <;> linarith [h1.1, h1.2]
    · unfold allowed at h2
      show 0 < d
      cases v2
      · simp only [Bool.false_eq_true, if_false, Set.mem_singleton_iff] at h2 hsig
        rw [h2]; exact hsig
      · simp only [if_true, Set.mem_Icc] at h2 hsig
        linarith [h2.1]
  obtain ⟨⟨a, b, d⟩, hp, hmax⟩ := ((allowed_compact v0 t0 (lo 0) (hi 0)).prod
    ((allowed_compact v1 t1 (lo 1) (hi 1)).prod (allowed_compact v2 t2 (lo 2) (hi 2)))).exists_isMaxOn
    ((allowed_nonempty v0 t0 _ _ fun h => (hb 0 (by simp [h])).2).prod
      ((allowed_nonempty v1 t1 _ _ fun h => (hb 1 (by simp [h])).2).prod
        (allowed_nonempty v2 t2 _ _ fun h => (hb 2 (by simp [h])).2))) (hLc.mono hsub)
  have hlen : (freeOf v0 v1 v2 a b d).length = [v0, v1, v2].count true := by
    cases v0 <;> cases v1 <;> cases v2 <;> rfl
  have hfix : (v0 = false → a = t0) ∧ (v1 = false → b = t1) ∧ (v2 = false → d = t2) := by
    obtain ⟨h1, h2, h3⟩ := hp
    unfold allowed at h1 h2 h3
    refine ⟨?_, ?_, ?_⟩ <;> rintro rfl
    · simpa using h1
    · simpa using h2
    · simpa using h3
  have hpost := fun calls => hL [t0, t1, t2] [v0, v1, v2] f0 calls m0 rfl rfl hm0 h0 bounds fun i h => ⟨_, hb1 i h⟩
  have hins := (free_bounds t0 t1 t2 v0 v1 v2 lo hi bounds hb1 a b d hfix.1 hfix.2.1 hfix.2.2).2 ⟨hp.1, hp.2.1, hp.2.2⟩
  refine ⟨freeOf v0 v1 v2 a b d, hlen, hins, L (a, b, d), fun calls => ⟨?_, fun fit hfit => ?_⟩⟩
  · exact (hpost calls _ hlen).2 a b d (free_eval t0 t1 t2 shift z v0 v1 v2 a b d hfix.1 hfix.2.1 hfix.2.2) (hsub hp) hins
  · by_cases hi' : InBounds 3 [v0, v1, v2] bounds (fit.map Fl.fin)
    · obtain ⟨a', b', d', rfl, e1, e2, e3⟩ := free_cover t0 t1 t2 v0 v1 v2 fit hfit
      have hp' := (free_bounds t0 t1 t2 v0 v1 v2 lo hi bounds hb1 a' b' d' e1 e2 e3).1 hi'
      have hp'' : (a', b', d') ∈ allowed v0 t0 (lo 0) (hi 0) ×ˢ (allowed v1 t1 (lo 1) (hi 1) ×ˢ allowed v2 t2 (lo 2) (hi 2)) :=
        ⟨hp'.1, hp'.2.1, hp'.2.2⟩
      refine ⟨_, (hpost calls _ hfit).2 a' b' d' (free_eval t0 t1 t2 shift z v0 v1 v2 a' b' d' e1 e2 e3) (hsub hp'') hi', ?_⟩
      simpa [Fl.leB] using hmax hp''
    · exact ⟨_, (hpost calls _ hfit).1 hi', rfl⟩

/-- the hypotheses are met: two rows and two wavelengths with seeing and instrumental broadening, rotation speed between -100 and 100
and dispersion between 1 and 50 free, turnover radius fixed -/
example : ∃ (g : KinInput 2 2) (m0 : KinModelState 2 2) (best : List ℝ) (top : ℝ),
    (m0.make g [1, 1]).2 = .ok () ∧ best.length = 2 ∧ ∀ calls : List (KinCall 2 2), ∀ fit : List ℝ, fit.length = 2 →
      ∃ q, (((m0.make g [1, 1]).1.run calls).lnprob [some (.fin (-100), .fin 100), none, some (.fin 1, .fin 50)] fit).2 = .ok q ∧
        Fl.leB q (.fin top) = true := by
  obtain ⟨g, m0, ⟨hg, hno⟩, hlum, had, hd, hm0, h0, -, -⟩ := steady_object
  have hcfg : g.aperCfg = steadySlit := by
    unfold KinInput.aperCfg
    rw [hg]
    rfl
  obtain ⟨best, h1, -, top, h2⟩ := C228_maximum g hlum had (by rw [hg]; exact zero_le_one) (by rw [hg]; rintro ⟨h, -⟩; cases h)
    (Or.inr (by rw [hcfg]; exact steadySlit_kernel)) ⟨[], some ⟨[], 2⟩, some ⟨[], 1⟩⟩ rfl _ _ _ _ hd (fun _ _ => one_ne_zero) false
    (Or.inr ⟨[0, 1], by simp, hno⟩) 0 0 (by norm_num) 1 1 1 true false true [1, 1] m0 hm0 h0
    [some (.fin (-100), .fin 100), none, some (.fin 1, .fin 50)] (fun i => if i = 0 then -100 else 1)
    (fun i => if i = 0 then 100 else 50) (by
      rintro (_ | _ | _ | i) h
      · norm_num
      · cases h
      · norm_num
      · simp at h) (by simp) (by simp)
  exact ⟨g, m0, best, top, h0, h1, fun calls fit hfit => (h2 calls).2 fit hfit⟩

end Misfit
